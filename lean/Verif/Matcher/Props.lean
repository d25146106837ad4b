import Verif.Matcher.Model
import Mathlib.Logic.Relation

/-!
# C18–C21: the type registry
-/
namespace Verif.Matcher
open Verif Verif.CType

variable {H : Type}

/-! ## Spec vocabulary: histories of calls -/

/-- A history aliases two normal forms: some `add_type_alias` call named them, in either order. -/
def Aliased (ops : List (Op H)) (a b : Str) : Prop :=
  ∃ x y, Op.alias x y ∈ ops ∧
    ((normalize x = .ok a ∧ normalize y = .ok b) ∨ (normalize x = .ok b ∧ normalize y = .ok a))

/-- The call registers a handler under the normal form `n`. -/
def registers (n : Str) : Op H → Option H
  | .register name h => match normalize name with
    | .ok n' => if n' = n then some h else none
    | _ => none
  | _ => none

/-- The handler of the first `register` call whose name has normal form `n`. -/
def firstReg (ops : List (Op H)) (n : Str) : Option H := ops.findSome? (registers n)

/-! ## Helper lemmas -/

theorem apply_types (m : Matcher H) (op : Op H) (n : Str) :
    (m.apply op).types.get n = (m.types.get n).or (registers n op) := by
  cases op with
  | register name h =>
    simp only [Matcher.apply, Matcher.register, registers]
    cases hn : normalize name with
    | ok n' =>
      simp only
      cases hg : m.types.get n' with
      | some h' =>
        simp only
        split
        · rename_i e; subst e; rw [hg]; rfl
        · simp
      | none =>
        simp only [Dict.get_set]
        split
        · rename_i e; subst e; rw [hg]; rfl
        · simp
    | raised e => simp
    | unmodelled => simp
    | running => simp
  | «alias» a b =>
    simp only [Matcher.apply, Matcher.addTypeAlias, registers, Option.or_none]
    cases normalize a <;> simp only
    cases normalize b <;> simp only
  | transformation t => simp [Matcher.apply, Matcher.registerTransformation, registers]

theorem foldl_types (ops : List (Op H)) (m : Matcher H) (n : Str) :
    (ops.foldl Matcher.apply m).types.get n = (m.types.get n).or (firstReg ops n) := by
  induction ops generalizing m with
  | nil => simp [firstReg]
  | cons op ops ih =>
    rw [List.foldl_cons, ih, apply_types]
    unfold firstReg
    rw [List.findSome?_cons]
    cases h : m.types.get n <;> cases h' : registers n op <;> simp

/-- Every binding of the alias tables comes from a call. -/
def AliasesFrom (ops : List (Op H)) (m : Matcher H) : Prop :=
  ∀ a b, ((a, b) ∈ m.aliases ∨ (a, b) ∈ m.aliasesRev) → Aliased ops a b

theorem apply_aliases {ops : List (Op H)} {m : Matcher H} (op : Op H) (h : AliasesFrom ops m) :
    AliasesFrom (ops ++ [op]) (m.apply op) := by
  have mono : ∀ a b, Aliased ops a b → Aliased (ops ++ [op]) a b := by
    rintro a b ⟨x, y, hm, hh⟩
    exact ⟨x, y, by simp [hm], hh⟩
  cases op with
  | register name hd =>
    intro a b hab
    apply mono
    apply h
    simp only [Matcher.apply, Matcher.register] at hab
    cases hn : normalize name with
    | ok n' =>
      rw [hn] at hab
      simp only at hab
      cases hg : m.types.get n' with
      | some h' => rw [hg] at hab; exact hab
      | none => rw [hg] at hab; exact hab
    | raised e => rw [hn] at hab; exact hab
    | unmodelled => rw [hn] at hab; exact hab
    | running => rw [hn] at hab; exact hab
  | «alias» x y =>
    intro a b hab
    simp only [Matcher.apply, Matcher.addTypeAlias] at hab
    cases hx : normalize x with
    | ok f =>
      rw [hx] at hab
      simp only at hab
      cases hy : normalize y with
      | ok t =>
        rw [hy] at hab
        simp only [Dict.set, List.mem_cons, Prod.mk.injEq] at hab
        rcases hab with (⟨rfl, rfl⟩ | hab) | (⟨rfl, rfl⟩ | hab)
        · exact ⟨x, y, by simp, .inr ⟨hx, hy⟩⟩
        · exact mono _ _ (h _ _ (.inl hab))
        · exact ⟨x, y, by simp, .inl ⟨hx, hy⟩⟩
        · exact mono _ _ (h _ _ (.inr hab))
      | raised e => rw [hy] at hab; exact mono _ _ (h _ _ hab)
      | unmodelled => rw [hy] at hab; exact mono _ _ (h _ _ hab)
      | running => rw [hy] at hab; exact mono _ _ (h _ _ hab)
    | raised e => rw [hx] at hab; exact mono _ _ (h _ _ hab)
    | unmodelled => rw [hx] at hab; exact mono _ _ (h _ _ hab)
    | running => rw [hx] at hab; exact mono _ _ (h _ _ hab)
  | transformation t =>
    intro a b hab
    exact mono _ _ (h _ _ hab)

theorem run_aliases (ops : List (Op H)) : AliasesFrom ops (run ops) := by
  suffices ∀ (done ops : List (Op H)) (m : Matcher H), AliasesFrom done m →
      AliasesFrom (done ++ ops) (ops.foldl Matcher.apply m) by
    have h := this [] ops {} (by intro a b hab; simp at hab)
    simpa [run] using h
  intro done ops
  induction ops generalizing done with
  | nil => intro m h; simpa using h
  | cons op ops ih =>
    intro m h
    have := ih (done ++ [op]) _ (apply_aliases op h)
    simpa using this

/-! ## Raw lookup -/

/-- Names that have an alias. -/
def Matcher.known (m : Matcher H) : List Str := m.aliases.map (·.1) ++ m.aliasesRev.map (·.1)

theorem known_of_toTry {m : Matcher H} {n a : Str} (h : a ∈ m.toTry n) : n ∈ m.known := by
  unfold Matcher.toTry at h
  simp at h
  unfold Matcher.known
  rcases h with h | h
  · have := Dict.get_mem h
    simp; left; exact ⟨_, this⟩
  · have := Dict.get_mem h
    simp; right; exact ⟨_, this⟩

def left (m : Matcher H) (tried : List Str) : Nat := (m.known.filter (fun n => !tried.contains n)).length

theorem left_drop {m : Matcher H} {n : Str} {tried : List Str} (hk : n ∈ m.known) (hn : n ∉ tried) :
    left m (tried ++ [n]) < left m tried := by
  unfold left
  have : m.known.filter (fun x => !(tried ++ [n]).contains x) =
      (m.known.filter (fun x => !tried.contains x)).filter (fun x => x ≠ n) := by
    rw [List.filter_filter]
    congr 1
    funext x
    by_cases hx : x = n <;> simp [hx]
  rw [this]
  have hmem : n ∈ m.known.filter (fun x => !tried.contains x) := by simp [hk, hn]
  exact List.length_filter_lt_length_iff_exists.2 ⟨n, hmem, by simp⟩

theorem left_same {m : Matcher H} {n : Str} {tried : List Str} :
    left m (tried ++ [n]) ≤ left m tried := by
  unfold left
  have : m.known.filter (fun x => !(tried ++ [n]).contains x) =
      (m.known.filter (fun x => !tried.contains x)).filter (fun x => x ≠ n) := by
    rw [List.filter_filter]
    congr 1
    funext x
    by_cases hx : x = n <;> simp [hx]
  rw [this]
  exact List.length_filter_le _ _

theorem rawRec_fuel (m : Matcher H) : ∀ (f : Nat) (n : Str) (tried : List Str),
    2 * left m tried + (if n ∈ tried then 1 else 0) + 1 ≤ f → m.rawRec f n tried ≠ .running := by
  intro f
  induction f with
  | zero => intro n tried h; omega
  | succ f ih =>
    intro n tried h
    unfold Matcher.rawRec
    split
    · simp
    · split
      · rename_i a ha
        have hmem := List.mem_of_find?_eq_some ha
        have hnt : a ∉ tried := by have := List.find?_some ha; simpa using this
        have hk := known_of_toTry hmem
        apply ih
        by_cases hn : n ∈ tried
        · have hne : a ≠ n := fun e => hnt (e ▸ hn)
          have : a ∉ tried ++ [n] := by simp [hnt, hne]
          rw [if_neg this]
          rw [if_pos hn] at h
          have := left_same (m := m) (n := n) (tried := tried)
          omega
        · have := left_drop hk hn
          rw [if_neg hn] at h
          split <;> omega
      · simp

theorem rawRec_mono (m : Matcher H) : ∀ (f : Nat) (n : Str) (tried : List Str) (r : Raw H),
    m.rawRec f n tried = r → r ≠ .running → ∀ f', f ≤ f' → m.rawRec f' n tried = r := by
  intro f
  induction f with
  | zero => intro n tried r h hr; simp [Matcher.rawRec] at h; exact absurd h.symm hr
  | succ f ih =>
    intro n tried r h hr f' hf
    obtain ⟨g, rfl⟩ : ∃ g, f' = g + 1 := ⟨f' - 1, by omega⟩
    unfold Matcher.rawRec at h ⊢
    split
    · rename_i x hx; rw [hx] at h; exact h
    · rename_i hx
      rw [hx] at h
      simp only at h
      split
      · rename_i a ha; rw [ha] at h; exact ih _ _ _ h hr _ (by omega)
      · rename_i ha; rw [ha] at h; exact h

/-- C19: lookup through aliases ends for every set of aliases, including cyclic ones. -/
theorem C19_terminates (m : Matcher H) (name : Str) : m.raw name ≠ .running := by
  unfold Matcher.raw
  apply rawRec_fuel
  have : left m [] ≤ m.aliases.length + m.aliasesRev.length := by
    unfold left
    refine Nat.le_trans (List.length_filter_le _ _) ?_
    simp [Matcher.known]
  unfold Matcher.rawFuel
  simp
  omega

theorem rawRec_path (m : Matcher H) : ∀ (f : Nat) (n : Str) (tried : List Str) (h : H),
    m.rawRec f n tried = .found h →
    ∃ n', Relation.ReflTransGen (fun a b => b ∈ m.toTry a) n n' ∧ m.types.get n' = some h := by
  intro f
  induction f with
  | zero => intro n tried h hh; simp [Matcher.rawRec] at hh
  | succ f ih =>
    intro n tried h hh
    unfold Matcher.rawRec at hh
    split at hh
    · rename_i h' hg; cases hh; exact ⟨n, .refl, hg⟩
    · split at hh
      · rename_i a ha
        obtain ⟨n', hp, hg⟩ := ih _ _ _ hh
        exact ⟨n', .head (List.mem_of_find?_eq_some ha) hp, hg⟩
      · cases hh

theorem run_types (ops : List (Op H)) (n : Str) : (run ops).types.get n = firstReg ops n := by
  unfold run
  rw [foldl_types]
  rfl

/-- C19: a handler found for a name was registered for a name that alias calls connect to it. -/
theorem C19_finds_only_aliases (ops : List (Op H)) (name : Str) (h : H)
    (hf : (run ops).raw name = .found h) :
    ∃ n', Relation.ReflTransGen (Aliased ops) name n' ∧ firstReg ops n' = some h := by
  obtain ⟨n', hp, hg⟩ := rawRec_path _ _ _ _ _ hf
  refine ⟨n', ?_, by rw [← run_types]; exact hg⟩
  refine Relation.ReflTransGen.mono (r := fun a b => b ∈ (run ops).toTry a) (fun a b hab => ?_) _ _ hp
  unfold Matcher.toTry at hab
  simp at hab
  rcases hab with hab | hab
  · exact run_aliases ops a b (.inl (Dict.get_mem hab))
  · exact run_aliases ops a b (.inr (Dict.get_mem hab))

/-- Non-vacuity for C19: two aliases forming a cycle, and a lookup that goes round it. -/
example : (run (H := Nat) [.alias "A".toList "B".toList, .alias "B".toList "A".toList]).raw "A".toList = .keyError ∧
    (run (H := Nat) [.alias "A".toList "B".toList, .register "B".toList 7]).raw "A".toList = .found 7 := by
  constructor <;> decide +kernel

/-! ## C20 -/

/-- C20 fails: `X` is an alias of `A` and `B` an alias of `X`; `B` has a handler, but lookup of
`X` follows only the alias `A` and gives up. -/
theorem C20_second_alias_not_tried_counterexample :
    let ops : List (Op Nat) := [.alias "A".toList "X".toList, .alias "X".toList "B".toList, .register "B".toList 1]
    firstReg ops "B".toList = some 1 ∧ Aliased ops "X".toList "B".toList ∧
      (run ops).raw "X".toList = .keyError := by
  refine ⟨by decide +kernel, ?_, by decide +kernel⟩
  exact ⟨"X".toList, "B".toList, by simp, .inl ⟨norm_eq _ _ (by decide +kernel), norm_eq _ _ (by decide +kernel)⟩⟩

/-- A second way C20 fails: a type with two aliases keeps only the last one in the reverse
direction. -/
theorem C20_overwritten_alias_counterexample :
    let ops : List (Op Nat) := [.alias "A".toList "X".toList, .alias "A".toList "Y".toList, .register "X".toList 1]
    firstReg ops "X".toList = some 1 ∧ Aliased ops "A".toList "X".toList ∧
      (run ops).raw "A".toList = .keyError := by
  refine ⟨by decide +kernel, ?_, by decide +kernel⟩
  exact ⟨"A".toList, "X".toList, by simp, .inl ⟨norm_eq _ _ (by decide +kernel), norm_eq _ _ (by decide +kernel)⟩⟩

/-- A chain of typedefs: each name is the alias (`add_type_alias(next, name)`) of the next. -/
def Chain (m : Matcher H) : List Str → Prop
  | [] => True
  | [_] => True
  | a :: b :: r => m.aliases.get a = some b ∧ m.types.get a = none ∧ Chain m (b :: r)

theorem chain_found (m : Matcher H) (h : H) : ∀ (l : List Str) (a : Str) (tried : List Str),
    Chain m (a :: l) → (a :: l).Nodup → (∀ x ∈ a :: l, x ∉ tried) →
    m.types.get ((a :: l).getLast (by simp)) = some h → ∃ f, m.rawRec f a tried = .found h := by
  intro l
  induction l with
  | nil => intro a tried _ _ _ hl; exact ⟨1, by simp [Matcher.rawRec, show m.types.get a = some h from hl]⟩
  | cons b r ih =>
    intro a tried hc hnd hnt hl
    obtain ⟨h1, h2, h3⟩ := hc
    obtain ⟨f, hf⟩ := ih b (tried ++ [a]) h3 (List.nodup_cons.1 hnd).2 (by
      intro x hx
      simp only [List.mem_append, List.mem_singleton, not_or]
      exact ⟨hnt x (List.mem_cons_of_mem _ hx), fun e => (List.nodup_cons.1 hnd).1 (e ▸ hx)⟩)
      (by simpa [List.getLast_cons] using hl)
    refine ⟨f + 1, ?_⟩
    have hfind : (m.toTry a).find? (fun x => !tried.contains x) = some b := by
      unfold Matcher.toTry
      rw [h1]
      have : b ∉ tried := hnt b (by simp)
      simp [this]
    unfold Matcher.rawRec
    rw [h2, hfind]
    exact hf

/-- C20, the part that holds: along a chain of typedefs, without repetition, of any length, the
handler at the end is found.  (Missing: connections that need a choice between two aliases, for
which the property is false, see the counterexamples.) -/
theorem C20_typedef_chain_partial (m : Matcher H) (a : Str) (l : List Str) (h : H)
    (hc : Chain m (a :: l)) (hnd : (a :: l).Nodup)
    (hl : m.types.get ((a :: l).getLast (by simp)) = some h) : m.raw a = .found h := by
  obtain ⟨f, hf⟩ := chain_found m h l a [] hc hnd (by simp) hl
  have hr := C19_terminates m a
  unfold Matcher.raw at hr ⊢
  rcases Nat.le_total f m.rawFuel with hle | hle
  · exact rawRec_mono m f _ _ _ hf (by simp) _ hle
  · rw [← rawRec_mono m m.rawFuel a [] _ rfl hr f hle]; exact hf

/-- Non-vacuity for C20: a chain of two typedefs. -/
example : ∃ m : Matcher Nat, Chain m ["u8".toList, "byte".toList, "uchar".toList] ∧
    m.types.get "uchar".toList = some 3 :=
  ⟨{ types := [("uchar".toList, 3)],
     aliases := [("u8".toList, "byte".toList), ("byte".toList, "uchar".toList)] }, by
    refine ⟨⟨by decide, by decide, by decide, by decide, trivial⟩, by decide⟩⟩

/-! ## C18 -/

/-- C18: whatever the history of calls, a normal form is bound to the handler of the first
`register` call that named it; later calls never rebind it. -/
theorem C18_first_registration_wins (ops : List (Op H)) (n : Str) :
    (run ops).types.get n = firstReg ops n := run_types ops n

/-- C18: `register` refuses exactly the names whose normal form is taken, with `ValueError`, and
then nothing has changed. -/
theorem C18_duplicate_refused (ops : List (Op H)) (name n : Str) (h : H) (hn : normalize name = .ok n) :
    ((firstReg ops n).isSome → (run ops).register name h = .raised .valueError ∧
      run (ops ++ [.register name h]) = run ops) ∧
    (firstReg ops n = none → ∃ m, (run ops).register name h = .ok m ∧ m.types.get n = some h ∧
      ∀ n', n' ≠ n → m.types.get n' = firstReg ops n') := by
  constructor
  · intro hs
    rw [← run_types] at hs
    have hr : (run ops).register name h = .raised .valueError := by
      unfold Matcher.register
      rw [hn]
      simp only
      cases hg : (run ops).types.get n with
      | none => rw [hg] at hs; cases hs
      | some x => rfl
    refine ⟨hr, ?_⟩
    have e : run (ops ++ [.register name h]) = (run ops).apply (.register name h) := by
      simp [run]
    rw [e]
    simp only [Matcher.apply]
    rw [hr]
  · intro hs
    rw [← run_types] at hs
    refine ⟨_, by unfold Matcher.register; rw [hn]; simp only; rw [hs], by simp [Dict.get_set], ?_⟩
    intro n' hne
    simp only [Dict.get_set]
    rw [if_neg (fun e => hne e.symm), run_types]

theorem raw_of_types {m : Matcher H} {n : Str} {h : H} (hg : m.types.get n = some h) : m.raw n = .found h := by
  unfold Matcher.raw Matcher.rawFuel Matcher.rawRec
  rw [hg]

theorem canon_unqualified {l : List Item} (h : ∀ i ∈ l, i.isMod = false) : canon l = l := by
  suffices ∀ (l acc : List Item), (∀ i ∈ acc, i.isMod = false) → (∀ i ∈ l, i.isMod = false) → canonAcc acc l = acc ++ l by
    exact this l [] (by simp) h
  have hseg : ∀ s : List Item, (∀ i ∈ s, i.isMod = false) → canonSeg s = s := by
    intro s hs
    unfold canonSeg
    have h1 : s.filter (fun i => !i.isMod) = s := by rw [List.filter_eq_self]; intro i hi; simp [hs i hi]
    have h2 : ∀ n ∈ kModifiers, s.filter (·.isNamed n) = [] := by
      intro n hn
      rw [List.filter_eq_nil_iff]
      intro i hi
      simp [not_named_of_not_mod (hs i hi) n hn]
    rw [h1, h2 kConst (by decide), h2 kVolatile (by decide)]; simp
  intro l
  induction l with
  | nil => intro acc ha _; simp [canonAcc, hseg acc ha]
  | cons x r ih =>
    intro acc ha hl
    rw [canonAcc]
    split
    · rw [hseg acc ha, ih [] (by simp) (fun i hi => hl i (List.mem_cons_of_mem _ hi))]; simp
    · rw [ih]
      · simp
      · intro i hi
        simp at hi
        rcases hi with hi | rfl
        · exact ha i hi
        · exact hl _ (by simp)
      · exact fun i hi => hl i (List.mem_cons_of_mem _ hi)

theorem unqualified_deep (l : List Item) : unqualified (deepList l) = deepList (unqualified l) := by
  simp [unqualified, deepList_map, List.filter_map, Function.comp_def, deepItem_mod]

/-- C18: a handler registered for a type without top-level modifiers is found for every spelling
of that type, with any top-level modifiers added (`Same (unqualified l') l` says that `s` without
its top-level modifiers is the type `name`).  (Missing: names with top-level modifiers, for
which it is false, see the counterexample.) -/
theorem C18_registered_found_partial (ops : List (Op H)) (name s n : Str) (l l' : List Item) (h : H)
    (hn : normalize name = .ok n) (hreg : firstReg ops n = some h)
    (hd : Denotes name l)
    (hd' : Denotes s l') (hs : Same (unqualified l') l) :
    ∃ t, (run ops).lookup s = .ok (h, none, t) ∧ traits s = .ok t := by
  have key : ∃ t, traits s = .ok t ∧ t.noModifiers = unqualified (deepList l') := by
    rcases split_or l' with hf | ⟨pre, d, seg, rfl, h1, h2⟩
    · obtain ⟨t, ht, _, _, _, _, _, _, hm, _⟩ := C16_traits_value s l' hd' hf
      exact ⟨t, ht, hm⟩
    · obtain ⟨t, ht, _, _, _, _, _, _, hm, _⟩ := C16_traits_pointer s pre seg d hd' h1 h2
      exact ⟨t, ht, hm⟩
  obtain ⟨t, ht, hm⟩ := key
  have hmod : ∀ l : List Item, (∀ i ∈ l, i.isMod = false) → deepCanon l = deepList l := by
    intro l hl
    unfold deepCanon
    apply canon_unqualified
    intro i hi
    rw [deepList_map] at hi
    simp at hi
    obtain ⟨a, ha, rfl⟩ := hi
    rw [deepItem_mod]; exact hl a ha
  have e1 : render t.noModifiers = n := by
    have e2 := (normalize_iff name _).2 ⟨l, hd, rfl⟩
    rw [hn] at e2
    have e3 : n = render (deepCanon l) := by injection e2
    rw [e3, hm, unqualified_deep, ← (same_iff_deepCanon _ _).1 hs, hmod (unqualified l')]
    intro i hi; simpa [unqualified] using (List.mem_filter.1 hi).2
  refine ⟨t, ?_, ht⟩
  unfold Matcher.lookup
  rw [ht]
  simp only
  rw [e1, raw_of_types (by rw [run_types]; exact hreg)]

/-- C18 fails for names with top-level modifiers: a handler registered for `const char*` is not
found when looking up `const char*`. -/
theorem C18_modifier_name_unreachable_counterexample :
    let ops : List (Op Nat) := [.register "const char*".toList 1]
    firstReg ops "char const *".toList = some 1 ∧
    (run ops).lookup "const char*".toList = .raised (.typeLookupError ["char *".toList]) := by
  have h : ∀ (m : Matcher Nat) s e, (match m.lookup s with | .raised e' => decide (e' = e) | _ => false) = true →
      m.lookup s = .raised e := by
    intro m s e h
    split at h
    · rename_i e' he; rw [he]; simp at h; rw [h]
    · cases h
  exact ⟨by decide +kernel, h _ _ _ (by decide +kernel)⟩

/-- Non-vacuity for C18. -/
example : (match (run (H := Nat) [.register "Foo*".toList 5, .register "Foo *".toList 6]).lookup "const Foo * const".toList with
    | .ok (h, none, t) => (h, t.targetConst) | _ => (0, false)) = (5, true) := by decide +kernel

/-! ## C21 -/

/-- A transformation that does not help for `s`: not applicable, or its untransformed type has
no handler. -/
def Useless (m : Matcher H) (s : Str) (tr : Str → Option Str) : Prop :=
  tr s = none ∨ ∃ u t, tr s = some u ∧ traits u = .ok t ∧ m.raw (render t.noModifiers) = .keyError

theorem tryTransf_ok (m : Matcher H) (s : Str) : ∀ (trs : List (Str → Option Str)) (i : Nat) (tried : List Str)
    (h : H) (o : Option Nat) (t : Traits),
    m.tryTransf s i trs tried = .ok (h, o, t) ↔
      ∃ k tr u, trs[k]? = some tr ∧ o = some (i + k) ∧ tr s = some u ∧ traits u = .ok t ∧
        m.raw (render t.noModifiers) = .found h ∧ ∀ j tr', j < k → trs[j]? = some tr' → Useless m s tr' := by
  intro trs
  induction trs with
  | nil => intro i tried h o t; simp [Matcher.tryTransf]
  | cons tr0 rest ih =>
    intro i tried h o t
    unfold Matcher.tryTransf
    have shift : Useless m s tr0 →
        ((∃ k tr u, rest[k]? = some tr ∧ o = some (i + 1 + k) ∧ tr s = some u ∧ traits u = .ok t ∧
          m.raw (render t.noModifiers) = .found h ∧ ∀ j tr', j < k → rest[j]? = some tr' → Useless m s tr') ↔
        ∃ k tr u, (tr0 :: rest)[k]? = some tr ∧ o = some (i + k) ∧ tr s = some u ∧ traits u = .ok t ∧
          m.raw (render t.noModifiers) = .found h ∧
            ∀ j tr', j < k → (tr0 :: rest)[j]? = some tr' → Useless m s tr') := by
      intro hu
      constructor
      · rintro ⟨k, tr, u, h1, h2, h3, h4, h5, h6⟩
        refine ⟨k + 1, tr, u, by simpa using h1, by rw [h2]; congr 1; omega, h3, h4, h5, ?_⟩
        intro j tr' hj hh
        cases j with
        | zero => simp at hh; rw [← hh]; exact hu
        | succ j => exact h6 j tr' (by omega) (by simpa using hh)
      · rintro ⟨k, tr, u, h1, h2, h3, h4, h5, h6⟩
        cases k with
        | zero =>
          simp at h1
          subst h1
          exfalso
          rcases hu with hu | ⟨u', t', hu1, hu2, hu3⟩
          · rw [hu] at h3; cases h3
          · rw [hu1] at h3; cases h3
            rw [hu2] at h4; injection h4 with h4; subst h4
            rw [hu3] at h5; cases h5
        | succ k =>
          refine ⟨k, tr, u, by simpa using h1, by rw [h2]; congr 1; omega, h3, h4, h5, ?_⟩
          intro j tr' hj hh
          exact h6 (j + 1) tr' (by omega) (by simpa using hh)
    -- no solution when the first transformation blocks
    have block : ∀ u, tr0 s = some u → (∀ t', traits u ≠ .ok t') →
        ¬ ∃ k tr u, (tr0 :: rest)[k]? = some tr ∧ o = some (i + k) ∧ tr s = some u ∧ traits u = .ok t ∧
          m.raw (render t.noModifiers) = .found h ∧
            ∀ j tr', j < k → (tr0 :: rest)[j]? = some tr' → Useless m s tr' := by
      rintro u hu hb ⟨k, tr, u', h1, h2, h3, h4, h5, h6⟩
      cases k with
      | zero => simp at h1; subst h1; rw [hu] at h3; cases h3; exact hb _ h4
      | succ k =>
        rcases h6 0 tr0 (by omega) rfl with hh | ⟨u'', t'', hh1, hh2, _⟩
        · rw [hu] at hh; cases hh
        · rw [hu] at hh1; cases hh1; exact hb _ hh2
    cases htr : tr0 s with
    | none => simp only; rw [ih]; exact shift (.inl htr)
    | some u =>
      simp only
      cases hu : traits u with
      | ok t0 =>
        simp only
        cases hr : m.raw (render t0.noModifiers) with
        | found h0 =>
          simp only
          constructor
          · intro he
            injection he with he
            obtain ⟨rfl, he2⟩ := Prod.mk.inj he
            obtain ⟨rfl, rfl⟩ := Prod.mk.inj he2
            exact ⟨0, tr0, u, rfl, rfl, htr, hu, hr, by intro j tr' hj; omega⟩
          · rintro ⟨k, tr, u', h1, h2, h3, h4, h5, h6⟩
            cases k with
            | zero =>
              simp at h1; subst h1
              rw [htr] at h3; cases h3
              rw [hu] at h4; injection h4 with h4; subst h4
              rw [hr] at h5; injection h5 with h5; subst h5
              rw [h2]; rfl
            | succ k =>
              exfalso
              rcases h6 0 tr0 (by omega) rfl with hh | ⟨u'', t'', hh1, hh2, hh3⟩
              · rw [htr] at hh; cases hh
              · rw [htr] at hh1; cases hh1
                rw [hu] at hh2; injection hh2 with hh2; subst hh2
                rw [hr] at hh3; cases hh3
        | keyError => simp only; rw [ih]; exact shift (.inr ⟨u, t0, htr, hu, hr⟩)
        | running => exact absurd hr (C19_terminates m _)
      | raised e => simp only; constructor; (intro h; cases h); exact fun hh => absurd hh (block u htr (by simp [hu]))
      | unmodelled => simp only; constructor; (intro h; cases h); exact fun hh => absurd hh (block u htr (by simp [hu]))
      | running => simp only; constructor; (intro h; cases h); exact fun hh => absurd hh (block u htr (by simp [hu]))

/-- C21: exactly when a lookup succeeds, and with what.  Directly, when the type without its
modifiers has a handler; otherwise through the first transformation, in registration order, that
applies and whose untransformed type has a handler, all earlier ones being useless. -/
theorem C21_lookup_ok_iff (m : Matcher H) (s : Str) (h : H) (o : Option Nat) (t : Traits) :
    m.lookup s = .ok (h, o, t) ↔
      ∃ t0, traits s = .ok t0 ∧
        ((o = none ∧ t = t0 ∧ m.raw (render t0.noModifiers) = .found h) ∨
         (m.raw (render t0.noModifiers) = .keyError ∧
          ∃ k tr u, m.transformations[k]? = some tr ∧ o = some k ∧ tr s = some u ∧ traits u = .ok t ∧
            m.raw (render t.noModifiers) = .found h ∧
            ∀ j tr', j < k → m.transformations[j]? = some tr' → Useless m s tr')) := by
  unfold Matcher.lookup
  cases ht : traits s with
  | ok t0 =>
    simp only
    cases hr : m.raw (render t0.noModifiers) with
    | found h0 =>
      simp only
      constructor
      · intro he
        injection he with he
        obtain ⟨rfl, he2⟩ := Prod.mk.inj he
        obtain ⟨rfl, rfl⟩ := Prod.mk.inj he2
        exact ⟨_, rfl, .inl ⟨rfl, rfl, hr⟩⟩
      · rintro ⟨t1, h1, h2⟩
        injection h1 with h1; subst h1
        rcases h2 with ⟨rfl, rfl, h3⟩ | ⟨h3, _⟩
        · rw [hr] at h3; injection h3 with h3; subst h3; rfl
        · rw [hr] at h3; cases h3
    | keyError =>
      simp only
      rw [tryTransf_ok]
      constructor
      · rintro ⟨k, tr, u, h1, h2, h3⟩
        exact ⟨t0, rfl, .inr ⟨hr, k, tr, u, h1, by simpa using h2, h3⟩⟩
      · rintro ⟨t1, h1, h2⟩
        injection h1 with h1; subst h1
        rcases h2 with ⟨_, _, h3⟩ | ⟨_, k, tr, u, h3, h4, h5⟩
        · rw [hr] at h3; cases h3
        · exact ⟨k, tr, u, h3, by simpa using h4, h5⟩
    | running => exact absurd hr (C19_terminates m _)
  | raised e => simp
  | unmodelled => simp
  | running => simp

theorem tryTransf_fail (m : Matcher H) (s : Str) : ∀ (trs : List (Str → Option Str)) (i : Nat) (tried : List Str),
    (∀ tr ∈ trs, Useless m s tr) →
    m.tryTransf s i trs tried = .raised (.typeLookupError (tried ++ trs.filterMap (fun tr =>
      (tr s).bind (fun u => match traits u with | .ok t => some (render t.noModifiers) | _ => none)))) := by
  intro trs
  induction trs with
  | nil => intro i tried _; simp [Matcher.tryTransf]
  | cons tr0 rest ih =>
    intro i tried h
    unfold Matcher.tryTransf
    have hrest : ∀ tr ∈ rest, Useless m s tr := fun tr ht => h tr (List.mem_cons_of_mem _ ht)
    rcases h tr0 (by simp) with hn | ⟨u, t, h1, h2, h3⟩
    · rw [hn]
      simp only
      rw [ih _ _ hrest]
      simp [hn]
    · rw [h1]
      simp only
      rw [h2]
      simp only
      rw [h3]
      simp only
      rw [ih _ _ hrest]
      simp [h1, h2]

/-- C18/C21: when neither the type nor any transformation of it has a handler, lookup raises
`TypeLookupError` listing the names tried, in the order tried. -/
theorem C21_lookup_error (m : Matcher H) (s : Str) (t : Traits) (ht : traits s = .ok t)
    (hd : m.raw (render t.noModifiers) = .keyError)
    (hu : ∀ tr ∈ m.transformations, Useless m s tr) :
    m.lookup s = .raised (.typeLookupError (render t.noModifiers :: m.transformations.filterMap (fun tr =>
      (tr s).bind (fun u => match traits u with | .ok t => some (render t.noModifiers) | _ => none)))) := by
  unfold Matcher.lookup
  rw [ht]
  simp only
  rw [hd]
  simp only
  rw [tryTransf_fail m s _ _ _ hu]
  rfl

/-- Non-vacuity for C21: the first transformation does not apply, the second one does. -/
example : (match (run (H := Nat) [.register "Foo*".toList 5, .transformation (fun _ => none),
      .transformation (fun s => if s = "Ptr<Foo>".toList then some "Foo *".toList else none)]).lookup "Ptr<Foo>".toList with
    | .ok (h, some k, _) => (h, k) | _ => (0, 0)) = (5, 1) := by decide +kernel

/-- The transformations registered by a history, in order. -/
def transformationsOf : List (Op H) → List (Str → Option Str)
  | [] => []
  | .transformation t :: ops => t :: transformationsOf ops
  | _ :: ops => transformationsOf ops

/-- C21: transformations are tried in the order they were registered (positions in
`C21_lookup_ok_iff` are positions in that order). -/
theorem C21_registration_order (ops : List (Op H)) : (run ops).transformations = transformationsOf ops := by
  have key : ∀ (ops : List (Op H)) (m : Matcher H),
      (ops.foldl Matcher.apply m).transformations = m.transformations ++ transformationsOf ops := by
    intro ops
    induction ops with
    | nil => intro m; simp [transformationsOf]
    | cons op ops ih =>
      intro m
      rw [List.foldl_cons, ih]
      cases op with
      | transformation t => simp [Matcher.apply, Matcher.registerTransformation, transformationsOf]
      | register n h =>
        have : (m.apply (.register n h)).transformations = m.transformations := by
          simp only [Matcher.apply, Matcher.register]
          cases normalize n with
          | ok n' => simp only; cases m.types.get n' <;> rfl
          | raised e => rfl
          | unmodelled => rfl
          | running => rfl
        rw [this]; rfl
      | «alias» a b =>
        have : (m.apply (.alias a b)).transformations = m.transformations := by
          simp only [Matcher.apply, Matcher.addTypeAlias]
          cases normalize a with
          | ok n' => simp only; cases normalize b <;> rfl
          | raised e => rfl
          | unmodelled => rfl
          | running => rfl
        rw [this]; rfl
  exact (key ops {}).trans (by simp)

example : (transformationsOf [.transformation (fun _ => none), .register "int".toList 1,
    .transformation (fun s => some (s ++ "*".toList))]).length = 2 := rfl

end Verif.Matcher
