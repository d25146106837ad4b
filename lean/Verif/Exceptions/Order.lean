import Verif.Exceptions.Props

/-! # C74: types are generated and initialised after the types they refer to -/
namespace Verif.Exceptions
open Verif

/-! ## Specification -/

/-- What the API guarantees about a history of `add_*` calls: the outer class is a class and the bases
are types of the same kind, all added by earlier calls.  `SameModule`: to the same module (standard
exceptions, which need no setting up, may be anywhere). -/
structure Valid (h : List Item) : Prop where
  outer : ∀ (i : Nat) (x : Item), h[i]? = some x → ∀ o : Nat, x.outer = some o → o < i ∧ ∃ y : Item, h[o]? = some y ∧ y.kind = .cls
  bases : ∀ (i : Nat) (x : Item), h[i]? = some x → ∀ b ∈ x.bases, b < i ∧ ∃ y : Item, h[b]? = some y ∧ y.kind = x.kind
  std : ∀ (i : Nat) (x : Item), h[i]? = some x → x.std = true → x.kind = .exc
  plain : ∀ (i : Nat) (x : Item), h[i]? = some x → x.kind ≠ .cls → x.kind ≠ .exc → x.bases = []

structure SameModule (h : List Item) : Prop where
  outer : ∀ (i : Nat) (x : Item), h[i]? = some x → ∀ o : Nat, x.outer = some o → ∀ y : Item, h[o]? = some y → y.mod = x.mod
  bases : ∀ (i : Nat) (x : Item), h[i]? = some x → ∀ b ∈ x.bases, ∀ y : Item, h[b]? = some y → y.std = true ∨ y.mod = x.mod

/-- The modules of a tree. -/
def mods : Tree → List Nat
  | .node m subs => m :: modsL subs
where
  modsL : List Tree → List Nat
    | [] => []
    | t :: ts => mods t ++ modsL ts

/-! ## Orders -/

/-- Types the setting up of `i` refers to. -/
def needs (h : List Item) (i : Nat) : List Nat :=
  match h[i]? with
  | none => []
  | some x => x.outer.toList ++ x.bases.filter (fun b => !isStd h b)

/-- Everything comes after what it needs. -/
def Ordered (h : List Item) (l : List Nat) : Prop :=
  ∀ pre i post, l = pre ++ i :: post → ∀ o ∈ needs h i, o ∈ pre

theorem ordered_nil (h : List Item) : Ordered h [] := by
  intro pre i post hl; simp at hl

theorem ordered_append {h : List Item} {a b : List Nat} (ha : Ordered h a) (hb : Ordered h b) :
    Ordered h (a ++ b) := by
  intro pre i post hl o ho
  rcases List.append_eq_append_iff.mp hl with ⟨c, rfl, hc⟩ | ⟨c, rfl, hc⟩
  · exact List.mem_append_right _ (hb c i post hc o ho)
  · cases c with
    | nil =>
      simp only [List.nil_append] at hc ⊢
      have := hb [] i post (by simpa using hc.symm) o ho
      simp at this
    | cons x c =>
      simp only [List.cons_append, List.cons.injEq] at hc
      obtain ⟨rfl, -⟩ := hc
      exact ha pre i c rfl o ho

theorem mem_ownKind {h : List Item} {m : Nat} {k : Kind} {i : Nat} :
    i ∈ ownKind h m k ↔ ∃ x, h[i]? = some x ∧ x.mod = m ∧ x.kind = k := by
  unfold ownKind
  rw [List.mem_filter, List.mem_range]
  constructor
  · rintro ⟨hi, ha⟩
    cases hx : h[i]? with
    | none => rw [hx] at ha; cases ha
    | some x => rw [hx] at ha; exact ⟨x, rfl, by simpa using ha⟩
  · rintro ⟨x, hx, hm, hk⟩
    refine ⟨?_, by rw [hx]; simp [hm, hk]⟩
    by_contra hlt
    rw [List.getElem?_eq_none (by omega)] at hx
    cases hx

theorem mem_own {h : List Item} {m i : Nat} : i ∈ own h m ↔ ∃ x, h[i]? = some x ∧ x.mod = m := by
  unfold own
  simp only [List.mem_append, mem_ownKind]
  constructor
  · rintro (((⟨x, h1, h2, -⟩ | ⟨x, h1, h2, -⟩) | ⟨x, h1, h2, -⟩) | ⟨x, h1, h2, -⟩) <;> exact ⟨x, h1, h2⟩
  · rintro ⟨x, h1, h2⟩
    cases hk : x.kind
    · exact Or.inl (Or.inl (Or.inl ⟨x, h1, h2, hk⟩))
    · exact Or.inl (Or.inl (Or.inr ⟨x, h1, h2, hk⟩))
    · exact Or.inl (Or.inr ⟨x, h1, h2, hk⟩)
    · exact Or.inr ⟨x, h1, h2, hk⟩

theorem ownKind_sorted (h : List Item) (m : Nat) (k : Kind) : (ownKind h m k).Pairwise (· < ·) :=
  List.Pairwise.filter _ List.pairwise_lt_range

/-- In a sorted list, what is smaller and present comes before. -/
theorem sorted_before {l pre post : List Nat} {i o : Nat} (hs : l.Pairwise (· < ·))
    (hl : l = pre ++ i :: post) (ho : o ∈ l) (hlt : o < i) : o ∈ pre := by
  subst hl
  rcases List.mem_append.mp ho with h | h
  · exact h
  rcases List.mem_cons.mp h with rfl | h
  · omega
  · have := (List.pairwise_cons.mp (List.pairwise_append.mp hs).2.1).1 o h
    omega

theorem split_kinds {a b c d pre post : List Nat} {i : Nat} (hl : a ++ b ++ c ++ d = pre ++ i :: post) :
    (∃ p, pre = p ∧ ∃ q, a = p ++ i :: q) ∨ (∃ p, pre = a ++ p ∧ ∃ q, b = p ++ i :: q) ∨
    (∃ p, pre = a ++ b ++ p ∧ ∃ q, c = p ++ i :: q) ∨ (∃ p, pre = a ++ b ++ c ++ p ∧ ∃ q, d = p ++ i :: q) := by
  have two : ∀ {x y pre post : List Nat} {i : Nat}, x ++ y = pre ++ i :: post →
      (∃ q, x = pre ++ i :: q) ∨ ∃ p, pre = x ++ p ∧ ∃ q, y = p ++ i :: q := by
    intro x y pre post i hl
    rcases List.append_eq_append_iff.mp hl with ⟨c, rfl, hc⟩ | ⟨c, rfl, hc⟩
    · exact Or.inr ⟨c, rfl, post, hc⟩
    · cases c with
      | nil => exact Or.inr ⟨[], by simp, post, by simpa using hc.symm⟩
      | cons z c =>
        simp only [List.cons_append, List.cons.injEq] at hc
        obtain ⟨rfl, -⟩ := hc
        exact Or.inl ⟨c, rfl⟩
  rcases two hl with ⟨q, h1⟩ | ⟨p, h1, q, h2⟩
  · rcases two h1 with ⟨q, h1⟩ | ⟨p, h1, q, h2⟩
    · rcases two h1 with ⟨q, h1⟩ | ⟨p, h1, q, h2⟩
      · exact Or.inl ⟨pre, rfl, q, h1⟩
      · exact Or.inr (Or.inl ⟨p, h1, q, h2⟩)
    · exact Or.inr (Or.inr (Or.inl ⟨p, h1, q, h2⟩))
  · exact Or.inr (Or.inr (Or.inr ⟨p, h1, q, h2⟩))

theorem ordered_own {h : List Item} (hv : Valid h) (hs : SameModule h) (m : Nat) : Ordered h (own h m) := by
  intro pre i post hl o ho
  have hi : i ∈ own h m := by rw [hl]; simp
  obtain ⟨x, hx, hm⟩ := mem_own.mp hi
  have hn : needs h i = x.outer.toList ++ x.bases.filter (fun b => !isStd h b) := by
    unfold needs; rw [hx]
  rw [hn, List.mem_append, List.mem_filter] at ho
  -- o is an earlier item of the same module, a class or of the same kind
  have hoi : o < i ∧ ∃ y, h[o]? = some y ∧ y.mod = m ∧ (y.kind = .cls ∨ y.kind = x.kind) := by
    rcases ho with ho | ⟨ho, hns⟩
    · have ho : x.outer = some o := by simpa [Option.mem_toList] using ho
      obtain ⟨h1, y, h2, h3⟩ := hv.outer i x hx o ho
      exact ⟨h1, y, h2, (hs.outer i x hx o ho y h2).trans hm, Or.inl h3⟩
    · obtain ⟨h1, y, h2, h3⟩ := hv.bases i x hx o ho
      refine ⟨h1, y, h2, ?_, Or.inr h3⟩
      rcases hs.bases i x hx o ho y h2 with hst | h4
      · simp [isStd, h2, hst] at hns
      · exact h4.trans hm
  obtain ⟨hlt, y, hy, hym, hk⟩ := hoi
  have hko : ∀ k, y.kind = k → o ∈ ownKind h m k := fun k e => mem_ownKind.mpr ⟨y, hy, hym, e⟩
  have hki : ∀ {k p q}, ownKind h m k = p ++ i :: q → x.kind = k := by
    intro k p q e
    have : i ∈ ownKind h m k := by rw [e]; simp
    obtain ⟨x', h1, -, h2⟩ := mem_ownKind.mp this
    rw [hx] at h1; cases h1; exact h2
  rcases split_kinds (by unfold own at hl; exact hl) with ⟨p, rfl, q, e⟩ | ⟨p, rfl, q, e⟩ | ⟨p, rfl, q, e⟩ | ⟨p, rfl, q, e⟩
  · have hxk := hki e
    have : y.kind = .cls := by rcases hk with h1 | h1; exact h1; rw [h1, hxk]
    exact sorted_before (ownKind_sorted h m _) e (hko _ this) hlt
  all_goals
    have hxk := hki e
    rcases hk with h1 | h1
    · have := hko _ h1
      simp [this]
    · have := sorted_before (ownKind_sorted h m _) e (hko _ (h1.trans hxk)) hlt
      simp [this]

mutual
theorem ordered_gen {h : List Item} (ho : ∀ m, Ordered h (own h m)) : ∀ t, Ordered h (genOrder h t)
  | .node m subs => ordered_append (ordered_gens ho subs) (ho m)
theorem ordered_gens {h : List Item} (ho : ∀ m, Ordered h (own h m)) :
    ∀ ts, Ordered h (genOrder.genOrders h ts)
  | [] => ordered_nil h
  | t :: ts => ordered_append (ordered_gen ho t) (ordered_gens ho ts)
end

mutual
theorem ordered_init {h : List Item} (ho : ∀ m, Ordered h (own h m)) : ∀ t, Ordered h (initOrder h t)
  | .node m subs => ordered_append (ho m) (ordered_inits ho subs)
theorem ordered_inits {h : List Item} (ho : ∀ m, Ordered h (own h m)) :
    ∀ ts, Ordered h (initOrder.initOrders h ts)
  | [] => ordered_nil h
  | t :: ts => ordered_append (ordered_init ho t) (ordered_inits ho ts)
end

mutual
theorem mem_gen {h : List Item} {i : Nat} : ∀ t, i ∈ genOrder h t ↔ ∃ x, h[i]? = some x ∧ x.mod ∈ mods t
  | .node m subs => by
    simp only [genOrder, mods, List.mem_append, List.mem_cons, mem_gens subs, mem_own]
    constructor
    · rintro (⟨x, h1, h2⟩ | ⟨x, h1, h2⟩)
      · exact ⟨x, h1, Or.inr h2⟩
      · exact ⟨x, h1, Or.inl h2⟩
    · rintro ⟨x, h1, h2 | h2⟩
      · exact Or.inr ⟨x, h1, h2⟩
      · exact Or.inl ⟨x, h1, h2⟩
theorem mem_gens {h : List Item} {i : Nat} :
    ∀ ts, i ∈ genOrder.genOrders h ts ↔ ∃ x, h[i]? = some x ∧ x.mod ∈ mods.modsL ts
  | [] => by simp [genOrder.genOrders, mods.modsL]
  | t :: ts => by
    simp only [genOrder.genOrders, mods.modsL, List.mem_append, mem_gen t, mem_gens ts]
    constructor
    · rintro (⟨x, h1, h2⟩ | ⟨x, h1, h2⟩)
      · exact ⟨x, h1, Or.inl h2⟩
      · exact ⟨x, h1, Or.inr h2⟩
    · rintro ⟨x, h1, h2 | h2⟩
      · exact Or.inl ⟨x, h1, h2⟩
      · exact Or.inr ⟨x, h1, h2⟩
end

mutual
theorem mem_init {h : List Item} {i : Nat} : ∀ t, i ∈ initOrder h t ↔ ∃ x, h[i]? = some x ∧ x.mod ∈ mods t
  | .node m subs => by
    simp only [initOrder, mods, List.mem_append, List.mem_cons, mem_inits subs, mem_own]
    constructor
    · rintro (⟨x, h1, h2⟩ | ⟨x, h1, h2⟩)
      · exact ⟨x, h1, Or.inl h2⟩
      · exact ⟨x, h1, Or.inr h2⟩
    · rintro ⟨x, h1, h2 | h2⟩
      · exact Or.inl ⟨x, h1, h2⟩
      · exact Or.inr ⟨x, h1, h2⟩
theorem mem_inits {h : List Item} {i : Nat} :
    ∀ ts, i ∈ initOrder.initOrders h ts ↔ ∃ x, h[i]? = some x ∧ x.mod ∈ mods.modsL ts
  | [] => by simp [initOrder.initOrders, mods.modsL]
  | t :: ts => by
    simp only [initOrder.initOrders, mods.modsL, List.mem_append, mem_init t, mem_inits ts]
    constructor
    · rintro (⟨x, h1, h2⟩ | ⟨x, h1, h2⟩)
      · exact ⟨x, h1, Or.inl h2⟩
      · exact ⟨x, h1, Or.inr h2⟩
    · rintro ⟨x, h1, h2 | h2⟩
      · exact Or.inl ⟨x, h1, h2⟩
      · exact Or.inr ⟨x, h1, h2⟩
end

/-! ## Generation -/

theorem genAll_ok {h : List Item} : ∀ (l done named : List Nat), Ordered h (done ++ l) →
    (∀ i ∈ done, i ∈ named) → (∀ i ∈ l, (h[i]?).isSome) →
    ∃ named', genAll h l named = .ok named'
  | [], done, named, _, _, _ => ⟨named, rfl⟩
  | i :: l, done, named, ho, hd, hl => by
    have hn := ho done i l rfl
    obtain ⟨x, hx⟩ := Option.isSome_iff_exists.mp (hl i List.mem_cons_self)
    have hstep : genItem h named i = .ok (i :: named) := by
      unfold genItem
      rw [hx]
      simp only
      cases hxo : x.outer with
      | none => rfl
      | some o =>
        have hod : o ∈ done := hn o (by unfold needs; rw [hx]; simp [hxo])
        simp only
        rw [if_pos (Or.inr (Or.inr (hd o hod)))]
    simp only [genAll, hstep]
    exact genAll_ok l (done ++ [i]) (i :: named) (by simpa using ho)
      (by
        intro j hj
        rcases List.mem_append.mp hj with hj | hj
        · exact List.mem_cons_of_mem _ (hd j hj)
        · rw [List.mem_singleton] at hj; subst hj; exact List.mem_cons_self)
      (fun j hj => hl j (List.mem_cons_of_mem _ hj))

/-! ## Initialisation -/

/-- The state once the types `done` are set up as declared. -/
def Done (h : List Item) (done : List Nat) (r : Rt) : Prop :=
  r.lost = [] ∧ ∀ j, r.bases j =
    if j ∈ done then (h[j]?).bind (fun x => if x.std then none else some x.bases) else none

theorem done_some {h : List Item} {done : List Nat} {r : Rt} (hd : Done h done r) {j : Nat} {x : Item}
    (hx : h[j]? = some x) (hs : x.std = false) (hj : j ∈ done) : r.bases j = some x.bases := by
  rw [hd.2 j, if_pos hj, hx]; simp [hs]

theorem force_id {r : Rt} : ∀ {bs : List Nat}, (∀ b ∈ bs, (r.bases b).isSome) → r.force bs = r
  | [], _ => rfl
  | b :: bs, hb => by
    simp only [Rt.force]
    rw [if_pos (hb b List.mem_cons_self)]
    exact force_id (fun c hc => hb c (List.mem_cons_of_mem _ hc))

theorem set_same {r : Rt} {i : Nat} {bs : List Nat} (hs : r.bases i = some bs) : r.set i bs = r := by
  unfold Rt.set
  cases r with
  | mk b l =>
    congr
    funext j
    by_cases hj : j = i
    · rw [if_pos hj, hj]; exact hs.symm
    · rw [if_neg hj]

theorem done_set {h : List Item} {done : List Nat} {r : Rt} (hd : Done h done r) {i : Nat} {x : Item}
    (hx : h[i]? = some x) (hs : x.std = false) : Done h (done ++ [i]) (r.set i x.bases) := by
  refine ⟨hd.1, fun j => ?_⟩
  unfold Rt.set
  by_cases hj : j = i
  · subst hj; simp [hx, hs]
  · simp [hd.2 j, hj]

theorem done_skip {h : List Item} {done : List Nat} {r : Rt} (hd : Done h done r) {i : Nat}
    (hx : ∀ x, h[i]? = some x → x.std = true) : Done h (done ++ [i]) r := by
  refine ⟨hd.1, fun j => ?_⟩
  rw [hd.2 j]
  by_cases hj : j = i
  · subst hj
    cases hh : h[j]? with
    | none => simp
    | some x => simp [hx x hh]
  · simp [hj]

theorem init_step {h : List Item} (hv : Valid h) {done : List Nat} {i : Nat} {r : Rt}
    (hn : ∀ o ∈ needs h i, o ∈ done) (hd : Done h done r) : Done h (done ++ [i]) (initItem h r i) := by
  unfold initItem
  cases hx : h[i]? with
  | none => exact done_skip hd (by rw [hx]; simp)
  | some x =>
    simp only
    cases hs : x.std with
    | true =>
      rw [if_pos rfl]
      exact done_skip hd (by intro y hy; rw [hx] at hy; cases hy; exact hs)
    | false =>
    rw [if_neg (by simp)]
    have hneed : needs h i = x.outer.toList ++ x.bases.filter (fun b => !isStd h b) := by
      unfold needs; rw [hx]
    rw [hneed] at hn
    have hbase : ∀ b ∈ x.bases, isStd h b = true ∨ (r.bases b).isSome := by
      intro b hb
      cases hst : isStd h b with
      | true => exact Or.inl rfl
      | false =>
        right
        have hbd := hn b (List.mem_append_right _ (List.mem_filter.mpr ⟨hb, by rw [hst]; rfl⟩))
        obtain ⟨-, y, hy, -⟩ := hv.bases i x hx b hb
        have hys : y.std = false := by simpa [isStd, hy] using hst
        rw [done_some hd hy hys hbd]; rfl
    -- the type itself
    have h1 : setUp h r i x = r.set i x.bases := by
      unfold setUp
      have again : (if (r.bases i).isSome then r else r.set i x.bases) = r.set i x.bases := by
        split
        · rename_i hsome
          have := hd.2 i
          by_cases hi : i ∈ done
          · rw [if_pos hi, hx] at this
            simp only [Option.bind_some, hs, Bool.false_eq_true, if_false] at this
            exact (set_same this).symm
          · rw [if_neg hi] at this
            rw [this] at hsome; cases hsome
        · rfl
      cases hk : x.kind with
      | exc =>
        simp only
        congr 1
        rw [List.filter_eq_self]
        intro b hb
        rcases hbase b hb with h1 | h1 <;> simp [h1]
      | cls =>
        simp only
        rw [force_id]
        · exact again
        · intro b hb
          rcases hbase b hb with h1 | h1
          · exfalso
            obtain ⟨-, y, hy, hyk⟩ := hv.bases i x hx b hb
            have hys : y.std = true := by simpa [isStd, hy] using h1
            have := hv.std b y hy hys
            rw [hyk, hk] at this
            cases this
          · exact h1
      | container => exact again
      | enum => exact again
    rw [h1]
    cases hxo : x.outer with
    | none => exact done_set hd hx hs
    | some o =>
      have hod : o ∈ done := hn o (by simp [hxo])
      obtain ⟨-, y, hy, hyk⟩ := hv.outer i x hx o hxo
      have hys : y.std = false := by
        cases hst : y.std with
        | false => rfl
        | true => have := hv.std o y hy hst; rw [hyk] at this; cases this
      simp only
      rw [if_pos (by rw [done_some hd hy hys hod]; rfl)]
      exact done_set hd hx hs

theorem initAll_done {h : List Item} (hv : Valid h) : ∀ (l done : List Nat) (r : Rt), Ordered h (done ++ l) →
    Done h done r → Done h (done ++ l) (initAll h l r)
  | [], done, r, _, hd => by simpa [initAll] using hd
  | i :: l, done, r, ho, hd => by
    have := initAll_done hv l (done ++ [i]) (initItem h r i) (by simpa using ho)
      (init_step hv (ho done i l rfl) hd)
    simpa [initAll] using this

/-! ## The property -/

/-- **C74.**  For every history of `add_*` calls in which outer classes and bases belong to the same
module as the types that refer to them, in any tree of modules: generation raises no `KeyError`, and
after importing the root module every type of the tree has exactly the Python bases it was declared
with, and every nested type has been entered into its outer class. -/
theorem C74_same_module_partial (h : List Item) (hv : Valid h) (hs : SameModule h) (t : Tree) :
    (∃ named, genAll h (genOrder h t) [] = .ok named) ∧
    (initAll h (initOrder h t) {}).lost = [] ∧
    ∀ (i : Nat) (x : Item), h[i]? = some x → x.mod ∈ mods t → x.std = false →
      (initAll h (initOrder h t) {}).bases i = some x.bases := by
  have ho := ordered_own hv hs
  have hd := initAll_done hv (initOrder h t) [] {} (by simpa using ordered_init ho t) ⟨rfl, by simp⟩
  refine ⟨genAll_ok (genOrder h t) [] [] (by simpa using ordered_gen ho t) (by simp) ?_, hd.1, ?_⟩
  · intro i hi
    obtain ⟨x, hx, -⟩ := (mem_gen t).mp hi
    rw [hx]; rfl
  · intro i x hx hm hst
    exact done_some hd hx hst (by simpa using (mem_init t).mpr ⟨x, hx, hm⟩)

/-- C74 (exceptions created): the parent given to `PyErr_NewException` is the declared one. -/
theorem C74_parent_text (pre path : Str) (e : Exc) (p : Names.ExcDecl) :
    e.create pre path (some p) = "(".toList ++ e.decl.pytypestruct pre ++
      " = (PyTypeObject*) PyErr_NewException((char*)\"".toList ++ path ++ "\", (PyObject*) ".toList ++
      p.pytypestruct pre ++ ", NULL)) == NULL".toList ∧
    e.create pre path none = "(".toList ++ e.decl.pytypestruct pre ++
      " = (PyTypeObject*) PyErr_NewException((char*)\"".toList ++ path ++ "\", NULL, NULL)) == NULL".toList := by
  constructor <;> simp [Exc.create]

/-- An exception of a submodule that is nested in a class of the root module: submodules are generated
first, so the outer class has no `tp_name` yet. -/
theorem C74_nested_counterexample :
    let h : List Item := [{ mod := 0, kind := .cls }, { mod := 1, kind := .exc, outer := some 0 }]
    Valid h ∧ genAll h (genOrder h (.node 0 [.node 1 []])) [] = .error .keyError := by
  refine ⟨⟨?_, ?_, ?_, ?_⟩, by decide +kernel⟩ <;> intro i x hx <;>
    (match i, hx with
     | 0, hx => cases hx; simp
     | 1, hx => cases hx; simp)

/-- An exception of the root module whose parent belongs to a submodule: the submodule is initialised
later, and the Python exception becomes a direct subclass of `Exception`. -/
theorem C74_parent_counterexample :
    let h : List Item := [{ mod := 1, kind := .exc }, { mod := 0, kind := .exc, bases := [0] }]
    Valid h ∧ (genAll h (genOrder h (.node 0 [.node 1 []])) []).toOption.isSome = true ∧
    (initAll h (initOrder h (.node 0 [.node 1 []])) {}).bases 1 = some [] := by
  refine ⟨⟨?_, ?_, ?_, ?_⟩, by decide +kernel, by decide +kernel⟩ <;> intro i x hx <;>
    (match i, hx with
     | 0, hx => cases hx; simp
     | 1, hx => cases hx; simp)

/-- Classes: `A` and `B(A)` in a submodule, `C(B)` in the root module.  `C` is set up first, which makes
`B` ready before it is told about `A`: `B` and `C` are no subclasses of `A` in Python. -/
theorem C74_base_counterexample :
    let h : List Item := [{ mod := 1, kind := .cls }, { mod := 1, kind := .cls, bases := [0] },
      { mod := 0, kind := .cls, bases := [1] }]
    Valid h ∧ (genAll h (genOrder h (.node 0 [.node 1 []])) []).toOption.isSome = true ∧
    (initAll h (initOrder h (.node 0 [.node 1 []])) {}).bases 1 = some [] := by
  refine ⟨⟨?_, ?_, ?_, ?_⟩, by decide +kernel, by decide +kernel⟩ <;> intro i x hx <;>
    (match i, hx with
     | 0, hx => cases hx; simp
     | 1, hx => cases hx; simp
     | 2, hx => cases hx; simp)

/-- A class of the root module nested in a class of a submodule: at run time the outer class's
dictionary does not exist yet. -/
theorem C74_outer_counterexample :
    let h : List Item := [{ mod := 1, kind := .cls }, { mod := 0, kind := .cls, outer := some 0 }]
    Valid h ∧ (genAll h (genOrder h (.node 0 [.node 1 []])) []).toOption.isSome = true ∧
    (initAll h (initOrder h (.node 0 [.node 1 []])) {}).lost = [1] := by
  refine ⟨⟨?_, ?_, ?_, ?_⟩, by decide +kernel, by decide +kernel⟩ <;> intro i x hx <;>
    (match i, hx with
     | 0, hx => cases hx; simp
     | 1, hx => cases hx; simp)

/-- Non-vacuity: two modules, each with a class, a nested class and exception, and a derived
exception. -/
def orderExample : List Item :=
  [{ mod := 0, kind := .cls }, { mod := 0, kind := .exc, std := true }, { mod := 1, kind := .exc },
   { mod := 0, kind := .cls, outer := some 0, bases := [0] }, { mod := 1, kind := .exc, bases := [2] },
   { mod := 0, kind := .exc, outer := some 3, bases := [1] }]

example : Valid orderExample ∧ SameModule orderExample := by
  refine ⟨⟨?_, ?_, ?_, ?_⟩, ⟨?_, ?_⟩⟩ <;> intro i x hx <;>
    (match i, hx with
     | 0, hx => cases hx; simp [orderExample]
     | 1, hx => cases hx; simp [orderExample]
     | 2, hx => cases hx; simp [orderExample]
     | 3, hx => cases hx; simp [orderExample]
     | 4, hx => cases hx; simp [orderExample]
     | 5, hx => cases hx; simp [orderExample])

end Verif.Exceptions
