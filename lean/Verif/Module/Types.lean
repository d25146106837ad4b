import Verif.Module.Props
import Mathlib.Data.List.Induction

/-!
# C32 (uniqueness), C49, C50: names, types and functions of modules
-/
namespace Verif.Module
open Verif

variable {W F : Type}

/-! ## C49: looking types up in modules -/

theorem upd_get (w : World W F) (i j : Nat) (f : Mod W F → Mod W F) :
    (w.upd i f).mods[j]? = if i = j then (w.mods[j]?).map f else w.mods[j]? := by
  simp only [World.upd, List.getElem?_modify]
  split
  · rfl
  · cases w.mods[j]? <;> rfl

theorem lookup_upd (w : World W F) (i j : Nat) (k key : Str) (t : W) (hi : i < w.mods.length) :
    lookupType (w.upd i (fun md => { md with types := md.types.set k t })) j key =
      if i = j ∧ k = key then some t else lookupType w j key := by
  unfold lookupType
  rw [upd_get]
  by_cases h : i = j
  · subst h
    rw [if_pos rfl, List.getElem?_eq_getElem hi]
    simp [Dict.get_set]
  · simp [h]

private theorem lookup_fold (l : List Nat) (w : World W F) (hl : ∀ i ∈ l, i < w.mods.length)
    (j : Nat) (k key : Str) (t : W) :
    lookupType (l.foldl (fun w i => w.upd i (fun md => { md with types := md.types.set k t })) w) j key =
      if j ∈ l ∧ k = key then some t else lookupType w j key := by
  induction l generalizing w with
  | nil => simp
  | cons x xs ih =>
    rw [List.foldl_cons, ih _ (by intro i hi; rw [length_upd]; exact hl i (by simp [hi])),
      lookup_upd _ _ _ _ _ _ (hl x (by simp))]
    by_cases h1 : j ∈ xs ∧ k = key
    · simp [h1]
    · by_cases h2 : x = j ∧ k = key
      · simp [h2]
      · rw [if_neg h1, if_neg h2, if_neg]
        rintro ⟨h3, h4⟩
        rcases List.mem_cons.1 h3 with rfl | h3
        · exact h2 ⟨rfl, h4⟩
        · exact h1 ⟨h3, h4⟩

/-- Module `j` is module `i` or one of its parents. -/
inductive IsAncestor (w : World W F) : Nat → Nat → Prop
  | refl {i} : i < w.mods.length → IsAncestor w i i
  | up {i p j m} : w.mods[i]? = some m → m.parent = some p → IsAncestor w p j → IsAncestor w i j

theorem mem_chain_iff {w : World W F} (hw : Wf w) (i j : Nat) (hi : i < w.mods.length) :
    j ∈ chain w i ↔ IsAncestor w i j := by
  induction i using Nat.strongRecOn with
  | ind i ih =>
    have hm : w.mods[i]? = some w.mods[i] := List.getElem?_eq_getElem hi
    rcases Nat.eq_zero_or_pos i with rfl | h0
    · obtain ⟨r, hr, hp⟩ := hw.1
      rw [chain_root hr hp]
      constructor
      · intro h; simp at h; subst h; exact .refl hi
      · intro h
        cases h with
        | refl _ => simp
        | up h1 h2 h3 => rw [hr] at h1; cases h1; rw [hp] at h2; cases h2
    · obtain ⟨p, hp, hlt⟩ := hw.2 i _ hm h0
      rw [chain_sub hw hm hp, List.mem_cons, ih p hlt (by omega)]
      constructor
      · rintro (rfl | h)
        · exact .refl hi
        · exact .up hm hp h
      · intro h
        cases h with
        | refl _ => exact .inl rfl
        | up h1 h2 h3 =>
          rw [hm] at h1; cases h1; rw [hp] at h2; cases h2
          exact .inr h3

theorem chain_lt {w : World W F} (hw : Wf w) : ∀ i < w.mods.length, ∀ j ∈ chain w i, j < w.mods.length := by
  intro i
  induction i using Nat.strongRecOn with
  | ind i ih =>
    intro hi j hj
    have hm : w.mods[i]? = some w.mods[i] := List.getElem?_eq_getElem hi
    rcases Nat.eq_zero_or_pos i with rfl | h0
    · obtain ⟨r, hr, hp⟩ := hw.1
      rw [chain_root hr hp] at hj; simp at hj; omega
    · obtain ⟨p, hp, hlt⟩ := hw.2 i _ hm h0
      rw [chain_sub hw hm hp] at hj
      rcases List.mem_cons.1 hj with rfl | hj
      · exact hi
      · exact ih p hlt (by omega) j hj

/-- C49: the exact effect of registering a type on module `m` under a short and a full name: the
full name finds it on `m` and on every module above it, the short name on `m` only, and all other
look-ups are unchanged. -/
theorem C49_register_type (w : World W F) (hw : Wf w) (m : Nat) (name full : Str) (t : W)
    (hm : m < w.mods.length) (j : Nat) (key : Str) (hk : key ≠ []) :
    ((key = full ∧ IsAncestor w m j) ∨ (key = name ∧ j = m) →
      lookupType (registerType w m name full t) j key = some t) ∧
    (¬ ((key = full ∧ IsAncestor w m j) ∨ (key = name ∧ j = m)) →
      lookupType (registerType w m name full t) j key = lookupType w j key) := by
  have hw1 : ∀ w1 : World W F, w1 = (if name = [] then w else w.upd m (fun md => { md with types := md.types.set name t })) →
      (lookupType w1 j key = if key = name ∧ j = m then some t else lookupType w j key) ∧
      w1.cores = w.cores := by
    rintro w1 rfl
    by_cases hn : name = []
    · subst hn; simp [hk]
    · rw [if_neg hn, lookup_upd _ _ _ _ _ _ hm]
      refine ⟨?_, cores_upd _ _ _ (fun _ => rfl)⟩
      by_cases h1 : m = j <;> by_cases h2 : name = key <;> simp [h1, h2, eq_comm]
  obtain ⟨h1, h2⟩ := hw1 _ rfl
  unfold registerType
  simp only
  generalize (if name = [] then w else w.upd m (fun md => { md with types := md.types.set name t })) = w1 at h1 h2
  have hlen : w1.mods.length = w.mods.length := by rw [← cores_length, h2, cores_length]
  by_cases hf : full = []
  · subst hf
    rw [if_pos rfl, h1]
    simp only [hk, false_and, false_or]
    exact ⟨fun h => if_pos h, fun h => if_neg h⟩
  · rw [if_neg hf, lookup_fold _ _ (by
      intro i hi
      have := chain_lt (wf_cores h2 hw) m (by omega) i hi
      exact this), h1, chain_cores h2]
    have hmc := mem_chain_iff hw m j hm
    by_cases hc : j ∈ chain w m ∧ full = key
    · rw [if_pos hc]
      exact ⟨fun _ => rfl, fun h => absurd (.inl ⟨hc.2.symm, hmc.1 hc.1⟩) h⟩
    · rw [if_neg hc]
      constructor
      · rintro (h | h)
        · exact absurd ⟨hmc.2 h.2, h.1.symm⟩ hc
        · exact if_pos h
      · intro h
        exact if_neg (fun h' => h (.inr h'))

/-- C49, over histories: the type found is the one of the last registration that concerns the
module and key, if any. -/
theorem C49_lookup_last (name ns : Str) (h h' : List (Op W F)) (m : Nat) (n full : Str) (t : W)
    (hv : Valid (newRoot name ns) (h ++ .registerType m n full t :: h')) (j : Nat) (key : Str)
    (hk : key ≠ [])
    (hit : (key = full ∧ IsAncestor (after (newRoot name ns : World W F) h) m j) ∨ (key = n ∧ j = m))
    (hlast : ∀ a m' n' f' t' b, h' = a ++ .registerType m' n' f' t' :: b →
      ¬ ((key = f' ∧ IsAncestor (after (newRoot name ns : World W F) (h ++ .registerType m n full t :: a)) m' j) ∨
        (key = n' ∧ j = m'))) :
    lookupType (after (newRoot name ns) (h ++ .registerType m n full t :: h')) j key = some t := by
  obtain ⟨hv1, hv2, hv3⟩ := valid_append.1 hv
  have hj : ∀ w : World W F, Wf w → m < w.mods.length →
      ((key = full ∧ IsAncestor w m j) ∨ (key = n ∧ j = m)) → j < w.mods.length := by
    intro w hw hm hh
    rcases hh with ⟨_, ha⟩ | ⟨_, rfl⟩
    · exact chain_lt hw m hm j ((mem_chain_iff hw m j hm).2 ha)
    · exact hm
  -- look-ups survive calls that do not concern them
  have keep : ∀ (ops : List (Op W F)) (w : World W F), Wf w → Valid w ops → j < w.mods.length →
      (∀ a m' n' f' t' b, ops = a ++ .registerType m' n' f' t' :: b →
        ¬ ((key = f' ∧ IsAncestor (after w a) m' j) ∨ (key = n' ∧ j = m'))) →
      lookupType (after w ops) j key = lookupType w j key := by
    intro ops
    induction ops with
    | nil => intro w _ _ _ _; rfl
    | cons op ops ih =>
      intro w hw hvl hjl hno
      rw [show after w (op :: ops) = after (step w op).2 ops from rfl,
        ih _ (wf_step hw op) hvl.2 (Nat.lt_of_lt_of_le hjl (step_length_le w op)) (by
          intro a m' n' f' t' b hab
          exact hno (op :: a) m' n' f' t' b (by rw [hab]; rfl))]
      have ht := hvl.1
      have same : ∀ w' : World W F, w'.mods[j]? = w.mods[j]? → lookupType w' j key = lookupType w j key := by
        intro w' hw'; unfold lookupType; rw [hw']
      have sub : ∀ p nm nns, lookupType (newSub w p nm nns).1 j key = lookupType w j key := by
        intro p nm nns
        unfold lookupType newSub
        simp only
        rw [List.getElem?_append_left (by rw [length_upd]; exact hjl), upd_get]
        split
        · cases w.mods[j]? <;> rfl
        · rfl
      unfold step
      rw [if_pos ht]
      cases op with
      | newSub p nm nns => exact sub p nm nns
      | addNamespace p nm =>
        simp only [addNamespace]
        split
        · rfl
        · exact sub p nm nm
      | beginSection p nm =>
        simp only [beginSection]
        split
        · next h' => split at h' <;> (try split at h') <;> (try split at h') <;> cases h'; rfl
        · rfl
      | endSection p nm =>
        simp only [endSection]
        split
        · next h' => split at h' <;> (try split at h') <;> cases h'; rfl
        · rfl
      | addInclude p s =>
        simp only [addInclude]
        split
        · next h' => split at h' <;> (try split at h') <;> cases h' <;> rfl
        · rfl
      | declareOneTime p nm =>
        simp only [declareOneTime]
        split
        · next h' => split at h' <;> cases h'; rfl
        · rfl
      | registerType p nm f t' =>
        simp only
        exact (C49_register_type w hw p nm f t' ht j key hk).2 (hno [] p nm f t' ops rfl)
      | addFunction p c nm ts f =>
        simp only [addFunction]
        unfold lookupType
        rw [upd_get]
        split
        · cases w.mods[j]? <;> rfl
        · rfl
  have hwh := wf_after (wf_root (W := W) (F := F) name ns) h
  have hjl := hj _ hwh hv2 hit
  rw [show h ++ .registerType m n full t :: h' = h ++ ([.registerType m n full t] ++ h') by simp,
    after_append, after_append]
  have hstep : after (after (newRoot name ns : World W F) h) [.registerType m n full t] =
      registerType (after (newRoot name ns : World W F) h) m n full t := by
    show (step _ _).2 = _
    unfold step
    rw [if_pos hv2]
  rw [hstep]
  have hwr : Wf (registerType (after (newRoot name ns : World W F) h) m n full t) :=
    wf_cores (registerType_cores _ _ _ _ _) hwh
  rw [keep h' _ hwr]
  · exact (C49_register_type _ hwh m n full t hv2 j key hk).1 hit
  · have : (step (after (newRoot name ns : World W F) h) (.registerType m n full t)).2 =
        registerType (after (newRoot name ns : World W F) h) m n full t := by
      unfold step; rw [if_pos hv2]
    rw [← this]; exact hv3
  · rw [← cores_length, registerType_cores, cores_length]; exact hjl
  · intro a m' n' f' t' b hab
    have := hlast a m' n' f' t' b hab
    rw [show h ++ .registerType m n full t :: a = h ++ ([.registerType m n full t] ++ a) by simp,
      after_append, after_append, hstep] at this
    exact this

/-- C49, names never registered: if no registration in a history concerns module `j` and this key,
the key is not found on module `j`. -/
theorem C49_unregistered (name ns : Str) (h : List (Op W F))
    (hv : Valid (newRoot name ns) h) (j : Nat) (key : Str) (hk : key ≠ [])
    (hno : ∀ a m' n' f' t' b, h = a ++ .registerType m' n' f' t' :: b →
      ¬ ((key = f' ∧ IsAncestor (after (newRoot name ns : World W F) a) m' j) ∨
        (key = n' ∧ j = m'))) :
    lookupType (after (newRoot name ns : World W F) h) j key = none := by
  have keep : ∀ (ops : List (Op W F)) (w : World W F), Wf w → Valid w ops →
      lookupType w j key = none →
      (∀ a m' n' f' t' b, ops = a ++ .registerType m' n' f' t' :: b →
        ¬ ((key = f' ∧ IsAncestor (after w a) m' j) ∨ (key = n' ∧ j = m'))) →
      lookupType (after w ops) j key = none := by
    intro ops
    induction ops with
    | nil => intro w _ _ hl _; exact hl
    | cons op ops ih =>
      intro w hw hvl hl hno
      rw [show after w (op :: ops) = after (step w op).2 ops from rfl]
      refine ih _ (wf_step hw op) hvl.2 ?_ (by
          intro a m' n' f' t' b hab
          exact hno (op :: a) m' n' f' t' b (by rw [hab]; rfl))
      have ht := hvl.1
      have sub : ∀ p nm nns, lookupType (newSub w p nm nns).1 j key = none := by
        intro p nm nns
        unfold lookupType at hl ⊢
        unfold newSub
        simp only
        by_cases hj : j < w.mods.length
        · rw [List.getElem?_append_left (by rw [length_upd]; exact hj), upd_get]
          split
          · cases hx : w.mods[j]? with
            | none => rfl
            | some md => rw [hx] at hl; exact hl
          · exact hl
        · rw [List.getElem?_append_right (by rw [length_upd]; omega), length_upd]
          cases hx : j - w.mods.length with
          | zero => rfl
          | succ k => rfl
      unfold step
      rw [if_pos ht]
      cases op with
      | newSub p nm nns => exact sub p nm nns
      | addNamespace p nm =>
        simp only [addNamespace]
        split
        · exact hl
        · exact sub p nm nm
      | beginSection p nm =>
        simp only [beginSection]
        split
        · next h' => split at h' <;> (try split at h') <;> (try split at h') <;> cases h'; exact hl
        · exact hl
      | endSection p nm =>
        simp only [endSection]
        split
        · next h' => split at h' <;> (try split at h') <;> cases h'; exact hl
        · exact hl
      | addInclude p s =>
        simp only [addInclude]
        split
        · next h' => split at h' <;> (try split at h') <;> cases h' <;> exact hl
        · exact hl
      | declareOneTime p nm =>
        simp only [declareOneTime]
        split
        · next h' => split at h' <;> cases h'; exact hl
        · exact hl
      | registerType p nm f t' =>
        simp only
        rw [(C49_register_type w hw p nm f t' ht j key hk).2 (hno [] p nm f t' ops rfl)]
        exact hl
      | addFunction p c nm ts f =>
        simp only [addFunction]
        unfold lookupType at hl ⊢
        rw [upd_get]
        split
        · cases hx : w.mods[j]? with
          | none => rfl
          | some md => rw [hx] at hl; exact hl
        · exact hl
  refine keep h _ (wf_root (W := W) (F := F) name ns) hv ?_ hno
  unfold lookupType newRoot
  cases j with
  | zero => rfl
  | succ k => rfl

example : lookupType (after (newRoot "m".toList "foo".toList : World Nat Nat)
    [.addNamespace 0 "subm".toList, .registerType 1 "Zbr".toList "foo::subm::Zbr".toList 7]) 0
    "foo::subm::Zbr".toList = some 7 ∧
  lookupType (after (newRoot "m".toList "foo".toList : World Nat Nat)
    [.addNamespace 0 "subm".toList, .registerType 1 "Zbr".toList "foo::subm::Zbr".toList 7]) 0
    "Zbr".toList = none := by decide

/-! ## C50: functions are grouped into overload sets -/

/-- Group a list of named things: names ordered by first appearance, members in order. -/
def members (l : List (Str × F)) (n : Str) : List F := (l.filter (fun p => p.1 = n)).map (·.2)

def firstNames (l : List (Str × F)) : List Str := firsts [] (l.map (·.1))

/-- C50: adding functions one after the other yields, for each Python name in order of first use,
one overload set with all functions of that name in the order they were added. -/
theorem C50_overload_sets (l : List (Str × F)) :
    l.foldl (fun fs p => addOverload fs p.1 p.2) [] = (firstNames l).map fun n => (n, members l n) := by
  have hadd : ∀ (fs : List (Str × List F)) (n : Str) (f : F), n ∉ fs.map (·.1) →
      addOverload fs n f = fs ++ [(n, [f])] := by
    intro fs n f
    induction fs with
    | nil => intro _; rfl
    | cons p r ih =>
      intro h
      obtain ⟨a, b⟩ := p
      simp only [List.map_cons, List.mem_cons, not_or] at h
      simp only [addOverload]
      rw [if_neg (fun e => h.1 e.symm), ih h.2]; rfl
  have hin : ∀ (ns : List Str) (g : Str → List F) (n : Str) (f : F), ns.Nodup → n ∈ ns →
      addOverload (ns.map fun k => (k, g k)) n f =
        ns.map fun k => (k, if k = n then g k ++ [f] else g k) := by
    intro ns g n f
    induction ns with
    | nil => intro _ h; cases h
    | cons a r ih =>
      intro hnd hmem
      rw [List.nodup_cons] at hnd
      simp only [List.map_cons, addOverload]
      by_cases ha : a = n
      · subst ha
        simp only [if_true]
        congr 1
        apply List.map_congr_left
        intro k hk
        rw [if_neg (fun e : k = a => hnd.1 (e ▸ hk))]
      · simp only [ha, if_false]
        rcases List.mem_cons.1 hmem with rfl | hmem
        · exact absurd rfl ha
        · rw [ih hnd.2 hmem]
  have hfs : ∀ (seen a : List Str) (n : Str), firsts seen (a ++ [n]) =
      if n ∈ seen ∨ n ∈ a then firsts seen a else firsts seen a ++ [n] := by
    intro seen a n
    induction a generalizing seen with
    | nil => by_cases h : n ∈ seen <;> simp [firsts, h]
    | cons s r ih =>
      simp only [List.cons_append, firsts]
      by_cases hs : s ∈ seen
      · rw [if_pos hs, if_pos hs, ih]
        by_cases h1 : n ∈ seen ∨ n ∈ r
        · rw [if_pos h1, if_pos (by rcases h1 with h | h <;> simp [h])]
        · rw [if_neg h1, if_neg]
          rintro (h | h)
          · exact h1 (.inl h)
          · rcases List.mem_cons.1 h with rfl | h
            · exact h1 (.inl hs)
            · exact h1 (.inr h)
      · rw [if_neg hs, if_neg hs, ih]
        by_cases h1 : n ∈ s :: seen ∨ n ∈ r
        · rw [if_pos h1, if_pos]
          rcases h1 with h | h
          · rcases List.mem_cons.1 h with rfl | h
            · exact .inr (by simp)
            · exact .inl h
          · exact .inr (by simp [h])
        · rw [if_neg h1, if_neg]
          · rfl
          · rintro (h | h)
            · exact h1 (.inl (by simp [h]))
            · rcases List.mem_cons.1 h with rfl | h
              · exact h1 (.inl (by simp))
              · exact h1 (.inr h)
  induction l using List.reverseRecOn with
  | nil => rfl
  | append_singleton l p ih =>
    obtain ⟨n, f⟩ := p
    rw [List.foldl_append, ih]
    simp only [List.foldl_cons, List.foldl_nil]
    have hmem : ∀ k, members (l ++ [(n, f)]) k = if k = n then members l k ++ [f] else members l k := by
      intro k
      by_cases hk : k = n
      · subst hk; simp [members]
      · have : ¬ n = k := fun e => hk e.symm
        simp [members, hk, this]
    have hnames : firstNames (l ++ [(n, f)]) = if n ∈ l.map (·.1) then firstNames l else firstNames l ++ [n] := by
      simp only [firstNames, List.map_append, List.map_cons, List.map_nil, hfs, List.not_mem_nil, false_or]
    have hNd := C30_each_once (l.map (·.1))
    by_cases hn : n ∈ l.map (·.1)
    · rw [hnames, if_pos hn, hin (firstNames l) (members l) n f hNd.1 ((hNd.2 n).2 hn)]
      apply List.map_congr_left
      intro k _
      rw [hmem]
    · rw [hnames, if_neg hn, hadd]
      · rw [List.map_append]
        congr 1
        · apply List.map_congr_left
          intro k hk
          have : k ≠ n := by rintro rfl; exact hn ((hNd.2 k).1 hk)
          rw [hmem, if_neg this]
        · simp only [List.map_cons, List.map_nil, hmem, if_true]
          have : members l n = [] := by
            simp only [members, List.map_eq_nil_iff, List.filter_eq_nil_iff]
            intro q hq
            simp only [decide_eq_true_eq]
            intro e
            exact hn (by rw [← e]; exact List.mem_map_of_mem hq)
          rw [this]; rfl
      · simp only [List.map_map]
        rw [show ((fun x => x.1) ∘ fun n => (n, members l n)) = id from rfl, List.map_id]
        exact fun h => hn ((hNd.2 n).1 h)

/-- C50: the Python name of a C function without a custom name and without template arguments:
the strip prefix is removed when present, and otherwise the name is kept. -/
theorem C50_strip_prefix (pre s : Str) :
    stripPrefix pre (pre ++ s) = s ∧ (¬ pre <+: s → stripPrefix pre s = s) := by
  constructor
  · unfold stripPrefix
    rw [if_pos (by rw [List.isPrefixOf_iff_prefix]; exact List.prefix_append _ _)]
    simp
  · intro h
    unfold stripPrefix
    rw [if_neg (by rw [List.isPrefixOf_iff_prefix]; exact h)]

/-- Two different C functions can get one Python name (and so become overloads of each other): the
prefixed and the unprefixed one. -/
theorem C50_strip_prefix_merges_counterexample :
    pyFunctionName "foo_".toList none "foo_bar".toList [] = pyFunctionName "foo_".toList none "bar".toList [] := by
  decide

example : firstNames [("a".toList, 1), ("b".toList, 2), ("a".toList, 3)] = ["a".toList, "b".toList] ∧
    members [("a".toList, 1), ("b".toList, 2), ("a".toList, 3)] "a".toList = [1, 3] := by decide


/-- The Python name of a C function in a module called `mod`: the name given, if any; else its C
name without a leading `mod_`, with its template arguments. -/
def PyNameSpec (mod : Str) (custom : Option Str) (cName : Str) (targs : List Str) (r : Str) : Prop :=
  match custom with
  | some n => r = n
  | none =>
    (∀ rest, cName = mod ++ '_' :: rest → r = Utils.getMangledName rest targs) ∧
    ((¬ ∃ rest, cName = mod ++ '_' :: rest) → r = Utils.getMangledName cName targs)

/-- What a history adds to module `m`: Python name and function, in order. `w` is the tree at the
start of the history. -/
inductive Added (m : Nat) : World W F → List (Op W F) → List (Str × F) → Prop
  | nil (w) : Added m w [] []
  | other {w op ops l} : (∀ c n ts f, op ≠ .addFunction m c n ts f) → Added m (step w op).2 ops l → Added m w (op :: ops) l
  | add {w c n ts f ops l r md} : w.mods[m]? = some md → PyNameSpec md.name c n ts r →
      Added m (step w (.addFunction m c n ts f)).2 ops l →
      Added m w (.addFunction m c n ts f :: ops) ((r, f w.section_) :: l)

private def fparts (w : World W F) : List (Str × Str × List (Str × List F)) :=
  w.mods.map fun m => (m.name, m.stripPrefix, m.functions)

private theorem fparts_upd (w : World W F) (i : Nat) (g : Mod W F → Mod W F)
    (hg : ∀ m, (g m).name = m.name ∧ (g m).stripPrefix = m.stripPrefix ∧ (g m).functions = m.functions) :
    fparts (w.upd i g) = fparts w := by
  apply List.ext_getElem?
  intro j
  simp only [fparts, World.upd, List.getElem?_map, List.getElem?_modify, Option.map_map]
  cases w.mods[j]? with
  | none => rfl
  | some x => simp only [Option.map_some, Function.comp]; split <;> simp [hg]

private theorem fparts_registerType (w : World W F) (m : Nat) (n f : Str) (t : W) :
    fparts (registerType w m n f t) = fparts w := by
  have hfold : ∀ (l : List Nat) (w : World W F),
      fparts (l.foldl (fun w j => w.upd j (fun md => { md with types := md.types.set f t })) w) = fparts w := by
    intro l
    induction l with
    | nil => intro w; rfl
    | cons x xs ih => intro w; rw [List.foldl_cons, ih, fparts_upd]; intro m; exact ⟨rfl, rfl, rfl⟩
  unfold registerType
  have h1 : fparts (if n = [] then w else w.upd m (fun md => { md with types := md.types.set n t })) = fparts w := by
    split
    · rfl
    · exact fparts_upd _ _ _ (fun _ => ⟨rfl, rfl, rfl⟩)
  simp only
  split
  · exact h1
  · rw [hfold, h1]

private theorem fparts_newSub (w : World W F) (m : Nat) (n ns : Str) :
    fparts (newSub w m n ns).1 = fparts w ++ [(n, n ++ "_".toList, [])] := by
  have := fparts_upd w m (fun x => { x with subs := x.subs ++ [w.mods.length] }) (fun _ => ⟨rfl, rfl, rfl⟩)
  simp only [fparts, newSub, List.map_append, List.map_cons, List.map_nil] at this ⊢
  rw [this]

private theorem fparts_step (w : World W F) (op : Op W F) (ho : ∀ m c n ts f, op ≠ .addFunction m c n ts f) :
    fparts (step w op).2 = fparts w ∨ ∃ n, fparts (step w op).2 = fparts w ++ [(n, n ++ "_".toList, [])] := by
  unfold step
  split
  · cases op with
    | newSub m n ns => exact .inr ⟨n, fparts_newSub w m n ns⟩
    | addNamespace m n =>
      simp only [addNamespace]
      split
      · exact .inl rfl
      · exact .inr ⟨n, fparts_newSub w m n n⟩
    | beginSection m n =>
      left
      simp only [beginSection]
      split
      · next h' => split at h' <;> (try split at h') <;> (try split at h') <;> cases h'; rfl
      · rfl
    | endSection m n =>
      left
      simp only [endSection]
      split
      · next h' => split at h' <;> (try split at h') <;> cases h'; rfl
      · rfl
    | addInclude m s =>
      left
      simp only [addInclude]
      split
      · next h' => split at h' <;> (try split at h') <;> cases h' <;> rfl
      · rfl
    | declareOneTime m n =>
      left
      simp only [declareOneTime]
      split
      · next h' => split at h' <;> cases h'; rfl
      · rfl
    | registerType m n f t => exact .inl (fparts_registerType w m n f t)
    | addFunction m c n ts f => exact absurd rfl (ho m c n ts f)
  · exact .inl rfl

private theorem fparts_get (w : World W F) (i : Nat) (md : Mod W F) (h : w.mods[i]? = some md) :
    (fparts w)[i]? = some (md.name, md.stripPrefix, md.functions) := by
  simp [fparts, h]

private theorem fparts_prefix (w : World W F) (h : List (Op W F))
    (hw : ∀ (i : Nat) (md : Mod W F), w.mods[i]? = some md → md.stripPrefix = md.name ++ "_".toList) :
    ∀ (i : Nat) (md : Mod W F), (after w h).mods[i]? = some md → md.stripPrefix = md.name ++ "_".toList := by
  have conv : ∀ w : World W F, (∀ (i : Nat) (md : Mod W F), w.mods[i]? = some md → md.stripPrefix = md.name ++ "_".toList) ↔
      ∀ p ∈ fparts w, p.2.1 = p.1 ++ "_".toList := by
    intro w
    simp only [fparts, List.mem_map]
    constructor
    · rintro h p ⟨md, hmd, rfl⟩
      obtain ⟨i, hi⟩ := List.mem_iff_getElem?.1 hmd
      exact h i md hi
    · intro h i md hi; exact h _ ⟨md, List.mem_iff_getElem?.2 ⟨i, hi⟩, rfl⟩
  induction h generalizing w with
  | nil => exact hw
  | cons op ops ih =>
    refine ih _ ?_
    by_cases ho : ∀ m c n ts f, op ≠ .addFunction m c n ts f
    · rw [conv] at hw ⊢
      rcases fparts_step w op ho with h | ⟨n, h⟩
      · rw [h]; exact hw
      · rw [h]
        intro p hp
        rcases List.mem_append.1 hp with hp | hp
        · exact hw p hp
        · simp at hp; subst hp; rfl
    · simp only [not_forall, not_not] at ho
      obtain ⟨m, c, n, ts, f, rfl⟩ := ho
      intro i md hi
      replace hi : (step w (.addFunction m c n ts f)).2.mods[i]? = some md := hi
      unfold step at hi
      split at hi
      · simp only [addFunction, World.upd, List.getElem?_modify] at hi
        cases hx : w.mods[i]? with
        | none => rw [hx] at hi; simp at hi
        | some x =>
          rw [hx] at hi
          replace hi := Option.some.inj hi
          subst hi
          split <;> exact hw i x hx
      · exact hw i md hi

/-- C50: after any history of calls the functions of a module are, for each Python name in order of
first use, one overload set with every function added to the module under that name, in the order
they were added; the Python name is the one given or the C name without the module's prefix. -/
theorem C50_functions (name ns : Str) (h : List (Op W F)) (m : Nat) (hv : Valid (newRoot name ns) h)
    (md : Mod W F) (hm : (after (newRoot name ns : World W F) h).mods[m]? = some md) :
    ∃ l, Added m (newRoot name ns) h l ∧ md.functions = (firstNames l).map fun n => (n, members l n) := by
  have key : ∀ (h : List (Op W F)) (w : World W F) (fs : List (Str × List F)), Valid w h →
      (∀ (i : Nat) (md : Mod W F), w.mods[i]? = some md → md.stripPrefix = md.name ++ "_".toList) →
      (∀ md : Mod W F, w.mods[m]? = some md → md.functions = fs) → (w.mods[m]? = none → fs = []) →
      ∀ md : Mod W F, (after w h).mods[m]? = some md →
      ∃ l, Added m w h l ∧ md.functions = l.foldl (fun fs p => addOverload fs p.1 p.2) fs := by
    intro h
    induction h with
    | nil => intro w fs _ _ h2 _ md hm; exact ⟨[], .nil w, h2 md hm⟩
    | cons op ops ih =>
      intro w fs hv h1 h2 h3 md hm
      have h1' := fparts_prefix w [op] h1
      by_cases ho : ∃ c n ts f, op = .addFunction m c n ts f
      · obtain ⟨c, n, ts, f, rfl⟩ := ho
        have hlt : m < w.mods.length := hv.1
        have hstep : (step w (.addFunction m c n ts f)).2 = addFunction w m c n ts f := by
          exact congrArg Prod.snd (if_pos hlt)
        obtain ⟨x, hx⟩ : ∃ x, w.mods[m]? = some x := ⟨_, List.getElem?_eq_getElem hlt⟩
        have hnew : (addFunction w m c n ts f).mods[m]? = some { x with
            functions := addOverload x.functions (pyFunctionName x.stripPrefix c n ts) (f w.section_) } := by
          simp [addFunction, World.upd, List.getElem?_modify, hx]
        obtain ⟨l, hl1, hl2⟩ := ih (step w (.addFunction m c n ts f)).2
          (addOverload fs (pyFunctionName x.stripPrefix c n ts) (f w.section_)) hv.2 h1'
          (by rw [hstep, hnew]; rintro md' hmd; cases hmd; simp only; rw [h2 x hx])
          (by rw [hstep, hnew]; intro h; cases h) md hm
        refine ⟨(pyFunctionName x.stripPrefix c n ts, f w.section_) :: l, .add hx ?_ hl1, hl2⟩
        rw [h1 m x hx]
        unfold PyNameSpec pyFunctionName
        cases c with
        | some n => rfl
        | none =>
          refine ⟨fun rest hr => ?_, fun hr => ?_⟩
          · subst hr
            have := (C50_strip_prefix (x.name ++ "_".toList) rest).1
            simp only [List.append_assoc] at this ⊢
            exact congrArg (fun s => Utils.getMangledName s ts) this
          · rw [(C50_strip_prefix (x.name ++ "_".toList) n).2]
            rintro ⟨rest, hre⟩
            exact hr ⟨rest, by rw [← hre]; simp⟩
      · have ho' : ∀ c n ts f, op ≠ .addFunction m c n ts f := fun c n ts f e => ho ⟨c, n, ts, f, e⟩
        have hget : ∀ md : Mod W F, (step w op).2.mods[m]? = some md → md.functions = fs := by
          intro md hmd
          by_cases hany : ∀ m c n ts f, op ≠ .addFunction m c n ts f
          · have hp := fparts_get _ _ _ hmd
            rcases fparts_step w op hany with h | ⟨n, h⟩
            · rw [h] at hp
              simp only [fparts, List.getElem?_map, Option.map_eq_some_iff] at hp
              obtain ⟨y, hy, he⟩ := hp
              simp only [Prod.mk.injEq] at he
              rw [← he.2.2]; exact h2 y hy
            · rw [h, List.getElem?_append] at hp
              split at hp
              · simp only [fparts, List.getElem?_map, Option.map_eq_some_iff] at hp
                obtain ⟨y, hy, he⟩ := hp
                have := h2 y hy
                simp only [Prod.mk.injEq] at he
                rw [← he.2.2]; exact this
              · rename_i hlen
                have hz : ∀ k : Nat, [(n, n ++ "_".toList, ([] : List (Str × List F)))][k]? =
                    some (md.name, md.stripPrefix, md.functions) → md.functions = [] := by
                  intro k hk
                  cases k with
                  | zero => simp at hk; exact hk.2.2
                  | succ k => simp at hk
                rw [hz _ hp]
                symm
                apply h3
                simp only [fparts, List.length_map] at hlen
                exact List.getElem?_eq_none (by omega)
          · simp only [not_forall, not_not] at hany
            obtain ⟨m', c, n, ts, f, rfl⟩ := hany
            have hne : m' ≠ m := fun e => by subst e; exact ho ⟨c, n, ts, f, rfl⟩
            unfold step at hmd
            rw [if_pos hv.1] at hmd
            simp only [addFunction, World.upd, List.getElem?_modify, if_neg hne] at hmd
            cases hx : w.mods[m]? with
            | none => rw [hx] at hmd; simp at hmd
            | some x => rw [hx] at hmd; simp at hmd; subst hmd; exact h2 x hx
        have hnone : (step w op).2.mods[m]? = none → fs = [] := by
          intro hn
          apply h3
          have := step_length_le w op
          rw [List.getElem?_eq_none_iff] at hn ⊢
          omega
        obtain ⟨l, hl1, hl2⟩ := ih (step w op).2 fs hv.2 h1' hget hnone md hm
        exact ⟨l, .other ho' hl1, hl2⟩
  have hroot1 : ∀ (i : Nat) (md : Mod W F), (newRoot name ns : World W F).mods[i]? = some md → md.stripPrefix = md.name ++ "_".toList := by
    intro i md hi
    cases i with
    | zero => cases hi; rfl
    | succ i => simp [newRoot] at hi
  have hroot2 : ∀ md : Mod W F, (newRoot name ns : World W F).mods[m]? = some md → md.functions = [] := by
    intro md hi
    cases m with
    | zero => cases hi; rfl
    | succ i => simp [newRoot] at hi
  obtain ⟨l, h1, h2⟩ := key h (newRoot name ns) [] hv hroot1 hroot2 (fun _ => rfl) md hm
  exact ⟨l, h1, h2.trans (C50_overload_sets l)⟩

example : (after (newRoot "m".toList [] : World Nat Nat) [.addFunction 0 none "m_f".toList [] (fun _ => 1),
    .addFunction 0 (some "m_f".toList) "g".toList [] (fun _ => 2), .addFunction 0 none "f".toList [] (fun _ => 3),
    .addFunction 0 none "f".toList ["int".toList] (fun _ => 4)]).mods.map (·.functions) =
    [[("f".toList, [1, 3]), ("m_f".toList, [2]), ("f__lt__int__gt__".toList, [4])]] := by decide

/-! ## C32: uniqueness -/

/-- C32, the part that holds for prefixes: appending submodule names that contain no underscore
keeps prefixes of different name lists apart. -/
theorem C32_prefix_injective_partial (root : Str) (a b : List Str)
    (ha : ∀ n ∈ a, '_' ∉ n) (hb : ∀ n ∈ b, '_' ∉ n)
    (h : root ++ a.flatMap (fun n => '_' :: n) = root ++ b.flatMap (fun n => '_' :: n)) : a = b := by
  replace h := List.append_cancel_left h
  have key : ∀ (x y r s : Str), '_' ∉ x → '_' ∉ y → (r = [] ∨ r.head? = some '_') → (s = [] ∨ s.head? = some '_') →
      x ++ r = y ++ s → x = y ∧ r = s := by
    intro x
    induction x with
    | nil =>
      intro y r s _ hy hr hs he
      cases y with
      | nil => exact ⟨rfl, he⟩
      | cons c cs =>
        simp only [List.nil_append] at he
        rcases hr with rfl | hr
        · cases he
        · rw [he] at hr; simp at hr; exact absurd (by simp [hr]) hy
    | cons c cs ih =>
      intro y r s hx hy hr hs he
      cases y with
      | nil =>
        simp only [List.nil_append] at he
        rcases hs with rfl | hs
        · cases he
        · rw [← he] at hs; simp at hs; exact absurd (by simp [hs]) hx
      | cons d ds =>
        simp only [List.cons_append, List.cons.injEq] at he
        obtain ⟨h1, h2⟩ := ih ds r s (fun h => hx (by simp [h])) (fun h => hy (by simp [h])) hr hs he.2
        exact ⟨by rw [he.1, h1], h2⟩
  have hd : ∀ l : List Str, l.flatMap (fun n => '_' :: n) = [] ∨ (l.flatMap (fun n => '_' :: n)).head? = some '_' := by
    intro l; cases l <;> simp
  induction a generalizing b with
  | nil => cases b with
    | nil => rfl
    | cons y ys => simp at h
  | cons x xs ih =>
    cases b with
    | nil => simp at h
    | cons y ys =>
      simp only [List.flatMap_cons, List.cons_append, List.cons.injEq, true_and] at h
      obtain ⟨h1, h2⟩ := key x y _ _ (ha x (by simp)) (hb y (by simp)) (hd xs) (hd ys) h
      rw [h1, ih ys (fun n hn => ha n (by simp [hn])) (fun n hn => hb n (by simp [hn])) h2]

/-- No two submodules of one module share a name. -/
def UniqueNames (w : World W F) : Prop :=
  ∀ (i j : Nat) (a b : Core), w.cores[i]? = some a → w.cores[j]? = some b → a.parent = b.parent →
    (a.name = b.name ∨ a.parent = none) → i = j

/-- `submodules` lists all modules with this parent. -/
def SubsComplete (w : World W F) : Prop :=
  ∀ (p i : Nat) (m s : Mod W F), w.mods[p]? = some m → w.mods[i]? = some s → s.parent = some p → i ∈ m.subs

private theorem unique_paths (w : World W F) (hw : Wf w) (hu : UniqueNames w) :
    ∀ (i j : Nat), i < w.mods.length → j < w.mods.length → modulePath w i = modulePath w j → i = j := by
  have hroot : ∀ r, w.mods[0]? = some r → modulePath w 0 = [r.name] := fun r hr => (C32_root_paths w hw r hr).1
  have hsub : ∀ (i p : Nat) (m : Mod W F), w.mods[i]? = some m → m.parent = some p → modulePath w i = modulePath w p ++ [m.name] := by
    intro i p m hm hp
    unfold modulePath; rw [chain_sub hw hm hp]; simp [hm]
  have hne : ∀ i, i < w.mods.length → modulePath w i ≠ [] := by
    intro i hi
    have hm : w.mods[i]? = some w.mods[i] := List.getElem?_eq_getElem hi
    rcases Nat.eq_zero_or_pos i with rfl | h0
    · rw [hroot _ hm]; simp
    · obtain ⟨p, hp, _⟩ := hw.2 i _ hm h0
      rw [hsub i p _ hm hp]; simp
  intro i
  induction i using Nat.strongRecOn with
  | ind i ih =>
    intro j hi hj he
    have hmi : w.mods[i]? = some w.mods[i] := List.getElem?_eq_getElem hi
    have hmj : w.mods[j]? = some w.mods[j] := List.getElem?_eq_getElem hj
    rcases Nat.eq_zero_or_pos i with rfl | hi0
    · rcases Nat.eq_zero_or_pos j with rfl | hj0
      · rfl
      · obtain ⟨q, hq, hql⟩ := hw.2 j _ hmj hj0
        rw [hroot _ hmi, hsub j q _ hmj hq] at he
        have := congrArg List.length he
        have h1 := List.length_pos_iff.2 (hne q (by omega))
        simp only [List.length_append, List.length_singleton] at this; omega
    · obtain ⟨p, hp, hpl⟩ := hw.2 i _ hmi hi0
      rcases Nat.eq_zero_or_pos j with rfl | hj0
      · rw [hroot _ hmj, hsub i p _ hmi hp] at he
        have := congrArg List.length he
        have h1 := List.length_pos_iff.2 (hne p (by omega))
        simp only [List.length_append, List.length_singleton] at this; omega
      · obtain ⟨q, hq, hql⟩ := hw.2 j _ hmj hj0
        rw [hsub i p _ hmi hp, hsub j q _ hmj hq] at he
        obtain ⟨h1, h2⟩ := List.append_inj' he rfl
        have hpq := ih p hpl q (by omega) (by omega) h1
        refine hu i j w.mods[i].core w.mods[j].core (by rw [cores_get, hmi]; rfl) (by rw [cores_get, hmj]; rfl) ?_ (.inl ?_)
        · show w.mods[i].parent = w.mods[j].parent
          rw [hp, hq, hpq]
        · show w.mods[i].name = w.mods[j].name
          simpa using h2

private theorem newSub_get (w : World W F) (p : Nat) (n ns : Str) (i : Nat) :
    (newSub w p n ns).1.mods[i]? =
      if i < w.mods.length then
        (if p = i then (w.mods[i]?).map (fun m => { m with subs := m.subs ++ [w.mods.length] }) else w.mods[i]?)
      else if i = w.mods.length then
        some { name := n, parent := some p, ns := ns, types := [], functions := [], subs := [],
               stripPrefix := n ++ "_".toList }
      else none := by
  have hlen : ∀ k, (w.upd p (fun m => { m with subs := m.subs ++ [k] })).mods.length = w.mods.length :=
    fun _ => length_upd _ _ _
  unfold newSub
  simp only
  split
  · next h => rw [List.getElem?_append_left (by rw [hlen]; exact h), upd_get]
  · next h =>
    split
    · next he => subst he; rw [List.getElem?_append_right (by rw [hlen]; exact Nat.le_refl _), hlen]; simp
    · next he => rw [List.getElem?_eq_none]; simp only [List.length_append, hlen, List.length_singleton]; omega

/-- What `add_cpp_namespace` relies on and keeps. -/
structure Inv (w : World W F) : Prop where
  wf : Wf w
  subs : SubsComplete w
  uniq : UniqueNames w

private theorem get_lt {α : Type} {l : List α} {k : Nat} {x : α} (h : l[k]? = some x) : k < l.length := by
  rcases Nat.lt_or_ge k l.length with h' | h'
  · exact h'
  · rw [List.getElem?_eq_none h'] at h; cases h

private theorem parent_lt {w : World W F} (hw : Wf w) {i p : Nat} {m : Mod W F} (hm : w.mods[i]? = some m)
    (hp : m.parent = some p) : p < i := by
  rcases Nat.eq_zero_or_pos i with rfl | h0
  · obtain ⟨r, hr, hr'⟩ := hw.1
    rw [hm] at hr; cases hr; rw [hr'] at hp; cases hp
  · obtain ⟨q, hq, hlt⟩ := hw.2 i m hm h0
    rw [hp] at hq; cases hq; exact hlt

private theorem inv_addNamespace {w : World W F} (h : Inv w) (p : Nat) (n : Str) (hp : p < w.mods.length) :
    Inv (addNamespace w p n).1 := by
  unfold addNamespace
  cases hg : getSubmodule w p n with
  | some i => exact h
  | none =>
    simp only
    have hpm : w.mods[p]? = some w.mods[p] := List.getElem?_eq_getElem hp
    refine ⟨wf_append h.wf hp rfl (newSub_cores w p n n).1, ?_, ?_⟩
    · intro q i m s hm hi hpar
      rw [newSub_get] at hm hi
      split at hi
      · next hil =>
        obtain ⟨s', hs', hps⟩ : ∃ s', w.mods[i]? = some s' ∧ s'.parent = some q := by
          split at hi
          · cases hx : w.mods[i]? with
            | none => rw [hx] at hi; cases hi
            | some x => rw [hx] at hi; cases hi; exact ⟨x, rfl, hpar⟩
          · exact ⟨s, hi, hpar⟩
        have hql : q < w.mods.length := by have := parent_lt h.wf hs' hps; omega
        rw [if_pos hql] at hm
        have hq : w.mods[q]? = some w.mods[q] := List.getElem?_eq_getElem hql
        have := h.subs q i _ s' hq hs' hps
        split at hm
        · rw [hq] at hm; cases hm; simp [this]
        · rw [hq] at hm; cases hm; exact this
      · split at hi
        · next hie =>
          cases hi
          simp at hpar
          subst hpar
          rw [if_pos hp, if_pos rfl, hpm] at hm
          cases hm
          simp [hie]
        · cases hi
    · intro i j a b ha hb hpar hnm
      rw [(newSub_cores w p n n).1] at ha hb
      have old : ∀ {k : Nat} {c : Core}, k < w.mods.length → (w.cores ++ [⟨n, some p, n⟩])[k]? = some c → w.cores[k]? = some c := by
        intro k c hk hc
        rwa [List.getElem?_append_left (by rw [cores_length]; exact hk)] at hc
      have new : ∀ {k : Nat} {c : Core}, ¬ k < w.mods.length → (w.cores ++ [⟨n, some p, n⟩])[k]? = some c →
          k = w.mods.length ∧ c = ⟨n, some p, n⟩ := by
        intro k c hk hc
        have hl := get_lt hc
        simp [cores_length] at hl
        have hke : k = w.mods.length := by omega
        rw [hke, ← cores_length, List.getElem?_append_right (Nat.le_refl _)] at hc
        simp at hc
        exact ⟨hke, hc.symm⟩
      -- an old module below p with the name n would have been found
      have clash : ∀ {k : Nat} {c : Core}, w.cores[k]? = some c → c.parent = some p → c.name = n → False := by
        intro k c hc hcp hcn
        rw [cores_get] at hc
        cases hx : w.mods[k]? with
        | none => rw [hx] at hc; cases hc
        | some x =>
          rw [hx] at hc
          simp at hc
          subst hc
          have hin := h.subs p k _ x hpm hx hcp
          unfold getSubmodule at hg
          rw [hpm] at hg
          simp only [List.find?_eq_none] at hg
          apply hg k hin
          simp [hasName, hx]
          exact hcn
      by_cases hi : i < w.mods.length
      · by_cases hj : j < w.mods.length
        · exact h.uniq i j a b (old hi ha) (old hj hb) hpar hnm
        · obtain ⟨_, rfl⟩ := new hj hb
          rcases hnm with hnm | hnm
          · exact (clash (old hi ha) hpar hnm).elim
          · rw [hnm] at hpar; cases hpar
      · obtain ⟨hie, rfl⟩ := new hi ha
        by_cases hj : j < w.mods.length
        · rcases hnm with hnm | hnm
          · exact (clash (old hj hb) hpar.symm hnm.symm).elim
          · cases hnm
        · obtain ⟨hje, _⟩ := new hj hb
          omega

/-- Parts of a tree that only making submodules changes. -/
private def shape (w : World W F) : List (Core × List Nat) := w.mods.map fun m => (m.core, m.subs)

private theorem inv_shape {w w' : World W F} (h : Inv w) (hs : shape w' = shape w) : Inv w' := by
  have hc : w'.cores = w.cores := by
    have := congrArg (List.map Prod.fst) hs
    simpa [shape, World.cores, Function.comp_def] using this
  have hget : ∀ i : Nat, (w'.mods[i]?).map (fun m => (m.core, m.subs)) = (w.mods[i]?).map (fun m => (m.core, m.subs)) := by
    intro i
    have := congrArg (fun l => l[i]?) hs
    simpa [shape] using this
  have back : ∀ {i : Nat} {m : Mod W F}, w'.mods[i]? = some m → ∃ m', w.mods[i]? = some m' ∧ m'.parent = m.parent ∧ m'.subs = m.subs := by
    intro i m hm
    have := hget i
    rw [hm] at this
    cases hx : w.mods[i]? with
    | none => rw [hx] at this; cases this
    | some x =>
      rw [hx] at this
      simp [Mod.core] at this
      exact ⟨x, rfl, this.1.2.1.symm, this.2.symm⟩
  refine ⟨wf_cores hc h.wf, ?_, ?_⟩
  · intro p i m s hm hi hp
    obtain ⟨m', h1, _, h3⟩ := back hm
    obtain ⟨s', h4, h5, _⟩ := back hi
    rw [← h3]
    exact h.subs p i m' s' h1 h4 (by rw [h5, hp])
  · intro i j a b ha hb
    rw [hc] at ha hb
    exact h.uniq i j a b ha hb

private theorem shape_upd (w : World W F) (i : Nat) (f : Mod W F → Mod W F)
    (hf : ∀ m, (f m).core = m.core ∧ (f m).subs = m.subs) : shape (w.upd i f) = shape w := by
  apply List.ext_getElem?
  intro j
  simp only [shape, List.getElem?_map, upd_get]
  split
  · cases w.mods[j]? with
    | none => rfl
    | some m => simp [hf]
  · rfl

private theorem inv_step {w : World W F} (h : Inv w) (op : Op W F)
    (hop : ∀ m n ns, op ≠ .newSub m n ns) : Inv (step w op).2 := by
  unfold step
  split
  · next ht =>
    cases op with
    | newSub m n ns => exact absurd rfl (hop m n ns)
    | addNamespace m n => exact inv_addNamespace h m n ht
    | beginSection m n =>
      simp only [beginSection]
      split
      · next h' => split at h' <;> (try split at h') <;> (try split at h') <;> cases h'; exact inv_shape h rfl
      · exact h
    | endSection m n =>
      simp only [endSection]
      split
      · next h' => split at h' <;> (try split at h') <;> cases h'; exact inv_shape h rfl
      · exact h
    | addInclude m s =>
      simp only [addInclude]
      split
      · next h' => split at h' <;> (try split at h') <;> cases h' <;> exact inv_shape h rfl
      · exact h
    | declareOneTime m n =>
      simp only [declareOneTime]
      split
      · next h' => split at h' <;> cases h'; exact inv_shape h rfl
      · exact h
    | registerType m n f t =>
      refine inv_shape h ?_
      have hfold : ∀ (l : List Nat) (w : World W F),
          shape (l.foldl (fun w j => w.upd j (fun md => { md with types := md.types.set f t })) w) = shape w := by
        intro l
        induction l with
        | nil => intro w; rfl
        | cons x xs ih => intro w; rw [List.foldl_cons, ih]; exact shape_upd _ _ _ (fun _ => ⟨rfl, rfl⟩)
      have h1 : shape (if n = [] then w else w.upd m (fun md => { md with types := md.types.set n t })) = shape w := by
        split
        · rfl
        · exact shape_upd _ _ _ (fun _ => ⟨rfl, rfl⟩)
      show shape (registerType w m n f t) = _
      unfold registerType
      simp only
      split
      · exact h1
      · rw [hfold, h1]
    | addFunction m c n ts f => exact inv_shape h (shape_upd _ _ _ (fun _ => ⟨rfl, rfl⟩))
  · exact h

/-- C32: after any history in which submodules are made with `add_cpp_namespace`, different modules
of the tree have different Python paths. -/
theorem C32_paths_unique (name ns : Str) (h : List (Op W F)) (hns : ∀ m n ns', .newSub m n ns' ∉ h)
    (i j : Nat) (hi : i < (after (newRoot name ns : World W F) h).mods.length)
    (hj : j < (after (newRoot name ns : World W F) h).mods.length)
    (he : modulePath (after (newRoot name ns : World W F) h) i = modulePath (after (newRoot name ns : World W F) h) j) :
    i = j := by
  have hroot : Inv (newRoot name ns : World W F) := by
    refine ⟨wf_root name ns, ?_, ?_⟩
    · intro p i m s _ hi hp
      cases i with
      | zero => cases hi; cases hp
      | succ i => simp [newRoot] at hi
    · intro i j a b ha hb _ _
      cases i with
      | succ i => simp [newRoot, World.cores] at ha
      | zero =>
        cases j with
        | succ j => simp [newRoot, World.cores] at hb
        | zero => rfl
  have key : ∀ (l : List (Op W F)) (w : World W F), (∀ m n ns', .newSub m n ns' ∉ l) → Inv w → Inv (after w l) := by
    intro l
    induction l with
    | nil => intro w _ hw; exact hw
    | cons op ops ih =>
      intro w hno hw
      refine ih _ (fun m n ns' hm => hno m n ns' (by simp [hm])) (inv_step hw op ?_)
      rintro m n ns' rfl; exact hno m n ns' (by simp)
  have inv := key h _ hns hroot
  exact unique_paths _ inv.wf inv.uniq i j hi hj he

/-- Making submodules directly can give two modules one path. -/
theorem C32_duplicate_submodule_counterexample :
    let w := after (newRoot "m".toList [] : World Nat Nat) [.newSub 0 "a".toList [], .newSub 0 "a".toList []]
    modulePath w 1 = modulePath w 2 := by decide

end Verif.Module
