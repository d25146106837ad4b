import Verif.Container.Model

/-!
# C60 (lists become containers), C61 (iteration), C62 (container memory)
-/
namespace Verif.Container
open Verif

variable {P E : Type}

/-! ## Specification -/

/-- The items of a Python list, converted: `none` if one of them cannot be. -/
def convertAll (f : P → Option E) : List P → Option (List E)
  | [] => some []
  | p :: ps =>
    match f p, convertAll f ps with
    | some e, some es => some (e :: es)
    | _, _ => none

/-- Of elements that are equivalent only the first is kept. -/
def firsts (before : E → E → Bool) : List E → List E → List E
  | _, [] => []
  | seen, e :: es => if seen.any (equiv before e) then firsts before seen es else e :: firsts before (e :: seen) es

/-- Converting an item runs no Python code that changes the list. -/
def Pure (conv : Item P E) (f : P → Option E) : Prop := ∀ p xs, conv p xs = (f p, xs)

/-- A strict weak ordering, as C++ requires of a comparison. -/
structure Weak (before : E → E → Bool) : Prop where
  asymm : ∀ a b, before a b = true → before b a = false
  negTrans : ∀ a b c, before a b = false → before b c = false → before a c = false

/-- Nothing out of order. -/
def InOrder (before : E → E → Bool) (l : List E) : Prop := l.Pairwise (fun a b => before b a = false)

/-! ## Adding -/

theorem insertAfter_perm (before : E → E → Bool) (e : E) (l : List E) : (insertAfter before e l).Perm (e :: l) := by
  induction l with
  | nil => exact .refl _
  | cons x xs ih =>
    unfold insertAfter
    split
    · exact .refl _
    · exact (ih.cons x).trans (.swap _ _ _)

theorem insertAfter_order {before : E → E → Bool} (hw : Weak before) (e : E) (l : List E) (h : InOrder before l) :
    InOrder before (insertAfter before e l) := by
  induction l with
  | nil => simp [insertAfter, InOrder]
  | cons x xs ih =>
    have hx := List.pairwise_cons.mp h
    unfold insertAfter
    split
    · rename_i he
      refine List.pairwise_cons.mpr ⟨?_, h⟩
      intro y hy
      have hex : before x e = false := hw.asymm _ _ he
      rcases List.mem_cons.mp hy with rfl | hy
      · exact hex
      · exact hw.negTrans _ _ _ (hx.1 y hy) hex
    · rename_i he
      refine List.pairwise_cons.mpr ⟨?_, ih hx.2⟩
      intro y hy
      rcases List.mem_cons.mp ((insertAfter_perm before e xs).mem_iff.mp hy) with rfl | hy
      · exact Bool.eq_false_iff.mpr he
      · exact hx.1 y hy

theorem insertIdx_perm (e : E) (l : List E) (n : Nat) (h : n ≤ l.length) : (l.insertIdx n e).Perm (e :: l) :=
  List.perm_insertIdx e l h

theorem any_perm {l l' : List E} (h : l.Perm l') (p : E → Bool) : l.any p = l'.any p := by
  rw [Bool.eq_iff_iff, List.any_eq_true, List.any_eq_true]
  constructor
  · rintro ⟨x, hx, hp⟩; exact ⟨x, h.mem_iff.mp hx, hp⟩
  · rintro ⟨x, hx, hp⟩; exact ⟨x, h.mem_iff.mpr hx, hp⟩

theorem fold_back (cmp : Cmp E) {k : Kind} (hk : k = .list ∨ k = .deque ∨ k = .vector ∨ k = .queue ∨ k = .stack ∨ k = .priorityQueue)
    (es : List E) : ∀ acc, es.foldl (add cmp k) acc = acc ++ es := by
  induction es with
  | nil => simp
  | cons e es ih =>
    intro acc
    rw [List.foldl_cons, ih]
    rcases hk with rfl | rfl | rfl | rfl | rfl | rfl <;> simp [add]

theorem fold_multi (cmp : Cmp E) {k : Kind} (hk : k = .multiset ∨ k = .hashMultiset) (es : List E) :
    ∀ acc, (es.foldl (add cmp k) acc).Perm (acc ++ es) := by
  induction es with
  | nil => simp
  | cons e es ih =>
    intro acc
    rw [List.foldl_cons]
    refine (ih _).trans ?_
    have : (add cmp k acc e).Perm (e :: acc) := by
      rcases hk with rfl | rfl
      · exact insertAfter_perm _ _ _
      · exact insertIdx_perm _ _ _ (Nat.min_le_right _ _)
    refine (this.append_right es).trans ?_
    exact List.perm_middle.symm

theorem fold_unique (cmp : Cmp E) {k : Kind} (hk : k = .set ∨ k = .map ∨ k = .hashSet ∨ k = .unorderedMap) (es : List E) :
    ∀ acc seen, acc.Perm seen → (es.foldl (add cmp k) acc).Perm (acc ++ firsts cmp.before seen es) := by
  induction es with
  | nil => intro acc seen _; simp [firsts]
  | cons e es ih =>
    intro acc seen h
    rw [List.foldl_cons]
    unfold firsts
    by_cases hs : seen.any (equiv cmp.before e) = true
    · rw [if_pos hs]
      have : add cmp k acc e = acc := by
        have hs' := hs
        rw [← any_perm h] at hs'
        rcases hk with rfl | rfl | rfl | rfl <;> simp only [add] <;> rw [if_pos hs']
      rw [this]
      exact ih acc seen h
    · rw [if_neg hs]
      have : (add cmp k acc e).Perm (e :: acc) := by
        have hs' := hs
        rw [← any_perm h] at hs'
        rcases hk with rfl | rfl | rfl | rfl <;> simp only [add] <;> rw [if_neg hs']
        · exact insertAfter_perm _ _ _
        · exact insertAfter_perm _ _ _
        · exact insertIdx_perm _ _ _ (Nat.min_le_right _ _)
        · exact insertIdx_perm _ _ _ (Nat.min_le_right _ _)
      refine (ih _ (e :: seen) (this.trans (h.cons e))).trans ?_
      refine (this.append_right _).trans ?_
      exact List.perm_middle.symm

theorem fold_order (cmp : Cmp E) (hw : Weak cmp.before) {k : Kind} (hk : k = .set ∨ k = .map ∨ k = .multiset) (es : List E) :
    ∀ acc, InOrder cmp.before acc → InOrder cmp.before (es.foldl (add cmp k) acc) := by
  induction es with
  | nil => intro acc h; exact h
  | cons e es ih =>
    intro acc h
    rw [List.foldl_cons]
    apply ih
    rcases hk with rfl | rfl | rfl <;> simp only [add]
    · split
      · exact h
      · exact insertAfter_order hw _ _ h
    · split
      · exact h
      · exact insertAfter_order hw _ _ h
    · exact insertAfter_order hw _ _ h

/-! ## The loop -/

theorem loop_pure {conv : Item P E} {f : P → Option E} (hp : Pure conv f) (addE : List E → E → List E)
    (xs : List P) : ∀ (n i : Nat) (c : List E), i + n = xs.length →
      ∃ c', loop conv addE n i xs c = .ok (match convertAll f (xs.drop i) with
        | some es => (es.foldl addE c, true)
        | none => (c', false)) := by
  intro n
  induction n with
  | zero =>
    intro i c h
    have : xs.drop i = [] := List.drop_eq_nil_of_le (by omega)
    refine ⟨c, ?_⟩
    rw [this]
    simp [loop, convertAll]
  | succ n ih =>
    intro i c h
    have hi : i < xs.length := by omega
    have hd : xs.drop i = xs[i] :: xs.drop (i + 1) := (List.getElem_cons_drop hi).symm
    rw [hd]
    have hg : xs[i]? = some xs[i] := List.getElem?_eq_getElem hi
    unfold loop
    rw [hg]
    simp only [hp xs[i] xs]
    cases hf : f xs[i] with
    | none =>
      refine ⟨c, ?_⟩
      simp [convertAll, hf]
    | some e =>
      obtain ⟨c', hc'⟩ := ih (i + 1) (addE c e) (by omega)
      refine ⟨c', ?_⟩
      simp only
      rw [hc']
      cases hr : convertAll f (xs.drop (i + 1)) <;> simp [convertAll, hf, hr]

/-! ## C60 -/

section
variable (view : P → View P) (kind : Kind) (cmp : Cmp E) {conv : Item P E} {f : P → Option E}

/-- C60: what C++ receives for an argument.  A Python list is accepted exactly when all of its items
can be converted, and C++ receives the converted items added in list order to an empty container; an
instance of the container type is accepted and copied; everything else, `None` included, is refused. -/
theorem C60_argument (hp : Pure conv f) (w : World E) (arg : P)
    (hi : ∀ c, view arg = .inst c → ∃ h l, (w.cs c).obj = some h ∧ w.heap h = some l) :
    step view kind cmp conv w (.toCpp arg) = .ok (w, .passed (match view arg with
      | .list xs => (convertAll f xs).map (fun es => es.foldl (add cmp kind) [])
      | .inst c => (w.cs c).obj.bind w.heap
      | _ => none)) := by
  simp only [step, convert]
  cases hv : view arg with
  | inst c =>
    obtain ⟨h, l, h1, h2⟩ := hi c hv
    simp [h1, h2]
  | list xs =>
    obtain ⟨c', hc'⟩ := loop_pure hp (add cmp kind) xs xs.length 0 [] (by simp)
    simp only [List.drop_zero] at hc'
    simp only [hc']
    cases convertAll f xs <;> simp
  | tuple xs => simp
  | other => simp

/-- C60: what is in the container afterwards.  Lists, deques and vectors hold the items in list order;
sets and maps hold, of items that compare equal, the first one only, multisets all of them; sets,
multisets and maps in the order of their comparison. -/
theorem C60_contents (es : List E) :
    (kind = .list ∨ kind = .deque ∨ kind = .vector → es.foldl (add cmp kind) [] = es) ∧
    (kind = .set ∨ kind = .map ∨ kind = .hashSet ∨ kind = .unorderedMap →
      (es.foldl (add cmp kind) []).Perm (firsts cmp.before [] es)) ∧
    (kind = .multiset ∨ kind = .hashMultiset → (es.foldl (add cmp kind) []).Perm es) ∧
    (Weak cmp.before → kind = .set ∨ kind = .map ∨ kind = .multiset →
      InOrder cmp.before (es.foldl (add cmp kind) [])) := by
  refine ⟨?_, ?_, ?_, ?_⟩
  · intro hk
    rw [fold_back cmp (by rcases hk with h | h | h <;> simp [h]) es []]
    rfl
  · intro hk
    simpa using fold_unique cmp hk es [] [] (.refl _)
  · intro hk
    simpa using fold_multi cmp hk es []
  · intro hw hk
    exact fold_order cmp hw hk es [] List.Pairwise.nil
end

end Verif.Container
