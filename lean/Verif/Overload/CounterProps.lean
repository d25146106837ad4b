import Verif.Overload.Counter
import Mathlib.Data.List.Nodup

/-!
# C25: the overload counter enumerates the cartesian product
-/
namespace Verif.Overload
open Verif

variable {α : Type}

/-- The cartesian product in lexicographic order. -/
def product : List (List α) → List (List α)
  | [] => [[]]
  | l :: ls => l.flatMap fun x => (product ls).map (x :: ·)

/-- What a state still has to yield. -/
private def pend : List (Col α) → List (List α)
  | [] => []
  | c :: cs => (pend cs).map (c.val :: ·) ++
      c.rem.flatMap fun x => (product (cs.map (·.orig))).map (x :: ·)

private theorem tick_spec (st : List (Col α)) (h : ∀ c ∈ st, c.orig ≠ []) :
    ∃ st' b, tick st = .ok (st', b) ∧ st'.map (·.orig) = st.map (·.orig) ∧
      (b = false → pend st = st'.map (·.val) :: pend st') ∧
      (b = true → pend st = [] ∧ product (st.map (·.orig)) = st'.map (·.val) :: pend st') := by
  induction st with
  | nil => exact ⟨[], true, rfl, rfl, by simp, by simp [pend, product]⟩
  | cons c cs ih =>
    obtain ⟨cs', b, h1, h2, h3, h4⟩ := ih (fun d hd => h d (by simp [hd]))
    cases b with
    | false =>
      refine ⟨c :: cs', false, by simp [tick, h1], by simp [h2], ?_, by simp⟩
      intro _
      simp [pend, h3 rfl, h2]
    | true =>
      obtain ⟨h5, h6⟩ := h4 rfl
      cases hr : c.rem with
      | cons x r =>
        refine ⟨{ c with rem := r, val := x } :: cs', false, by simp [tick, h1, hr], by simp [h2], ?_, by simp⟩
        intro _
        simp [pend, h5, hr, h2, h6]
      | nil =>
        cases ho : c.orig with
        | nil => exact absurd ho (h c (by simp))
        | cons x r =>
          refine ⟨{ c with rem := r, val := x } :: cs', true, by simp [tick, h1, hr, ho], by simp [h2], by simp, ?_⟩
          intro _
          refine ⟨by simp [pend, h5, hr], ?_⟩
          simp [pend, product, h2, h6, ho]

private theorem runs_pend (n : Nat) (st : List (Col α)) (hn : (pend st).length = n)
    (h : ∀ c ∈ st, c.orig ≠ []) : Runs st (pend st) .runtimeError := by
  induction n generalizing st with
  | zero =>
    obtain ⟨st', b, h1, h2, h3, h4⟩ := tick_spec st h
    cases b with
    | false => rw [h3 rfl] at hn; simp at hn
    | true => rw [(h4 rfl).1]; exact .stop h1
  | succ n ih =>
    obtain ⟨st', b, h1, h2, h3, h4⟩ := tick_spec st h
    cases b with
    | true => rw [(h4 rfl).1] at hn; simp at hn
    | false =>
      rw [h3 rfl]
      refine .yield h1 (ih st' ?_ ?_)
      · rw [h3 rfl] at hn; simpa using hn
      · intro c hc
        have : c.orig ∈ st'.map (·.orig) := List.mem_map_of_mem hc
        rw [h2] at this
        obtain ⟨d, hd, e⟩ := List.mem_map.1 this
        rw [← e]; exact h d hd

private theorem runs_unique {st : List (Col α)} {a b : List (List α)} {e f : PyErr}
    (h1 : Runs st a e) (h2 : Runs st b f) : a = b ∧ e = f := by
  induction h1 generalizing b with
  | fail h => cases h2 <;> simp_all
  | stop h => cases h2 <;> simp_all
  | yield h _ ih =>
    cases h2 with
    | fail h' => simp_all
    | stop h' => simp_all
    | yield h' hr =>
      rw [h] at h'; cases h'
      obtain ⟨rfl, rfl⟩ := ih hr
      exact ⟨rfl, rfl⟩

private theorem init_spec (vec : List (List α)) (hv : vec ≠ []) (h : ∀ l ∈ vec, l ≠ []) :
    ∃ st, initCols vec = .ok st ∧ st.map (·.orig) = vec ∧ pend st = product vec := by
  induction vec with
  | nil => exact absurd rfl hv
  | cons l ls ih =>
    cases l with
    | nil => exact absurd rfl (h [] (by simp))
    | cons x r =>
      cases ls with
      | nil => exact ⟨_, rfl, rfl, by simp [pend, product]⟩
      | cons m ms =>
        obtain ⟨st, h1, h2, h3⟩ := ih (by simp) (fun d hd => h d (by simp [hd]))
        refine ⟨{ orig := x :: r, rem := r, val := x } :: st, by simp [initCols, h1], by simp [h2], ?_⟩
        simp [pend, product, h2, h3]

/-- C25: for every non-empty list of non-empty lists the values yielded are exactly the
cartesian product in lexicographic order, the iteration comes to an end, and it ends with an
exception: `raise StopIteration` inside a generator is a `RuntimeError` since Python 3.7, so even
`list(vector_counter(...))` fails there.  (The name says `_partial`: the English property wants a
normal end.) -/
theorem C25_product_partial (vec : List (List α)) (hv : vec ≠ []) (h : ∀ l ∈ vec, l ≠ [])
    (ys : List (List α)) (e : PyErr) :
    Yields vec ys e ↔ ys = product vec ∧ e = .runtimeError := by
  obtain ⟨st, h1, h2, h3⟩ := init_spec vec hv h
  have hr : Runs st (product vec) .runtimeError := by
    rw [← h3]
    refine runs_pend _ st rfl ?_
    intro c hc
    apply h
    rw [← h2]
    exact List.mem_map_of_mem hc
  unfold Yields
  rw [h1]
  constructor
  · intro hy; exact runs_unique hy hr
  · rintro ⟨rfl, rfl⟩; exact hr

/-- Every combination is in the product, and nothing else: the specification used above is the
cartesian product. -/
theorem C25_product_mem (vec : List (List α)) (v : List α) :
    v ∈ product vec ↔ List.Forall₂ (fun x l => x ∈ l) v vec := by
  induction vec generalizing v with
  | nil => simp [product]
  | cons l ls ih =>
    simp only [product, List.mem_flatMap, List.mem_map]
    constructor
    · rintro ⟨x, hx, w, hw, rfl⟩
      exact .cons hx ((ih w).1 hw)
    · intro h
      cases h with
      | cons hx hw => exact ⟨_, hx, _, (ih _).2 hw, rfl⟩

/-- Each combination appears once when the lists have no repetitions, and the number of
combinations is the product of the lengths. -/
theorem C25_product_once (vec : List (List α)) :
    (product vec).length = (vec.map List.length).prod ∧
    ((∀ l ∈ vec, l.Nodup) → (product vec).Nodup) := by
  induction vec with
  | nil => simp [product]
  | cons l ls ih =>
    constructor
    · simp [product, List.length_flatMap, ih.1]
    · intro h
      have hl := h l (by simp)
      have ih := ih.2 (fun m hm => h m (by simp [hm]))
      simp only [product]
      rw [List.nodup_flatMap]
      refine ⟨?_, ?_⟩
      · intro x _
        exact ih.map (fun a b hab => by simpa using hab)
      · refine List.Pairwise.imp_of_mem ?_ hl
        intro a b _ _ hab
        simp only [Function.onFun, List.disjoint_left, List.mem_map, not_exists, not_and]
        rintro v ⟨w, _, rfl⟩ w' _ he
        simp at he
        exact hab he.1.symm

/-- The boundary cases fail before the first value: no lists at all, or an empty one. -/
theorem C25_empty_counterexample :
    (∀ ys e, Yields ([] : List (List Nat)) ys e ↔ ys = [] ∧ e = .indexError) ∧
    (∀ ys e, Yields [[], [1]] ys e ↔ ys = [] ∧ e = .runtimeError) := by
  constructor <;> intro ys e <;> simp [Yields, initCols]

example : product [[1, 2], [3], [4, 5]] = [[1, 3, 4], [1, 3, 5], [2, 3, 4], [2, 3, 5]] := by decide

end Verif.Overload
