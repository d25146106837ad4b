import Verif.Basic

/-!
# `vector_counter`  (pybindgen/overloading.py:30-48)
-/
namespace Verif.Overload
open Verif

variable {α : Type}

/-- One position of the counter: the list `vec[idx]`, what `iters[idx]` still has, `values[idx]`. -/
structure Col (α : Type) where
  orig : List α
  rem : List α
  val : α

/-- The body of the `while`, overloading.py:38-47: the `for` runs from the last position to the
first and stops at the first one whose iterator still has a value.  `.error` is the
`StopIteration` of line 43 on an empty list, which Python ≥ 3.7 turns into a `RuntimeError`;
`(_, true)` means that no position had a value left (the `else:` of line 46). -/
def tick : List (Col α) → PyRes (List (Col α) × Bool)
  | [] => .ok ([], true)
  | c :: cs =>
    match tick cs with
    | .error e => .error e
    | .ok (cs', false) => .ok (c :: cs', false)
    | .ok (cs', true) =>
      match c.rem with
      | x :: r => .ok ({ c with rem := r, val := x } :: cs', false)
      | [] =>
        match c.orig with
        | [] => .error .runtimeError
        | x :: r => .ok ({ c with rem := r, val := x } :: cs', true)

/-- The initial `iters` and `values`, overloading.py:35-36: all iterators but the last are
advanced once; the last value is read by index.  Errors: an empty list before the last gives
`StopIteration` inside the generator (`RuntimeError`), an empty `vec` or last list `IndexError`
(the earlier lists are read first; for an empty `vec` the index is `vec[-1]`). -/
def initCols : List (List α) → PyRes (List (Col α))
  | [] => .error .indexError
  | [l] =>
    match l with
    | [] => .error .indexError
    | x :: _ => .ok [{ orig := l, rem := l, val := x }]
  | l :: ls =>
    match l with
    | [] => .error .runtimeError
    | x :: r =>
      match initCols ls with
      | .error e => .error e
      | .ok cs => .ok ({ orig := l, rem := r, val := x } :: cs)

/-- The values yielded from a state on, and the exception that ends the iteration: the loop of
overloading.py:37-48 as a relation, so that no bound on the number of iterations is assumed. -/
inductive Runs : List (Col α) → List (List α) → PyErr → Prop
  | fail {st e} : tick st = .error e → Runs st [] e
  | stop {st st'} : tick st = .ok (st', true) → Runs st [] .runtimeError
  | yield {st st' ys e} : tick st = .ok (st', false) → Runs st' ys e →
      Runs st (st'.map (·.val) :: ys) e

/-- `vector_counter(vec)` driven to its end: yields `ys` and ends by raising `e`. -/
def Yields (vec : List (List α)) (ys : List (List α)) (e : PyErr) : Prop :=
  match initCols vec with
  | .error e' => ys = [] ∧ e = e'
  | .ok st => Runs st ys e

end Verif.Overload
