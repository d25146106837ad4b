import Verif.CodeBlock.Model

/-!
# What cleanup code is due, read off a history of calls (no block state involved)
-/
namespace Verif.CodeBlock
open Verif

/-- The calls on block `i` that follow the last `clear` of it. -/
def recent (i : Nat) (h : List Op) : List Op :=
  (h.reverse.takeWhile (· ≠ .clear i)).reverse

/-- The cleanup chunks added to block `i`, oldest first. -/
def added (i : Nat) (h : List Op) : List Str :=
  h.filterMap (fun | .add j code => if j = i then some code else none | _ => none)

/-- The chunks due for block `i`: those added since the last `clear`, minus the cancelled ones
(the `k`-th addition, counting from 1, is the one whose handle has position `k`), newest first. -/
def due (i : Nat) (h : List Op) : List Str :=
  (((added i (recent i h)).zipIdx 1).filterMap
    (fun p => if (recent i h).contains (.cancel i p.2) then none else some p.1)).reverse

/-- Due for block `i` and its predecessors `i-1, …, 0`, in this order. -/
def dueChain (h : List Op) : Nat → List Str
  | 0 => due 0 h
  | i + 1 => due (i + 1) h ++ dueChain h i

end Verif.CodeBlock
