import Verif.CodeSink.Spec

/-!
# Variable declarations  (pybindgen/typehandlers/base.py:60-85, 420-510)
-/
namespace Verif.DeclScope
open Verif

/-- The scan of `join_ctype_and_name`, base.py:77-83: `rev` is the not yet scanned part of the
type read backwards, `stars` the stars passed. -/
def joinScan (name : Str) : (rev : Str) → (stars : Str) → PyRes Str
  | [], _ => .error .valueError
  | c :: cs, stars =>
    if c ≠ '*' then
      if c = ' ' then .ok ((c :: cs).reverse ++ stars ++ name)
      else .ok ((c :: cs).reverse ++ ' ' :: stars ++ name)
    else joinScan name cs ('*' :: stars)

/-- `join_ctype_and_name`, base.py:60-85 (`ctype[-1]` on an empty string: `IndexError`). -/
def joinCtypeAndName (ctype name : Str) : PyRes Str :=
  match ctype.reverse with
  | [] => .error .indexError
  | '*' :: _ => joinScan name ctype.reverse []
  | _ :: _ => .ok (ctype ++ [' '] ++ name)

/-- A family of `DeclarationsScope`s sharing one `declared_variables` dict (base.py:452-456:
a child scope uses the parent's dict).  `counts` is that dict with absent keys read as 0
(base.py:472-475); `sinks` are the `_declarations` of each scope. -/
structure Family where
  counts : Str → Nat := fun _ => 0
  sinks : Nat → CodeSink.Mem := fun _ => {}

/-- Name choice, base.py:472-481 (same code at 496-505). -/
def Family.pick (f : Family) (name : Str) : Family × Str :=
  let num := f.counts name + 1
  ({ f with counts := fun n => if n = name then num else f.counts n },
   if num = 1 then name else name ++ natStr num)

/-- `DeclarationsScope.declare_variable` on scope `i`, base.py:462-488.  The counter is updated
even when `join_ctype_and_name` raises. -/
def Family.declare (f : Family) (i : Nat) (type name : Str) (init arr : Option Str) :
    Family × PyRes Str :=
  let (f1, varname) := f.pick name
  match joinCtypeAndName type varname with
  | .error e => (f1, .error e)
  | .ok decl =>
    let decl := match arr with | some a => decl ++ a | none => decl
    let decl := match init with | some x => decl ++ (" = ".toList ++ x) | none => decl
    ({ f1 with sinks := fun j => if j = i then (f1.sinks i).writeln (decl ++ [';']) else f1.sinks j },
     .ok varname)

/-- `DeclarationsScope.reserve_variable`, base.py:490-506. -/
def Family.reserve (f : Family) (name : Str) : Family × Str := f.pick name

/-- `DeclarationsScope.clear` of scope `i`, base.py:458-460; the shared dict is cleared for the
whole family. -/
def Family.clear (f : Family) (i : Nat) : Family :=
  { counts := fun _ => 0, sinks := fun j => if j = i then {} else f.sinks j }

/-- A request for a variable name. -/
inductive Req where
  | declare (scope : Nat) (type name : Str) (init arr : Option Str)
  | reserve (name : Str)
  deriving Repr, DecidableEq

/-- The base name asked for. -/
def Req.base : Req → Str
  | .declare _ _ n _ _ => n
  | .reserve n => n

def Family.step (f : Family) : Req → Family × PyRes Str
  | .declare i t n x a => f.declare i t n x a
  | .reserve n => let r := f.reserve n; (r.1, .ok r.2)

/-- Answers to a series of requests (exceptions are caught by the client and the series goes
on). -/
def Family.answers (f : Family) : List Req → List (PyRes Str)
  | [] => []
  | r :: rs => (f.step r).2 :: (f.step r).1.answers rs

/-- The state after a series of requests. -/
def Family.after (f : Family) : List Req → Family
  | [] => f
  | r :: rs => (f.step r).1.after rs

/-- The names handed out: the non-exceptional answers. -/
def names (as : List (PyRes Str)) : List Str :=
  as.filterMap (fun | .ok s => some s | .error _ => none)

end Verif.DeclScope
