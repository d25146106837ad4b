import Verif.Utils.Model
import Mathlib.Data.List.Dedup
import Mathlib.Logic.Function.Basic

/-!
# Overloaded wrappers  (pybindgen/overloading.py:50-293)
-/
namespace Verif.Overload
open Verif Verif.Utils

/-- `set(a) == set(b)` on lists of flag names. -/
def sameSet (a b : List Str) : Bool := a.all (fun x => b.contains x) && b.all (fun x => a.contains x)

/-- What an overload set needs to know of its wrappers. -/
structure Ops (W : Type) where
  /-- `wrapper.get_py_method_def_flags()` under `PARSE_TUPLE_AND_KEYWORDS`.  Simplification: the
  answer depends on the wrapper only (it is recomputed from the declarations each time,
  base.py:966-985). -/
  flags : W → PyRes (List Str)
  /-- outcome of `wrapper.generate(code_sink, name, ["PyObject **return_exception"])` -/
  gen : W → PyRes Unit
  /-- `NEEDS_OVERLOADING_INTERFACE` -/
  needsIface : W → Bool
  /-- `wrapper.docstring` -/
  docstring : W → Option Str
  /-- `settings.error_handler` -/
  handler : Handler W

variable {W : Type}

/-- The flags as seen by the loop, overloading.py:105-106. -/
def Ops.guarded (o : Ops W) (w : W) : PyRes (List Str) :=
  callWithErrorHandling o.handler defaultHandled w (o.flags w)

/-- Outcome of one pass over the wrappers. -/
inductive Scan (W : Type) where
  /-- no wrapper had to be removed -/
  | done
  /-- this wrapper has to be removed -/
  | remove (w : W)
  /-- an exception leaves the loop -/
  | raise (e : PyErr)

/-- The `for` loop of overloading.py:103-127, with `existing_flags` as first argument.  Removing a
wrapper is followed by `settings.error_handler.handle_error(...)` (lines 111, 126), an
`AttributeError` when there is no handler. -/
def scan (o : Ops W) : Option (List Str) → List W → Scan W
  | _, [] => .done
  | ex, w :: ws =>
    match o.guarded w with
    | .error e =>
      if e = .skipWrapper then (if o.handler.isSome then .remove w else .raise .attributeError)
      else .raise e
    | .ok f =>
      match ex with
      | none => scan o (some f) ws
      | some g =>
        if sameSet f g then scan o ex ws
        else (if o.handler.isSome then .remove w else .raise .attributeError)

variable [DecidableEq W]

theorem scan_remove_mem {o : Ops W} {ex : Option (List Str)} {ws : List W} {w : W}
    (h : scan o ex ws = .remove w) : w ∈ ws := by
  induction ws generalizing ex with
  | nil => cases h
  | cons x xs ih =>
    unfold scan at h
    split at h
    · split at h
      · split at h
        · cases h; simp
        · cases h
      · cases h
    · split at h
      · exact List.mem_cons_of_mem _ (ih h)
      · split at h
        · exact List.mem_cons_of_mem _ (ih h)
        · split at h
          · cases h; simp
          · cases h

/-- The `while modified` loop of overloading.py:99-127; `self.wrappers.remove(w)` is `List.erase`. -/
def normLoop (o : Ops W) (ws : List W) : PyRes (List W) :=
  match h : scan o none ws with
  | .done => .ok ws
  | .raise e => .error e
  | .remove w => normLoop o (ws.erase w)
termination_by ws.length
decreasing_by
  have hm := scan_remove_mem h
  have := List.length_erase_of_mem hm
  have hpos := List.length_pos_of_mem hm
  omega

/-- `_normalize_py_method_flags`, overloading.py:85-127: the wrappers kept. -/
def normalize (o : Ops W) (ws : List W) : PyRes (List W) :=
  if ws.length = 1 then .ok ws else normLoop o ws

/-! ## The dispatcher -/

/-- Statements of the generated dispatcher. -/
inductive Stmt where
  /-- `retval = D(self, args, kwargs, &exceptions[k]);` overloading.py:223 -/
  | call (k : Nat) (delegate : Str)
  /-- `if (!exceptions[k]) { Py_DECREF(exceptions[i]); ... return retval; }` overloading.py:226-232 -/
  | ifNone (k : Nat) (decrefs : List Nat)
  /-- `error_list = PyList_New(n);` overloading.py:238 -/
  | newList (n : Nat)
  /-- `PyList_SET_ITEM(error_list, i, PyObject_Str(exceptions[j]));` overloading.py:240-242 -/
  | setItem (i j : Nat)
  /-- `Py_DECREF(exceptions[i]);` overloading.py:243 -/
  | decref (i : Nat)
  /-- `PyErr_SetObject(PyExc_TypeError, error_list);` overloading.py:244 -/
  | setTypeError
  /-- `Py_DECREF(error_list);` overloading.py:245 -/
  | decrefList
  /-- `ERROR_RETURN`, overloading.py:246 -/
  | errorReturn
  deriving Repr, DecidableEq

/-- The loop of overloading.py:215-232, from number `k` on. -/
def emitCalls : Nat → List Str → List Stmt
  | _, [] => []
  | k, d :: ds => .call k d :: .ifNone k (List.range k) :: emitCalls (k + 1) ds

/-- overloading.py:239-243. -/
def emitErrors (n : Nat) : List Stmt :=
  (List.range n).flatMap fun i => [.setItem i i, .decref i]

/-- The body of the main wrapper, overloading.py:212-246. -/
def emitBody (ds : List Str) : List Stmt :=
  emitCalls 0 ds ++ .newList ds.length :: emitErrors ds.length ++
    [.setTypeError, .decrefList, .errorReturn]

/-- `wrapper_name` of a delegate, overloading.py:179. -/
def delegateName (base : Str) (number : Nat) : Str := base ++ "__".toList ++ natStr number

/-- The loop of overloading.py:167-193: delegates that generate, in order; the number counts the
ones that do not, too. -/
def genDelegates (o : Ops W) (base : Str) : Nat → List W → PyRes (List Str)
  | _, [] => .ok []
  | number, w :: ws =>
    match callWithErrorHandling o.handler defaultHandled w (o.gen w) with
    | .error .skipWrapper => genDelegates o base (number + 1) ws
    | .error e => .error e
    | .ok () =>
      match genDelegates o base (number + 1) ws with
      | .error e => .error e
      | .ok ds => .ok (delegateName base number :: ds)

/-- What `generate` writes. -/
inductive Out (W : Type) where
  /-- only this wrapper, with the plain interface (overloading.py:147-159) -/
  | single (w : W)
  /-- a main wrapper with these arguments over these delegates (overloading.py:160-248) -/
  | dispatcher (args : List Str) (delegates : List Str) (body : List Stmt)

/-- `wrapper_args`, overloading.py:203-207. -/
def wrapperArgs (pystruct : Str) (flags : List Str) : List Str :=
  [pystruct ++ " *self".toList] ++
  (if flags.contains "METH_VARARGS".toList then ["PyObject *args".toList] else []) ++
  (if flags.contains "METH_KEYWORDS".toList then ["PyObject *kwargs".toList] else [])

/-- The multiple wrappers case, overloading.py:160-248; `w` is the first of the wrappers `ws`. -/
def generateMany (o : Ops W) (base pystruct : Str) (w : W) (ws : List W) : PyRes (Out W) :=
  match o.flags w with
  | .error e => .error e
  | .ok flags =>
    match genDelegates o base 0 ws with
    | .error e => .error e
    | .ok [] => .error .skipWrapper
    | .ok ds => .ok (.dispatcher (wrapperArgs pystruct flags) ds (emitBody ds))

/-- `OverloadedWrapper.generate`, overloading.py:139-250; `base` is the `wrapper_base_name` of the
first wrapper. -/
def generate (o : Ops W) (base pystruct : Str) (wrappers : List W) : PyRes (Out W) :=
  match normalize o wrappers with
  | .error e => .error e
  | .ok [] => .error .skipWrapper
  | .ok [w] =>
    if o.needsIface w then generateMany o base pystruct w [w]
    else
      match callWithErrorHandling o.handler defaultHandled w (o.gen w) with
      | .error e => .error e
      | .ok () => .ok (.single w)
  | .ok (w :: ws) => generateMany o base pystruct w (w :: ws)

/-- The docstring of the table entry, overloading.py:277-285. -/
def tableDocstring (docs : List (Option Str)) : PyRes (Option Str) :=
  match (docs.filterMap id).dedup with
  | [] => .ok none
  | [d] => .ok (some d)
  | _ => .error .codeGenerationError

/-! ## Running the dispatcher -/

/-- What a delegate does with the arguments of a call: parses them and returns `r` (which may be
`NULL` with an exception set), or rejects them, storing a new reference to the parse error `e`. -/
inductive Reply (R E : Type) where
  | accept (r : R)
  | reject (e : E)
  deriving Repr, DecidableEq

/-- Events of a run. -/
inductive Ev (E : Type) where
  /-- the delegate was called -/
  | called (d : Str)
  /-- a reference to this exception was received -/
  | took (e : E)
  /-- it was given up -/
  | released (e : E)
  deriving Repr, DecidableEq

/-- Machine state: the local variables, and for each slot whether the dispatcher still owns the
reference in it. -/
structure St (R E : Type) where
  slot : Nat → Option E
  owned : Nat → Bool
  retval : Option R
  /-- `error_list` contents and reference count -/
  list : List (Option E)
  listRefs : Nat
  /-- the Python error indicator: TypeError with this list -/
  err : Option (List (Option E))
  trace : List (Ev E)

/-- How the wrapper function ends. -/
inductive End (R E : Type) where
  | returned (r : R)
  /-- `ERROR_RETURN` with TypeError set to the list of strings of these exceptions (an entry
  `none` is an item never filled); `listRefs` references to the list remain. -/
  | typeError (es : List (Option E)) (listRefs : Nat)
  deriving Repr, DecidableEq

variable {R E : Type}

/-- `Py_DECREF(exceptions[i])`; `none` (undefined behaviour) on a null or already released slot. -/
def St.decref (s : St R E) (i : Nat) : Option (St R E) :=
  match s.slot i with
  | some e =>
    if s.owned i then
      some { s with owned := Function.update s.owned i false, trace := s.trace ++ [.released e] }
    else none
  | none => none

def St.decrefs (s : St R E) : List Nat → Option (St R E)
  | [] => some s
  | i :: is => (s.decref i).bind (fun s => s.decrefs is)

/-- Execute the statements; `none` is undefined behaviour (a null or dangling reference used, an
index out of range, falling off the end). -/
def exec (oc : Str → Reply R E) : List Stmt → St R E → Option (End R E × List (Ev E))
  | [], _ => none
  | .call k d :: rest, s =>
    match oc d with
    | .accept r => exec oc rest { s with retval := some r, trace := s.trace ++ [.called d] }
    | .reject e =>
      exec oc rest { s with slot := Function.update s.slot k (some e),
                            owned := Function.update s.owned k true,
                            trace := s.trace ++ [.called d, .took e] }
  | .ifNone k is :: rest, s =>
    match s.slot k with
    | some _ => exec oc rest s
    | none =>
      (s.decrefs is).bind fun s => s.retval.map fun r => (.returned r, s.trace)
  | .newList n :: rest, s => exec oc rest { s with list := List.replicate n none, listRefs := 1 }
  | .setItem i j :: rest, s =>
    match s.slot j with
    | some e =>
      if s.owned j ∧ i < s.list.length ∧ 0 < s.listRefs then
        exec oc rest { s with list := s.list.set i (some e) }
      else none
    | none => none
  | .decref i :: rest, s => (s.decref i).bind (exec oc rest)
  | .setTypeError :: rest, s =>
    if 0 < s.listRefs then exec oc rest { s with err := some s.list, listRefs := s.listRefs + 1 }
    else none
  | .decrefList :: rest, s =>
    if 0 < s.listRefs then exec oc rest { s with listRefs := s.listRefs - 1 } else none
  | .errorReturn :: _, s => s.err.map fun es => (.typeError es s.listRefs, s.trace)

/-- Entry: `exceptions[] = {0,}` and nothing owned.  Simplification: `PyList_New` and
`PyObject_Str` do not fail. -/
def run (oc : Str → Reply R E) (body : List Stmt) : Option (End R E × List (Ev E)) :=
  exec oc body { slot := fun _ => none, owned := fun _ => false, retval := none, list := [],
                 listRefs := 0, err := none, trace := [] }

end Verif.Overload
