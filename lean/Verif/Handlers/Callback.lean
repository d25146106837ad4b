import Verif.Runtime.LifetimeProps

/-!
# Class arguments of virtual methods overridden in Python (C++ calls Python)

`convert_c_to_python` of the class parameter handlers: by value (cppclass.py:3013-3034), reference
(3167-3230) and pointer (3506-3676), together with the parts of a reverse wrapper that matter for
them: building the argument tuple, the call, the error exits, which lie in the `before_call` block
(base.py:634-653), the `after_call` code and the cleanups.

The handlers produce instructions (`I`); `run` executes them on the memory model of
`Verif.Lifetime` extended with the reference counts of the wrappers.

Simplifications.  Of what the Python method does, only the references it keeps matter, and whether
it fails (raises, or returns something that can not be converted).  Allocation does not fail.  Value
transformations and custom instance creation functions are left out; `new X(...)` is `copy`.
Type narrowing affects only the Python type and is left out.
-/
namespace Verif.Handlers
open Verif Verif.Lifetime

/-! ## Instructions -/

/-- Statements written by the handlers; `py` is the wrapper variable, `value` the C++ argument. -/
inductive I where
  | skip
  | seq (a b : I)
  /-- `py = PyObject_New(...)` (`write_allocate_pystruct`, cppclass.py:2646-2664) -/
  | alloc
  /-- `py->flags = PYBINDGEN_WRAPPER_FLAG_NONE;` -/
  | flagsNone
  /-- `py->obj = new X(*value);` (`write_create_instance`, cppclass.py:1094-1098) -/
  | copy
  /-- `py->obj = value;` -/
  | setObj
  /-- `py->obj = NULL;` -/
  | setNull
  /-- `write_register_new_wrapper(py, py->obj)`, wrapper_registry.py:103-104 -/
  | register
  /-- `write_lookup_wrapper(py, value)`, wrapper_registry.py:108-119 -/
  | lookup
  /-- `value->incref();` -/
  | increfObj
  /-- `py = value->m_pyself; py->obj = value; Py_INCREF(py);` -/
  | fromSelf
  /-- `if (py == NULL) { ... }` -/
  | ifNull (a : I)
  /-- `if (Py_REFCNT(py) == 1) ... else ...` -/
  | ifRefcnt1 (a b : I)
  /-- `if (typeid(*value).name() == typeid(Helper).name()) ... else ...` -/
  | ifHelper (a b : I)
  /-- `Py_DECREF(py);` -/
  | decref
  deriving DecidableEq, Repr

/-- How the wrapper is put into the argument tuple: `N` gives the reference away, `O` takes another
one. -/
inductive Fmt1 where
  | N | O
  deriving DecidableEq, Repr

/-- What a handler contributes to a reverse wrapper. -/
structure Code where
  before : I := .skip
  after : I := .skip
  cleanup : I := .skip
  build : List Fmt1 := []
  deriving DecidableEq, Repr

/-! ## The handlers -/

/-- Directions. -/
inductive Dir where
  | in_ | out | inout
  deriving DecidableEq, Repr

/-- `CppClassParameter.convert_c_to_python`, cppclass.py:3013-3034; `constructible`:
`get_construct_name` does not raise. -/
def valueCode (constructible : Bool) : PyRes Code :=
  if constructible then
    .ok { before := .seq .alloc (.seq .flagsNone (.seq .copy .register)), build := [.N] }
  else .error .codeGenerationError

/-- `CppClassRefParameter.convert_c_to_python`, cppclass.py:3167-3230. -/
def refCode (c : Cls) (constructible : Bool) (dir : Dir) : PyRes Code :=
  match dir with
  | .in_ =>
    if !c.hasCopy then .error .codeGenerationError
    else if constructible then
      .ok { before := .seq .alloc (.seq .flagsNone (.seq .copy .register)), build := [.N] }
    else .error .codeGenerationError
  | _ =>
    if c.hasCopy then
      if constructible then
        .ok { before := .seq .alloc (.seq .flagsNone .setObj), build := [.O], cleanup := .decref
              after := .ifRefcnt1 .setNull (.seq .copy .register) }
      else .error .codeGenerationError
    else
      .ok { before := .seq .alloc (.seq .flagsNone .setObj), build := [.O], cleanup := .decref
            after := .setNull }

/-- `write_create_new_wrapper` of the pointer handler, cppclass.py:3518-3598. -/
def createPtr (c : Cls) (constructible : Bool) (dir : Dir) (transfer : Bool) : PyRes Code :=
  let head := I.seq .alloc .flagsNone
  if transfer then .ok { before := .seq head .setObj }
  else if c.policy ≠ .refcount then
    match dir with
    | .in_ =>
      if !c.hasCopy then .error .codeGenerationError
      else if constructible then .ok { before := .seq head .copy }
      else .error .codeGenerationError
    | _ =>
      if c.hasCopy then
        if constructible then
          .ok { before := .seq head .setObj, build := [.O], cleanup := .decref
                after := .ifRefcnt1 .setNull .copy }
        else .error .codeGenerationError
      else .ok { before := .seq head .setObj, build := [.O], cleanup := .decref, after := .setNull }
  else .ok { before := .seq head (.seq .increfObj .setObj) }

/-- `CppClassPtrParameter.convert_c_to_python`, cppclass.py:3506-3676. -/
def ptrCode (c : Cls) (constructible : Bool) (dir : Dir) (transfer : Bool) : PyRes Code := do
  let k ← createPtr c constructible dir transfer
  let new := I.seq k.before .register
  let find := if c.registry then .seq .lookup (.ifNull new) else new
  pure { k with before := if c.helper then .ifHelper .fromSelf find else find
                build := k.build ++ [.N] }

/-! ## Execution -/

/-- The memory, the reference counts of the wrappers, the wrapper variable, and whether freed or
null memory was used. -/
structure M where
  w : World
  rc : Wid → Nat
  py : Option Wid := none
  fault : Bool := false

/-- What is fixed during one call: the class, the argument (`none`: a null pointer), the address of
the next new object, and `m_pyself` of the argument if it is an instance of the helper class. -/
structure Env where
  c : Cls
  value : Option Addr
  b : Addr
  same : Option Wid := none

def M.crash (m : M) : M := { m with fault := true }

/-- Use the wrapper in the variable. -/
def M.onPy (m : M) (f : Wid → M) : M :=
  match m.py with
  | none => m.crash
  | some p => if (m.w.ws p).live then f p else m.crash

/-- `Py_INCREF(p)`. -/
def M.increfPy (m : M) (p : Wid) : M := { m with rc := upd m.rc p (m.rc p + 1) }

/-- `Py_DECREF(p)`: the last reference frees the wrapper. -/
def M.decrefPy (c : Cls) (m : M) (p : Wid) : M :=
  if (m.w.ws p).live then
    if m.rc p ≤ 1 then { m with rc := upd m.rc p 0, w := dealloc c m.w p }
    else { m with rc := upd m.rc p (m.rc p - 1) }
  else m.crash

/-- `new X(*value)` into `py->obj`. -/
def M.copyInto (e : Env) (m : M) (p : Wid) : M :=
  match e.value with
  | none => m.crash
  | some _ => { m with w := Lifetime.setObj (Lifetime.alloc m.w e.b none) p (some e.b) }

def I.exec (e : Env) : I → M → M
  | .skip, m => m
  | .seq a b, m => b.exec e (a.exec e m)
  | .alloc, m => if m.fault then m else
      { m with w := newWrapper m.w none false, rc := upd m.rc m.w.next 1, py := some m.w.next }
  | .flagsNone, m => if m.fault then m else
      m.onPy (fun p => { m with w := { m.w with ws := upd m.w.ws p { m.w.ws p with notOwned := false } } })
  | .copy, m => if m.fault then m else m.onPy (fun p => m.copyInto e p)
  | .setObj, m => if m.fault then m else
      m.onPy (fun p => { m with w := Lifetime.setObj m.w p e.value })
  | .setNull, m => if m.fault then m else
      m.onPy (fun p => { m with w := Lifetime.setObj m.w p none })
  | .register, m => if m.fault then m else
      m.onPy (fun p => match (m.w.ws p).obj with
        | none => m
        | some a => { m with w := Lifetime.register e.c m.w a p })
  | .lookup, m => if m.fault then m else
      match e.value with
      | none => { m with py := none }
      | some a =>
        match Lifetime.lookup e.c m.w a with
        | none => { m with py := none }
        | some p => { m.increfPy p with py := some p }
  | .increfObj, m => if m.fault then m else
      match e.value with
      | none => m.crash
      | some a => { m with w := Lifetime.incref m.w a }
  | .fromSelf, m => if m.fault then m else
      match e.same with
      | none => m.crash
      | some p => { ({ m with w := Lifetime.setObj m.w p e.value } : M).increfPy p with py := some p }
  | .ifNull a, m => if m.fault then m else if m.py.isNone then a.exec e m else m
  | .ifRefcnt1 a b, m => if m.fault then m else
      m.onPy (fun p => if m.rc p = 1 then a.exec e m else b.exec e m)
  | .ifHelper a b, m => if m.fault then m else
      match e.value with
      | none => m.crash
      | some _ => if e.same.isSome then a.exec e m else b.exec e m
  | .decref, m => if m.fault then m else m.onPy (fun p => m.decrefPy e.c p)

/-- What the Python method does: the number of references to the argument it leaves behind, and
whether it fails. -/
structure Callee where
  keep : Nat
  fails : Bool

/-- Putting the wrapper into the argument tuple. -/
def pack : List Fmt1 → M → M
  | [], m => m
  | .N :: l, m => pack l m
  | .O :: l, m => pack l (if m.fault then m else m.onPy (fun p => m.increfPy p))

/-- Dropping the argument tuple. -/
def unpack (e : Env) : List Fmt1 → M → M
  | [], m => m
  | _ :: l, m => unpack e l (I.decref.exec e m)

/-- The references the method keeps. -/
def M.kept (m : M) (n : Nat) : M :=
  if m.fault then m else
  match m.py with
  | none => m
  | some p => { m with rc := upd m.rc p (m.rc p + n) }

/-- One call of the overridden method, as far as one class parameter is concerned. -/
def Code.run (k : Code) (e : Env) (x : Callee) (m : M) : M :=
  let m := k.before.exec e m
  let m := unpack e k.build ((pack k.build m).kept x.keep)
  k.cleanup.exec e (if x.fails then m else k.after.exec e m)

/-- Later the program drops the references it kept. -/
def drop (e : Env) : Nat → M → M
  | 0, m => m
  | n + 1, m => drop e n (I.decref.exec e m)

end Verif.Handlers
