import Verif.Wrapper.DescExec
import Verif.Runtime.LifetimeProps
import Verif.Slots.Assembly

/-!
# Iteration over wrapped classes (pybindgen/cppclass_container.py)

`cls.add_container_traits(...)` makes the instances of a wrapped class iterable.  This file models the
code generated for it, and a process in which wrappers live and die as in `Runtime/Lifetime.lean` (C45)
and are iterated.

Simplifications.  What the C++ class keeps is a list, read through `begin()`, `end()`, `++` and `*`; any
change of the C++ object invalidates its iterators (as `push_back` does for a vector).  C++ code called
here throws no exception.  The deallocation of a wrapper whose last reference an iterator gave up happens
in a later step.
-/
namespace Verif.ClassIter
open Verif Verif.Wrap Verif.Flow Verif.Params

/-- A `CppClassContainerTraits`, cppclass_container.py:68-90.  A type handler is given the C++ expression of
the element (`handler.value = ...`) and then converts it. -/
structure Traits where
  /-- `cppclass.full_name`, `cppclass.pystruct`, `cppclass.get_python_name()` -/
  full : Str
  pystruct : Str
  pyName : Str
  /-- `pytypestruct` of the outer class, for nested classes -/
  outer : Option Str := none
  beginM : Str := "begin".toList
  endM : Str := "end".toList
  iterType : Str := "iterator".toList
  value : Str → RDesc
  /-- `none` unless `is_mapping` -/
  key : Option (Str → RDesc) := none

/-- `get_iter_pystruct`, `get_iter_pytypestruct`, `get_iter_python_name`, 92-98 and 120-121. -/
def Traits.iterStruct (t : Traits) : Str := t.pystruct ++ "_Iter".toList
def Traits.iterTypeStruct (t : Traits) : Str := t.pystruct ++ "_IterType".toList
def Traits.iterName (t : Traits) : Str := t.pyName ++ "Iter".toList

/-! ## The generated functions -/

/-- The statements of the generated functions. -/
inductive Act where
  /-- `tp_iter`, 241-245 -/
  | alloc | incref | setContainer | setIterator | ret
  /-- `tp_dealloc` of the iterator, 213-215 and 165-166 -/
  | clearContainer | deleteIter | nullIter | free
  /-- `tp_iternext`, 37-41 -/
  | load | checkEnd | advance
  deriving DecidableEq, Repr

/-- Their texts. -/
def Act.text (t : Traits) : Act → Str
  | .alloc => t.iterStruct ++ " *iter = PyObject_GC_New(".toList ++ t.iterStruct ++ ", &".toList ++
      t.iterTypeStruct ++ ");".toList
  | .incref => "Py_INCREF(self);".toList
  | .setContainer => "iter->container = self;".toList
  | .setIterator => "iter->iterator = new ".toList ++ t.full ++ "::".toList ++ t.iterType ++ "(self->obj->".toList ++
      t.beginM ++ "());".toList
  | .ret => "return (PyObject*) iter;".toList
  | .clearContainer => "Py_CLEAR(self->container);".toList
  | .deleteIter => "delete self->iterator;".toList
  | .nullIter => "self->iterator = NULL;".toList
  | .free => "Py_TYPE(self)->tp_free((PyObject*)self);".toList
  | .load => "iter = *self->iterator;".toList
  | .checkEnd => "iter == self->container->obj->".toList ++ t.endM ++ "()".toList
  | .advance => "++(*self->iterator);".toList

/-- `tp_iter` of the class, 237-247. -/
def tpIter : List Act := [.alloc, .incref, .setContainer, .setIterator, .ret]

/-- `tp_dealloc` of the iterator, 209-217. -/
def tpDealloc : List Act := [.clearContainer, .deleteIter, .nullIter, .free]

/-- The generator of `tp_iternext`: `IterNextWrapper`, 18-49, with `v` the name of the variable. -/
def iternextCall (t : Traits) (v : Str) : Gen1 := fun w =>
  let w := w.op (.write 1 (v ++ " = *self->iterator;".toList))
  let w := w.op (.check 1 (v ++ " == self->container->obj->".toList ++ t.endM ++ "()".toList)
    (some "PyErr_SetNone(PyExc_StopIteration);".toList))
  let w := w.op (.write 1 "++(*self->iterator);".toList)
  match t.key with
  | none => (t.value ("(*".toList ++ v ++ ")".toList)).convert w
  | some k => do
    let w ← (t.value (v ++ "->second".toList)).convert w
    (k (v ++ "->first".toList)).convert w

/-- `IterNextWrapper.generate`, 51-64, as far as the body: `reset_code_generation_state` (31-34) declares
the variable before `generate_body`. -/
def iternext (t : Traits) : PyRes W := do
  let w ← initState true none {}
  let (w, v) ← w.declare (t.full ++ "::".toList ++ t.iterType) "iter".toList none none
  generateBody { haveRet := true, call := iternextCall t v } w

/-- What an operation on `before_call` stands for. -/
def actOf (t : Traits) : Op → Option Act
  | .write 1 s =>
    if s = Act.text t .load then some .load
    else if s = Act.text t .advance then some .advance else none
  | .check 1 c e =>
    if c = Act.text t .checkEnd ∧ e = some "PyErr_SetNone(PyExc_StopIteration);".toList then some .checkEnd else none
  | _ => none

/-! ## What is registered -/

/-- What `CppClassContainerTraits.generate` leaves behind. -/
structure Emitted where
  /-- the static functions defined, in order -/
  functions : List Str
  /-- what the init function of the module does -/
  init : List Str
  /-- the slots of the class and of the iterator type -/
  classSlots : Dict Str Str
  iterSlots : Dict Str Str
  /-- `tp_iternext` -/
  next : W

/-- Names of the generated functions. -/
def Traits.clearFn (t : Traits) : Str := t.iterStruct ++ "__tp_clear".toList
def Traits.traverseFn (t : Traits) : Str := t.iterStruct ++ "__tp_traverse".toList
def Traits.deallocFn (t : Traits) : Str := "_wrap_".toList ++ t.iterStruct ++ "__tp_dealloc".toList
def Traits.iterFn (t : Traits) : Str := "_wrap_".toList ++ t.pystruct ++ "__tp_iter".toList
def Traits.selfIterFn (t : Traits) : Str := "_wrap_".toList ++ t.iterStruct ++ "__tp_iter".toList
def Traits.nextFn (t : Traits) : Str := "_wrap_".toList ++ t.iterStruct ++ "__tp_iternext".toList

/-- `generate`, 133-162 (`docstring` is never given): for a nested class the name of the iterator is asked from
the class, which has no such method (147).  `module.path` joined is `modPath`; `slots` are those of the class so
far. -/
def generate (t : Traits) (modPath : List Str) (slots : Dict Str Str) : PyRes Emitted :=
  match t.outer with
  | some _ => .error .attributeError
  | none => do
    let w ← iternext t
    pure {
      functions := [t.clearFn, t.traverseFn, t.deallocFn, t.iterFn, t.selfIterFn, t.nextFn]
      init := ["PyType_Ready(&".toList ++ t.iterTypeStruct ++ ")".toList,
        "PyModule_AddObject(m, (char *) \"".toList ++ t.iterName ++ "\", (PyObject *) &".toList ++ t.iterTypeStruct ++ ");".toList]
      classSlots := Slots.setdefault slots "tp_iter".toList t.iterFn
      iterSlots := [("tp_name".toList, pyJoin ".".toList (modPath ++ [t.iterName])), ("typestruct".toList, t.iterTypeStruct),
        ("tp_flags".toList, "Py_TPFLAGS_DEFAULT|Py_TPFLAGS_HAVE_GC".toList),
        ("tp_basicsize".toList, "sizeof(".toList ++ t.iterStruct ++ ")".toList),
        ("tp_iternext".toList, t.nextFn), ("tp_iter".toList, t.selfIterFn), ("tp_dealloc".toList, t.deallocFn),
        ("tp_traverse".toList, t.traverseFn), ("tp_clear".toList, t.clearFn)]
      next := w }

/-! ## The process -/

/-- The meaning of handler code: as in C41, and what the handler itself returns from the function, if it does
so (the null check of pointers, cppclass.py:3770-3773). -/
structure Sem' (Val Py : Type) where
  sem : Sem Val Py
  early : List ROp → Val → Option Py

/-- An element: the key, for mappings, and the value. -/
structure Elem (Val : Type) where
  key : Val
  val : Val

/-- What `next` adds to the result, given the element: `bRun` order of `Py_BuildValue` items (the value is
converted first, 43-49). -/
def convert {Val Py : Type} (t : Traits) (S : Sem' Val Py) (e : Elem Val) : List (Option Py) :=
  let v := t.value (if t.key.isSome then "iter->second".toList else "(*iter)".toList)
  match S.early v.ops e.val with
  | some p => [some p]
  | none =>
    match t.key with
    | none => v.gives S.sem e.val
    | some k =>
      let k := k "iter->first".toList
      match S.early k.ops e.key with
      | some p => [some p]
      | none => if k.prepend then k.gives S.sem e.key ++ v.gives S.sem e.val
                else v.gives S.sem e.val ++ k.gives S.sem e.key

/-- An iterator object: `container` (a wrapper; `none`: `NULL`) and the C++ iterator: the object, its version
at that time, and the position. -/
structure It where
  live : Bool
  container : Option Nat
  iter : Option (Nat × Nat × Nat)
  deriving DecidableEq, Repr

structure World (Val : Type) where
  /-- wrappers and C++ objects -/
  base : Lifetime.World
  /-- the C++ objects: a version, changed whenever iterators become invalid, and the elements -/
  objs : Nat → Nat × List (Elem Val)
  its : Nat → It
  next : Nat
  /-- how many references to a wrapper the generated code has taken and not given back -/
  refs : Nat → Nat

open _root_.Verif.Lifetime (upd)

/-- Result of a step: `crash` is undefined behaviour. -/
inductive Res (α : Type) where
  | ok (a : α)
  | crash
  deriving DecidableEq, Repr

/-- One statement of `tp_iter(w)`, working on the iterator `i`. -/
def iterAct {Val : Type} (w i : Nat) (s : World Val) : Act → Res (World Val)
  | .alloc => .ok { s with its := upd s.its i ⟨true, none, none⟩, next := i + 1 }
  | .incref => .ok { s with refs := upd s.refs w (s.refs w + 1) }
  | .setContainer => .ok { s with its := upd s.its i { s.its i with container := some w } }
  | .setIterator =>
    match (s.base.ws w).obj with
    | none => .crash
    | some a =>
      match s.base.heap a with
      | none => .crash
      | some _ => .ok { s with its := upd s.its i { s.its i with iter := some (a, (s.objs a).1, 0) } }
  | .ret => .ok s
  | _ => .crash

/-- One statement of the iterator's `tp_dealloc`. -/
def deallocAct {Val : Type} (i : Nat) (s : World Val) : Act → Res (World Val)
  | .clearContainer =>
    match (s.its i).container with
    | none => .ok s
    | some w => .ok { s with
        its := upd s.its i { s.its i with container := none }
        refs := upd s.refs w (s.refs w - 1) }
  | .deleteIter => .ok s
  | .nullIter => .ok { s with its := upd s.its i { s.its i with iter := none } }
  | .free => .ok { s with its := upd s.its i { s.its i with live := false } }
  | _ => .crash

def runActs {Val : Type} (f : World Val → Act → Res (World Val)) : List Act → World Val → Res (World Val)
  | [], s => .ok s
  | a :: as, s =>
    match f s a with
    | .crash => .crash
    | .ok s => runActs f as s

/-- The state of `tp_iternext`: the world, the variable `iter`, and whether the function was left because the
end was reached. -/
structure Next (Val : Type) where
  s : World Val
  iter : Option (Nat × Nat × Nat) := none
  stop : Bool := false

/-- `iter == self->container->obj->end()`: comparing needs valid iterators of one container. -/
def atEnd {Val : Type} (s : World Val) (container : Option Nat) (it : Nat × Nat × Nat) : Res Bool :=
  match container with
  | none => .crash
  | some w =>
    match (s.base.ws w).obj with
    | none => .crash
    | some a =>
      match s.base.heap a with
      | none => .crash
      | some _ =>
        if a = it.1 ∧ (s.objs a).1 = it.2.1 then .ok (it.2.2 = (s.objs a).2.length) else .crash

/-- One statement of `tp_iternext`. -/
def nextAct {Val : Type} (i : Nat) (n : Next Val) : Option Act → Res (Next Val)
  | some .load =>
    match (n.s.its i).iter with
    | none => .crash
    | some it => .ok { n with iter := some it }
  | some .checkEnd =>
    match n.iter with
    | none => .crash
    | some it =>
      match atEnd n.s (n.s.its i).container it with
      | .crash => .crash
      | .ok b => .ok { n with stop := b }
  | some .advance =>
    match (n.s.its i).iter with
    | none => .crash
    | some it =>
      .ok { n with s := { n.s with its := upd n.s.its i { n.s.its i with iter := some (it.1, it.2.1, it.2.2 + 1) } } }
  | _ => .crash

def runNext {Val : Type} (i : Nat) : List (Option Act) → Next Val → Res (Next Val)
  | [], n => .ok n
  | a :: as, n =>
    match nextAct i n a with
    | .crash => .crash
    | .ok n => if n.stop then .ok n else runNext i as n

/-- What a step shows. -/
inductive Out (Py : Type) where
  | unit
  /-- a new iterator -/
  | iter (i : Nat)
  /-- the arguments of `Py_BuildValue` -/
  | value (xs : List (Option Py))
  /-- `StopIteration` -/
  | stop
  deriving DecidableEq, Repr

/-- What can happen. -/
inductive Ev (Val : Type) where
  /-- an event of `Runtime/Lifetime.lean`; `fill` gives the elements of objects it creates -/
  | life (e : Lifetime.Ev) (fill : Nat → List (Elem Val))
  /-- C++ code (for instance a method called from Python) changes the object at `a` -/
  | change (a : Nat) (l : List (Elem Val))
  /-- `iter(w)` -/
  | iter (w : Nat)
  /-- `FooIter()` -/
  | newIter
  /-- `next(i)` -/
  | next (i : Nat)
  /-- the last reference to an iterator goes away -/
  | drop (i : Nat)

/-- The objects after an event of the memory model: those created or destroyed are others than before. -/
def refill {Val : Type} (old new : Lifetime.World) (fill : Nat → List (Elem Val)) (o : Nat → Nat × List (Elem Val)) :
    Nat → Nat × List (Elem Val) := fun a =>
  if old.heap a ≠ none ∧ new.heap a ≠ none then o a else ((o a).1 + 1, fill a)

/-- The element the variable `iter` of `tp_iternext` refers to. -/
def elemAt {Val : Type} (s : World Val) : Option (Nat × Nat × Nat) → Option (Elem Val)
  | none => none
  | some it => (s.objs it.1).2[it.2.2]?

/-- The end of `tp_iternext`. -/
def nextOut {Val Py : Type} (t : Traits) (S : Sem' Val Py) : Res (Next Val) → Res (World Val × Out Py)
  | .crash => .crash
  | .ok n =>
    if n.stop then .ok (n.s, .stop)
    else match elemAt n.s n.iter with
      | none => .crash
      | some e => .ok (n.s, .value (convert t S e))

/-- One step; `code` is the generated `before_call` of `tp_iternext`. -/
def step {Val Py : Type} (c : Lifetime.Cls) (t : Traits) (S : Sem' Val Py) (code : List Op) (s : World Val) :
    Ev Val → Res (World Val × Out Py)
  | .life e fill => .ok ({ s with base := Lifetime.step c s.base e,
                                  objs := refill s.base (Lifetime.step c s.base e) fill s.objs }, .unit)
  | .change a l => .ok ({ s with objs := upd s.objs a ((s.objs a).1 + 1, l) }, .unit)
  | .iter w =>
    match runActs (iterAct w s.next) tpIter s with
    | .crash => .crash
    | .ok s' => .ok (s', .iter s.next)
  | .newIter => .ok ({ s with its := upd s.its s.next ⟨true, none, none⟩, next := s.next + 1 }, .iter s.next)
  | .next i => nextOut t S (runNext i (code.map (actOf t)) { s := s })
  | .drop i =>
    match runActs (deallocAct i) tpDealloc s with
    | .crash => .crash
    | .ok s' => .ok (s', .unit)

/-- What Python and C++ guarantee: objects in use exist, and a wrapper dies, or is cleared by the garbage
collector, only when nobody holds a counted reference to it.  (Iterators are not tracked by the collector, so
a wrapper they refer to is reachable for it.) -/
def Ok {Val : Type} (c : Lifetime.Cls) (s : World Val) : Ev Val → Prop
  | .life e _ => Lifetime.Ok c s.base e ∧ ∀ w, e = .dealloc w ∨ e = .clear w → s.refs w = 0
  | .change a _ => s.base.heap a ≠ none
  | .iter w => (s.base.ws w).live = true
  | .newIter => True
  | .next i | .drop i => (s.its i).live = true

/-- The process after module initialisation. -/
def World.init (Val : Type) : World Val :=
  { base := Lifetime.init, objs := fun _ => (0, []), its := fun _ => ⟨false, none, none⟩, next := 0, refs := fun _ => 0 }

/-- A history: what happened and what it showed, each event allowed by `Q` at its point. -/
inductive Run {Val Py : Type} (c : Lifetime.Cls) (t : Traits) (S : Sem' Val Py) (code : List Op)
    (Q : World Val → Ev Val → Prop) : World Val → List (Ev Val × Out Py) → World Val → Prop where
  | nil (s) : Run c t S code Q s [] s
  | cons {s s' s'' : World Val} {e : Ev Val} {o : Out Py} {h} : Ok c s e → Q s e → step c t S code s e = .ok (s', o) →
      Run c t S code Q s' h s'' → Run c t S code Q s ((e, o) :: h) s''

end Verif.ClassIter
