import Verif.Basic

/-!
# The garbage collector and the wrappers

`tp_traverse` and `tp_clear` of wrapped classes (cppclass.py:2453-2493, delete code 2432-2451 and 182-235), of the
iterators of containers and of classes with container traits (container.py:402-429, cppclass_container.py:174-201);
which objects the collector sees (`Py_TPFLAGS_HAVE_GC`: cppclass.py:2205-2206, container.py:381, 387; objects made
with `PyObject_GC_New` and never passed to `PyObject_GC_Track`: cppclass.py:2646-2662, container.py:482,
cppclass_container.py:241; objects made by `PyType_GenericAlloc`: pytypeobject.py:101-102); the reference from the
instance of a helper class to its wrapper (cppclass.py:403-418, cppmethod.py:661-671); ownership given to C++
(cppclass.py:3482-3503).

The collector itself is CPython's: from the reference count of every tracked object it subtracts the visits of the
tracked objects' `tp_traverse`; what then has a count left, and all that can be visited from there, is kept, the
rest is cleared.

Simplification: of the C++ objects only their class, the references C++ holds and `m_pyself` matter; all other
Python objects (dictionaries, lists, instances of Python classes, …) visit exactly what they refer to.
-/
namespace Verif.Collector

/-- Memory policies (cppclass.py:140-240); `peek`: a peekref method or function was given. -/
inductive Policy where
  | none
  | methods (peek : Bool)
  | functions (peek : Bool)
  | free
  | shared
  deriving DecidableEq, Repr

/-- A wrapped class: `allow_subclassing`, its helper class if it has one, memory policy, and whether instances are
destroyed at all. -/
structure GCls where
  gc : Bool
  helper : Option Nat
  policy : Policy
  singleton : Bool
  dtorPublic : Bool
  deriving DecidableEq, Repr

/-- A wrapper. -/
structure Inst where
  k : GCls
  tracked : Bool
  dict : Option Nat
  obj : Option Nat
  /-- not `PYBINDGEN_WRAPPER_FLAG_OBJECT_NOT_OWNED` -/
  own : Bool
  deriving DecidableEq, Repr

/-- Python objects. -/
inductive Node where
  | inst (i : Inst)
  /-- an iterator and the container it keeps -/
  | iter (tracked : Bool) (container : Option Nat)
  /-- any other object -/
  | other (refs : List Nat)
  deriving DecidableEq, Repr

/-- C++ objects: the helper class it is an instance of, if it is; `m_pyself`; how many references (or ownership)
C++ code holds. -/
structure CObj where
  dyn : Option Nat
  pyself : Option Nat
  held : Nat
  deriving DecidableEq, Repr

/-- A process: the Python objects, the C++ objects, and the references to Python objects from elsewhere (frames,
interpreter, C code). -/
structure State where
  ids : List Nat
  node : Nat → Node
  cids : List Nat
  cobj : Nat → CObj
  ext : Nat → Nat

/-- References a Python object holds. -/
def Node.refs : Node → List Nat
  | .inst i => i.dict.toList
  | .iter _ c => c.toList
  | .other rs => rs

/-- The collector looks at the object. -/
def Node.tracked : Node → Bool
  | .inst i => i.tracked
  | .iter t _ => t
  | .other _ => true

/-- The C++ object of a wrapper. -/
def Node.obj : Node → Option Nat
  | .inst i => i.obj
  | _ => none

/-- The reference count of a Python object. -/
def State.refcnt (s : State) (x : Nat) : Nat :=
  s.ext x + (s.ids.map (fun o => ((s.node o).refs).count x)).sum +
    (s.cids.map (fun c => if (s.cobj c).pyself = some x then 1 else 0)).sum

/-- The reference count of a C++ object: what C++ holds and the wrappers. -/
def State.count (s : State) (c : Nat) : Nat :=
  (s.cobj c).held + s.ids.countP (fun o => (s.node o).obj = some c)

/-- `peekref_code` is not empty (cppclass.py:2476-2479). -/
def Policy.peeks : Policy → Bool
  | .methods peek => peek
  | _ => false

/-- The condition for visiting `self` (cppclass.py:2473-2483). -/
def State.visitsSelf (s : State) (i : Inst) : Bool :=
  match i.k.helper, i.obj with
  | some h, some c => (s.cobj c).dyn = some h && (if i.k.policy.peeks then s.count c == 1 else true)
  | _, _ => false

/-- `tp_traverse` (cppclass.py:2485-2493, container.py:422-429, cppclass_container.py:194-201). -/
def State.traverse (s : State) (x : Nat) : List Nat :=
  match s.node x with
  | .inst i => i.dict.toList ++ (if s.visitsSelf i then [x] else [])
  | .iter _ c => c.toList
  | .other rs => rs

/-- The objects the collector works on. -/
def State.objects (s : State) : List Nat := s.ids.filter (fun o => (s.node o).tracked)

/-- How often `x` is visited. -/
def State.visits (s : State) (x : Nat) : Nat := (s.objects.map (fun o => (s.traverse o).count x)).sum

/-- The objects the collector keeps. -/
inductive Kept (s : State) : Nat → Prop where
  | root {x : Nat} : x ∈ s.objects → s.visits x < s.refcnt x → Kept s x
  | visit {x y : Nat} : Kept s y → x ∈ s.traverse y → x ∈ s.objects → Kept s x

/-- The objects it clears. -/
def Garbage (s : State) (x : Nat) : Prop := x ∈ s.objects ∧ ¬ Kept s x

/-! ## Clearing -/

/-- `tp_clear` gives up the C++ object: `delete`, decref, free function or the destructor of the smart pointer
(cppclass.py:2432-2451, 182-235). -/
def Inst.releases (i : Inst) : Bool :=
  if i.k.singleton then false
  else match i.k.policy with
    | .none => i.k.dtorPublic && i.own
    | _ => true

/-- Several can hold references to the C++ object. -/
def Policy.counted : Policy → Bool
  | .methods _ => true
  | .functions _ => true
  | .shared => true
  | _ => false

/-- Clearing the objects in `U` destroys the C++ object. -/
def State.destroyed (s : State) (U : Nat → Bool) (c : Nat) : Bool :=
  s.ids.any (fun x => U x && match s.node x with
    | .inst i => i.obj = some c && i.releases &&
        (if i.k.policy.counted then (s.cobj c).held = 0 && s.ids.all (fun y => (s.node y).obj ≠ some c || U y) else true)
    | _ => false)

/-- `tp_clear` (cppclass.py:2460-2467, container.py:409-416, cppclass_container.py:181-188): the wrapper of a
singleton keeps its object. -/
def Node.clear : Node → Node
  | .inst i => .inst { i with dict := none, obj := if i.k.singleton then i.obj else none }
  | .iter t _ => .iter t none
  | .other _ => .other []

/-- All objects in `U` are cleared; the destructors of helper classes drop `m_pyself` (cppclass.py:413-418). -/
def State.collect (s : State) (U : Nat → Bool) : State :=
  { s with node := fun x => if U x then (s.node x).clear else s.node x
           cids := s.cids.filter (fun c => !s.destroyed U c) }

/-! ## What else happens -/

/-- Replace one value of a function. -/
def upd {β : Type} (f : Nat → β) (a : Nat) (b : β) : Nat → β := fun x => if x = a then b else f x

/-- Events. -/
inductive Op where
  /-- a class is called from Python (tracked, made by `PyType_GenericAlloc`); `sub`: from a Python subclass, so the
  helper class is used if there is one (cppmethod.py:654-691) -/
  | construct (x c : Nat) (k : GCls) (sub : Bool)
  /-- C++ returns an object that is not an instance of a helper class: a new wrapper, `PyObject_GC_New` -/
  | wrap (x c : Nat) (k : GCls) (own : Bool)
  /-- `iter(container)` -/
  | iter (x container : Nat)
  /-- another Python object is made -/
  | other (x : Nat)
  /-- a Python object that is not a wrapper changes -/
  | change (x : Nat) (refs : List Nat)
  /-- the instance dictionary of a wrapper is made or replaced -/
  | dict (x : Nat) (d : Option Nat)
  /-- references from elsewhere come and go -/
  | ext (x n : Nat)
  /-- C++ takes or drops references -/
  | hold (c n : Nat)
  /-- the wrapper is passed with `transfer_ownership` -/
  | transfer (x : Nat)
  /-- an object without references is freed -/
  | free (x : Nat)
  /-- the collector runs -/
  | collect (U : Nat → Bool)

/-- The C++ object of the wrapper `x` when its memory policy is that of `k`, given to C++ (cppclass.py:3482-3503):
without reference counting the wrapper loses its pointer, with it C++ gets a reference. -/
def State.give (s : State) (x : Nat) (i : Inst) (c : Nat) : State :=
  let s1 := { s with cobj := upd s.cobj c { s.cobj c with held := (s.cobj c).held + 1 } }
  if i.k.policy.counted then s1 else { s1 with node := upd s.node x (.inst { i with obj := none }) }

/-- An object is freed: `tp_dealloc` clears it first (cppclass.py:2549-2585). -/
def State.free (s : State) (x : Nat) : State :=
  let s1 := s.collect (fun y => y == x)
  { s1 with ids := s1.ids.filter (fun y => y ≠ x) }

/-- C++ changes the number of its references; an object nobody has is destroyed. -/
def State.hold (s : State) (c n : Nat) : State :=
  { s with cobj := upd s.cobj c { s.cobj c with held := n }
           cids := if n = 0 ∧ s.ids.all (fun y => (s.node y).obj ≠ some c) then s.cids.filter (fun d => d ≠ c) else s.cids }

/-- One event. -/
def State.step (s : State) : Op → State
  | .construct x c k sub =>
    let h := if sub then k.helper else none
    { s with ids := x :: s.ids, node := upd s.node x (.inst ⟨k, k.gc, none, some c, true⟩)
             cids := c :: s.cids, cobj := upd s.cobj c ⟨h, if h.isSome then some x else none, 0⟩
             ext := upd s.ext x 1 }
  | .wrap x c k own =>
    { s with ids := x :: s.ids, node := upd s.node x (.inst ⟨k, false, none, some c, own⟩), ext := upd s.ext x 1 }
  | .iter x t => { s with ids := x :: s.ids, node := upd s.node x (.iter false (some t)), ext := upd s.ext x 1 }
  | .other x => { s with ids := x :: s.ids, node := upd s.node x (.other []), ext := upd s.ext x 1 }
  | .change x rs => { s with node := upd s.node x (.other rs) }
  | .dict x d =>
    match s.node x with
    | .inst i => { s with node := upd s.node x (.inst { i with dict := d }) }
    | _ => s
  | .ext x n => { s with ext := upd s.ext x n }
  | .hold c n => s.hold c n
  | .transfer x =>
    match s.node x with
    | .inst i => match i.obj with
      | some c => s.give x i c
      | none => s
    | _ => s
  | .free x => s.free x
  | .collect U => s.collect U

/-- A history. -/
def State.run (s : State) : List Op → State
  | [] => s
  | o :: os => (s.step o).run os

/-- The process before anything was made. -/
def State.empty : State := ⟨[], fun _ => .other [], [], fun _ => ⟨none, none, 0⟩, fun _ => 0⟩

end Verif.Collector
