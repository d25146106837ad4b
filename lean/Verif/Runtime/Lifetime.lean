import Verif.Basic

/-!
# Wrappers, C++ objects and the wrapper registry at run time

Model of what the generated code does with the memory of one wrapped class (and of the classes
sharing its wrapper registry): the `std::map` wrapper registry (wrapper_registry.py:103-129),
returning a C++ pointer or reference (`common_shared_object_return`, cppclass.py:2682-2891, and
`CppClassPtrReturnValue.convert_c_to_python`, 3762-3791), `__init__` (cppmethod.py:644-703),
`__copy__` (cppclass.py:2291-2322), passing an argument with `transfer_ownership`
(cppclass.py:3482-3503), `tp_clear` (2453-2467) and `tp_dealloc` (2549-2585) with the delete code
(2432-2451 and 182-235).

Simplifications.  Python reference counts are not modelled: a wrapper may die (`dealloc`) at any
moment at which it is alive and no helper object refers to it.  Pointer adjustments between base
and derived subobjects are ignored (single inheritance).  `get_pointer_to_void_name` is the
identity, as for every policy in cppclass.py.  For classes that are not reference counted, an
object has one "reference", its owner's.  `new` makes an object with one reference.
-/
namespace Verif.Lifetime

/-- Non-null C++ addresses. -/
scoped macro "Addr" : term => `(Nat)
/-- Identity of a Python wrapper. -/
scoped macro "Wid" : term => `(Nat)

/-- `memory_policy`: `None`, `FreeFunctionPolicy` or a `ReferenceCountingPolicy`. -/
inductive Policy where
  | none
  | free
  | refcount
  deriving DecidableEq, Repr

/-- The attributes of a `CppClass` that matter here. -/
structure Cls where
  policy : Policy
  /-- `is_singleton` -/
  singleton : Bool
  /-- `destructor_visibility == 'public'` -/
  dtorPublic : Bool
  /-- `has_copy_constructor` -/
  hasCopy : Bool
  /-- `helper_class is not None` -/
  helper : Bool
  /-- the wrapper registry is a `StdMapWrapperRegistry` (else `NullWrapperRegistry`) -/
  registry : Bool

/-- A Python wrapper instance. -/
structure Wrapper where
  /-- the memory of the wrapper has not been freed -/
  live : Bool
  /-- `self->obj`; `none` is `NULL` -/
  obj : Option Addr
  /-- `PYBINDGEN_WRAPPER_FLAG_OBJECT_NOT_OWNED` -/
  notOwned : Bool
  /-- history variable: `obj` was set by `__init__` -/
  viaInit : Bool
  deriving DecidableEq, Repr

/-- A live C++ object. -/
structure Obj where
  /-- its reference count (1 if the class is not reference counted) -/
  refs : Nat
  /-- history variable: how many of these references C++ code holds -/
  cpp : Nat
  /-- `m_pyself`, for instances of the Python helper class -/
  pyself : Option Wid
  deriving DecidableEq, Repr

/-- The state of the process. -/
structure World where
  ws : Wid → Wrapper
  next : Wid
  reg : Addr → Option Wid
  heap : Addr → Option Obj
  /-- a freed C++ object was freed, released or referenced again -/
  bad : Bool

/-- Function update. -/
def upd {β : Type} (f : Nat → β) (a : Nat) (b : β) : Nat → β := fun x => if x = a then b else f x

@[simp] theorem upd_same {β : Type} (f : Nat → β) (a : Nat) (b : β) : upd f a b a = b := by
  simp [upd]
theorem upd_ne {β : Type} (f : Nat → β) {a x : Nat} (b : β) (h : x ≠ a) : upd f a b x = f x := by
  simp [upd, h]
theorem upd_apply {β : Type} (f : Nat → β) (a x : Nat) (b : β) :
    upd f a b x = if x = a then b else f x := rfl

/-- The process after module initialisation. -/
def init : World :=
  { ws := fun _ => ⟨false, none, false, false⟩, next := 0, reg := fun _ => none,
    heap := fun _ => none, bad := false }

/-! ### The wrapper registry -/

/-- `write_register_new_wrapper` (wrapper_registry.py:103-104; the null registry writes nothing,
51-52). -/
def register (c : Cls) (s : World) (a : Addr) (w : Wid) : World :=
  if c.registry then { s with reg := upd s.reg a (some w) } else s

/-- `write_unregister_wrapper` (wrapper_registry.py:121-129): `find` and `erase`; nothing is
registered under `NULL` by legal code, so erasing it changes nothing. -/
def unregister (c : Cls) (s : World) (p : Option Addr) : World :=
  match p with
  | none => s
  | some a => if c.registry then { s with reg := upd s.reg a none } else s

/-- `write_lookup_wrapper` (wrapper_registry.py:108-119); with the null registry the code for the
lookup is left out (`NotSupportedError`, cppclass.py:2787-2788), which amounts to not finding. -/
def lookup (c : Cls) (s : World) (a : Addr) : Option Wid :=
  if c.registry then s.reg a else none

/-! ### C++ objects -/

/-- `delete p`, `free_function(p)` or `p->decref()`, with one reference given up. -/
def release (s : World) (a : Addr) : World :=
  match s.heap a with
  | none => { s with bad := true }
  | some o =>
    if o.refs ≤ 1 then { s with heap := upd s.heap a none }
    else { s with heap := upd s.heap a (some { o with refs := o.refs - 1 }) }

/-- `p->incref()`. -/
def incref (s : World) (a : Addr) : World :=
  match s.heap a with
  | none => { s with bad := true }
  | some o => { s with heap := upd s.heap a (some { o with refs := o.refs + 1 }) }

/-- `new X(...)` at a fresh address. -/
def alloc (s : World) (a : Addr) (pyself : Option Wid) : World :=
  { s with heap := upd s.heap a (some ⟨1, 0, pyself⟩) }

/-- Adjust the history variable: C++ code holds `d` more references. -/
def cppGains (s : World) (a : Addr) (d : Nat) : World :=
  match s.heap a with
  | none => s
  | some o => { s with heap := upd s.heap a (some { o with cpp := o.cpp + d }) }

/-- Adjust the history variable: C++ code gave one reference away. -/
def cppLoses (s : World) (a : Addr) : World :=
  match s.heap a with
  | none => s
  | some o => { s with heap := upd s.heap a (some { o with cpp := o.cpp - 1 }) }

/-! ### Wrappers -/

/-- `w->obj = p`. -/
def setObj (s : World) (w : Wid) (p : Option Addr) : World :=
  { s with ws := upd s.ws w { s.ws w with obj := p } }

/-- `_get_delete_code` (cppclass.py:2432-2451) and the policies' `get_delete_code` (182-189,
209-216, 228-235), on wrapper `w`. -/
def deleteCode (c : Cls) (s : World) (w : Wid) : World :=
  if c.singleton then s
  else match c.policy with
    | .none =>
      let s' := setObj s w none
      if c.dtorPublic then
        if (s.ws w).notOwned then s'
        else match (s.ws w).obj with
          | none => s'
          | some a => release s' a
      else s'
    | .free | .refcount =>
      match (s.ws w).obj with
      | none => s
      | some a => release (setObj s w none) a

/-- `tp_clear` (cppclass.py:2460-2467). -/
def clear (c : Cls) (s : World) (w : Wid) : World := deleteCode c s w

/-- `tp_dealloc` (cppclass.py:2549-2585). -/
def dealloc (c : Cls) (s : World) (w : Wid) : World :=
  let s := unregister c s (s.ws w).obj
  let s := deleteCode c s w
  { s with ws := upd s.ws w { s.ws w with live := false } }

/-- `PyObject_New` and the assignment of `obj` and `flags`. -/
def newWrapper (s : World) (p : Option Addr) (notOwned : Bool) : World :=
  { s with ws := upd s.ws s.next ⟨true, p, notOwned, false⟩, next := s.next + 1 }

/-- The annotations of a returned pointer or reference. -/
structure RetOpts where
  /-- `caller_owns_return` -/
  own : Bool
  /-- `reference_existing_object` (or `return_internal_reference`) -/
  refExisting : Bool
  /-- `caller_manages_return` -/
  manages : Bool
  /-- `free_after_copy` -/
  freeAfterCopy : Bool
  deriving DecidableEq

/-- The returned object is copied (cppclass.py:2730, 2738-2750). -/
def copies (c : Cls) (o : RetOpts) : Bool :=
  !o.own && c.policy != .refcount && !o.refExisting && o.manages

/-- The wrapper is flagged as not owning (cppclass.py:2731-2737, 2751-2757, 2769-2775). -/
def marksNotOwned (c : Cls) (o : RetOpts) : Bool :=
  !o.own && (if c.policy = .refcount then !o.manages else o.refExisting || !o.manages)

/-- Code generation succeeds: a copy needs a copy constructor (cppclass.py:2741-2742) and
`caller_owns_return` excludes `free_after_copy` (3749-3750). -/
def generates (c : Cls) (o : RetOpts) : Bool :=
  !(copies c o && !c.hasCopy) && !(o.own && o.freeAfterCopy)

/-- `write_create_new_wrapper` and the registration that follows it (cppclass.py:2693-2775,
2799-2804): the object is at `a`; a copy, if one is made, goes to `b`. -/
def createWrapper (c : Cls) (o : RetOpts) (s : World) (a b : Addr) : World :=
  let w := s.next
  if o.own then register c (newWrapper s (some a) false) a w
  else if c.policy ≠ .refcount then
    if o.refExisting then register c (newWrapper s (some a) true) a w
    else if o.manages then register c (newWrapper (alloc s b none) (some b) false) b w
    else register c (newWrapper s (some a) true) a w
  else
    if o.manages then register c (newWrapper (incref s a) (some a) false) a w
    else register c (newWrapper s (some a) true) a w

/-- A C++ function returns the object at `a` (cppclass.py:2779-2891 and 3780-3791).  `same` says
that the object is an instance of the helper class of the declared class (the `typeid` test of
2821); `pyself` is then its `m_pyself`.  The result is the wrapper Python gets. -/
def retObj (c : Cls) (o : RetOpts) (s : World) (a b : Addr) (same : Option Wid) : World × Wid :=
  let s := if o.own || o.freeAfterCopy then cppLoses s a else s
  let r : World × Wid :=
    match (if c.helper then same else none) with
    | some w =>
      let s := setObj s w (some a)
      (if o.own && c.policy = .refcount then release s a else s, w)
    | none =>
      match lookup c s a with
      | some w => (if o.own && c.policy = .refcount then release s a else s, w)
      | none => (createWrapper c o s a b, s.next)
  (if o.freeAfterCopy then release r.1 a else r.1, r.2)

/-- `__init__` (cppmethod.py:644-703): the new object is at `a`; `helper` when called for a Python
subclass, in which case the helper object points back to the wrapper. Nothing is registered. -/
def pyInit (s : World) (w : Wid) (a : Addr) (helper : Bool) : World :=
  let s := alloc s a (if helper then some w else none)
  { s with ws := upd s.ws w { s.ws w with obj := some a, notOwned := false, viaInit := true } }

/-- `__copy__` (cppclass.py:2291-2322). -/
def pyCopy (c : Cls) (s : World) (b : Addr) : World :=
  register c (newWrapper (alloc s b none) (some b) false) b s.next

/-- An argument passed with `transfer_ownership` (cppclass.py:3482-3503), the history variable
recording that C++ got a reference. -/
def transfer (c : Cls) (s : World) (w : Wid) : World :=
  match (s.ws w).obj with
  | none => s
  | some a =>
    if c.policy ≠ .refcount then
      let s' := setObj (unregister c s (some a)) w none
      if (s.ws w).notOwned then s' else cppGains s' a 1
    else cppGains (incref s a) a 1

/-- What can happen. -/
inductive Ev where
  /-- C++ code creates an object and holds it. -/
  | cppNew (a : Addr)
  /-- C++ code takes one more reference. -/
  | cppIncref (a : Addr)
  /-- C++ code deletes or unreferences an object it holds. -/
  | cppRelease (a : Addr)
  /-- A wrapped function returns the object at `a`. -/
  | ret (o : RetOpts) (a b : Addr) (same : Option Wid)
  /-- `tp_new`: a wrapper with null `obj`. -/
  | pyNew
  /-- `__init__` on wrapper `w`. -/
  | pyInit (w : Wid) (a : Addr) (helper : Bool)
  /-- `copy.copy(w)`. -/
  | pyCopy (w : Wid) (b : Addr)
  /-- `w` is passed to a function that takes ownership. -/
  | transfer (w : Wid)
  /-- The garbage collector clears `w`. -/
  | clear (w : Wid)
  /-- The last reference to `w` goes away. -/
  | dealloc (w : Wid)

/-- One event. -/
def step (c : Cls) (s : World) : Ev → World
  | .cppNew a => { s with heap := upd s.heap a (some ⟨1, 1, none⟩) }
  | .cppIncref a => cppGains (incref s a) a 1
  | .cppRelease a => release (cppLoses s a) a
  | .ret o a b same => (retObj c o s a b same).1
  | .pyNew => newWrapper s none false
  | .pyInit w a h => pyInit s w a h
  | .pyCopy _ b => pyCopy c s b
  | .transfer w => transfer c s w
  | .clear w => clear c s w
  | .dealloc w => dealloc c s w

/-- A history of events. -/
def run (c : Cls) : World → List Ev → World
  | s, [] => s
  | s, e :: es => run c (step c s e) es

/-! ### The environment's side of the contract

`Ok` says what C++ code and the Python interpreter may do: allocations are fresh, C++ gives away
or drops only references it holds, Python only uses live wrappers, an object returned is alive,
and the generated code exists. -/
def Ok (c : Cls) (s : World) : Ev → Prop
  | .cppNew a => s.heap a = none
  | .cppIncref a => c.policy = .refcount ∧ ∃ o, s.heap a = some o ∧ 0 < o.cpp
  | .cppRelease a => ∃ o, s.heap a = some o ∧ 0 < o.cpp
  | .ret o a b same => generates c o ∧ (∃ x, s.heap a = some x ∧ (same = x.pyself ∨ same = none) ∧
      (o.own ∨ o.freeAfterCopy → 0 < x.cpp)) ∧ s.heap b = none
  | .pyNew => True
  | .pyInit w a h => (s.ws w).live ∧ s.heap a = none ∧ (h → c.helper)
  | .pyCopy w b => (s.ws w).live ∧ c.hasCopy ∧ s.heap b = none ∧
      ∃ a, (s.ws w).obj = some a ∧ s.heap a ≠ none
  | .transfer w => (s.ws w).live ∧ ∃ a, (s.ws w).obj = some a ∧ s.heap a ≠ none
  | .clear w => (s.ws w).live
  | .dealloc w => (s.ws w).live ∧ ∀ a o, s.heap a = some o → o.pyself ≠ some w

/-- Every event of the history respects the contract in the state in which it happens. -/
def Legal (c : Cls) : World → List Ev → Prop
  | _, [] => True
  | s, e :: es => Ok c s e ∧ Legal c (step c s e) es

/-- The object at `a` is held by a live wrapper. -/
def Wrapped (s : World) (a : Addr) : Prop := ∃ w, (s.ws w).live ∧ (s.ws w).obj = some a

/-- Events whose memory accounting the generated code gets right; for each clause there is a
counterexample in `LifetimeProps`.

* ownership of an object that Python already has a wrapper for is not given to Python, except for
  reference counted classes;
* an instance of the helper class is only returned while its wrapper still points to it;
* wrappers that do not own their object are only made for classes without memory policy;
* `free_after_copy` is not used for reference counted classes;
* `__init__` is not called again on a wrapper that has an object. -/
def GoodMem (c : Cls) (s : World) : Ev → Prop
  | .ret o a _ same =>
      (o.own → c.policy ≠ .refcount → (c.helper = false ∨ same = none) ∧ lookup c s a = none) ∧
      (∀ w, same = some w → c.helper → (s.ws w).obj = some a) ∧
      (marksNotOwned c o → c.policy = .none) ∧
      (o.freeAfterCopy → c.policy ≠ .refcount)
  | .pyInit w _ _ => (s.ws w).obj = none
  | _ => True

/-- Events after which the wrapper registry still describes the live wrappers.

* no C++ object is destroyed while a live wrapper points to it;
* a returned object is not one that a live wrapper got from `__init__`, unless it is an instance of
  the helper class of the declared return type;
* `__init__` is not called again on a wrapper that has an object;
* the garbage collector clears only wrappers that got their object from `__init__`. -/
def GoodReg (c : Cls) (s : World) (e : Ev) : Prop :=
  (∀ a, Wrapped (step c s e) a → (step c s e).heap a ≠ none) ∧
  match e with
  | .ret _ a _ same =>
      (∀ w, (s.ws w).live → (s.ws w).obj = some a → (s.ws w).viaInit →
        c.helper ∧ same = some w) ∧
      (∀ w, c.helper → same = some w →
        (s.ws w).obj = some a ∨ (s.ws w).obj = none ∧ ¬ Wrapped s a)
  | .pyInit w _ _ => (s.ws w).obj = none
  | .clear w => (s.ws w).obj ≠ none → (s.ws w).viaInit
  | _ => True

/-- Every event of the history is legal and satisfies `G`. -/
def Handled (G : Cls → World → Ev → Prop) (c : Cls) : World → List Ev → Prop
  | _, [] => True
  | s, e :: es => Ok c s e ∧ G c s e ∧ Handled G c (step c s e) es

/-- A class whose instances are freed when their wrapper dies: not a singleton, and with a public
destructor if there is no memory policy. -/
def Freeable (c : Cls) : Prop := c.singleton = false ∧ (c.policy = .none → c.dtorPublic = true)

/-- The wrapper is alive, points to the object at `a` and owns it (or a reference to it). -/
def Wrapper.owns (x : Wrapper) (a : Addr) : Bool := x.live && x.obj == some a && !x.notOwned

/-- Wrapper `w` owns the object at `a`. -/
def Owns (s : World) (w : Wid) (a : Addr) : Bool := (s.ws w).owns a

/-- The number of owning wrappers of the object at `a`. -/
def owners (s : World) (a : Addr) : Nat := (List.range s.next).countP (fun w => Owns s w a)

end Verif.Lifetime
