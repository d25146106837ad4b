import Verif.Runtime.LifetimeProps

/-!
# Classes kept by shared pointers

Model of what the generated code does, at run time, with the objects of a class whose memory policy is
`BoostSharedPtr` or `StdSharedPtr` (typehandlers/smart_ptr.py:13-131): the wrapper keeps the smart pointer
itself, constructed in place by `write_allocate_pystruct` (cppclass.py:2646-2665, smart_ptr.py:38-39), and
destroyed by calling its destructor (smart_ptr.py:26-27) from `tp_clear` and `tp_dealloc` (cppclass.py:2432-2467,
2549-2585).

Simplifications.  As in `Verif.Lifetime`, Python reference counts are not modelled: a wrapper may die at any
moment at which it is alive.  A shared pointer is the address of its object, or nothing; aliasing and weak
pointers are left out, except that C++ code may have any object that is still alive returned.  `tp_new` gives a
zeroed wrapper, whose smart pointer counts as empty.  Pointer adjustments between base and derived classes
are ignored.  Classes with a helper class are left out: their code does not compile (see C94, C97).
-/
namespace Verif.Shared

open Verif.Lifetime (upd)

/-- The attributes of the `CppClass` that matter here. -/
structure Cls where
  /-- the wrapper registry is a `StdMapWrapperRegistry` -/
  registry : Bool
  /-- `is_singleton` -/
  singleton : Bool
  /-- `allow_subclassing`: there is a `tp_clear` that the garbage collector may call -/
  gc : Bool

/-- A Python wrapper. -/
structure Wrapper where
  live : Bool
  /-- the object of the smart pointer `self->obj`, if it is not empty -/
  obj : Option Nat
  /-- history variable: `obj` was set by `__init__` -/
  viaInit : Bool

/-- The state of the process. -/
structure World where
  ws : Nat → Wrapper
  next : Nat
  reg : Nat → Option Nat
  /-- the use count of the live objects -/
  heap : Nat → Option Nat
  /-- history variable: how many shared pointers C++ code has for the object -/
  cpp : Nat → Nat
  /-- a destroyed object was used or destroyed again -/
  bad : Bool

def init : World :=
  { ws := fun _ => ⟨false, none, false⟩, next := 0, reg := fun _ => none, heap := fun _ => none,
    cpp := fun _ => 0, bad := false }

/-! ### Shared pointers -/

/-- A shared pointer is copied. -/
def take (s : World) : Option Nat → World
  | none => s
  | some a => match s.heap a with
    | none => { s with bad := true }
    | some n => { s with heap := upd s.heap a (some (n + 1)) }

/-- A shared pointer is destroyed; the last one destroys the object. -/
def drop (s : World) : Option Nat → World
  | none => s
  | some a => match s.heap a with
    | none => { s with bad := true }
    | some n => { s with heap := upd s.heap a (if n ≤ 1 then none else some (n - 1)) }

/-- C++ code keeps a copy of a shared pointer. -/
def cppKeeps (s : World) : Option Nat → World
  | none => s
  | some a => { take s (some a) with cpp := upd s.cpp a (s.cpp a + 1) }

/-- C++ code drops a shared pointer that it has. -/
def cppDrops (s : World) (a : Nat) : World := { drop s (some a) with cpp := upd s.cpp a (s.cpp a - 1) }

/-- A new object at `a`, with one shared pointer (`new` and `reset`, smart_ptr.py:93-94, `make_shared`,
129-130). -/
def make (s : World) (a : Nat) : World := { s with heap := upd s.heap a (some 1) }

/-! ### Wrappers -/

/-- `self->obj = p`: the shared pointer is replaced by one that is already counted; the old one is dropped
afterwards. -/
def replace (s : World) (w : Nat) (p : Option Nat) (viaInit : Bool) : World :=
  drop { s with ws := upd s.ws w { s.ws w with obj := p, viaInit := viaInit } } (s.ws w).obj

/-- `write_allocate_pystruct` (cppclass.py:2658-2664): the smart pointer is constructed empty.  Also
`tp_new`. -/
def allocate (s : World) : World :=
  { s with ws := upd s.ws s.next ⟨true, none, false⟩, next := s.next + 1 }

/-- `write_register_new_wrapper` (wrapper_registry.py:103-104) with the key `obj.get()` (cppclass.py:2789-2791,
2799-2801). -/
def register (c : Cls) (s : World) (a w : Nat) : World :=
  if c.registry then { s with reg := upd s.reg a (some w) } else s

/-- `write_unregister_wrapper` (wrapper_registry.py:121-129) with the key `self->obj.get()`
(cppclass.py:2565-2566). -/
def unregister (c : Cls) (s : World) : Option Nat → World
  | none => s
  | some a => if c.registry then { s with reg := upd s.reg a none } else s

/-- `write_lookup_wrapper` (wrapper_registry.py:108-119). -/
def lookup (c : Cls) (s : World) (a : Nat) : Option Nat := if c.registry then s.reg a else none

/-- `_get_delete_code` (cppclass.py:2432-2437) and `get_delete_code` (smart_ptr.py:26-27): the destructor of
the smart pointer is called; the memory of the pointer keeps its contents. -/
def deleteCode (c : Cls) (s : World) (w : Nat) : World := if c.singleton then s else drop s (s.ws w).obj

/-- `tp_clear` (cppclass.py:2460-2467). -/
def clear (c : Cls) (s : World) (w : Nat) : World := deleteCode c s w

/-- `tp_dealloc` (cppclass.py:2549-2585). -/
def dealloc (c : Cls) (s : World) (w : Nat) : World :=
  let s := unregister c s (s.ws w).obj
  let s := deleteCode c s w
  { s with ws := upd s.ws w { s.ws w with live := false } }

/-- A new wrapper that shares the object of the shared pointer `p` (cppclass.py:2693-2728 with
`caller_owns_return`; smart_ptr.py:221-245). -/
def newWrapper (s : World) (p : Option Nat) : World := replace (take (allocate s) p) s.next p false

/-- A function returns a shared pointer (smart_ptr.py:326-350, cppclass.py:2779-2817).  The result is what
Python gets: `none` is `None`.  The local variable `retval` is a shared pointer of its own, destroyed when the
wrapper function returns. -/
def retShared (c : Cls) (s : World) : Option Nat → World × Option Nat
  | none => (s, none)
  | some a =>
    let s := take s (some a)
    let r : World × Nat :=
      match lookup c s a with
      | some w => (s, w)
      | none => (register c (newWrapper s (some a)) a s.next, s.next)
    (drop r.1 (some a), some r.2)

/-- `__init__` (cppmethod.py:654-657 with smart_ptr.py:93-94, 129-130): `self->obj` gets a new object at `a`.
Nothing is registered. -/
def pyInit (s : World) (w a : Nat) : World := replace (make s a) w (some a) true

/-- A function returns an object by value (cppclass.py:3004-3035): the new wrapper gets a new object.  With the
`std::map` registry the code does not compile (C94). -/
def retValue (s : World) (a : Nat) : World := replace (make (allocate s) a) s.next (some a) false

/-- A wrapper is passed for a shared pointer parameter (smart_ptr.py:168-205): the local variable is a copy;
the function may keep one (`keep`). -/
def pass (s : World) (w : Nat) (keep : Bool) : World :=
  let p := (s.ws w).obj
  let s := take s p
  drop (if keep then cppKeeps s p else s) p

/-- An override in Python is called with a shared pointer (smart_ptr.py:209-263, without registry: with the
`std::map` registry the code does not compile, since the key is the shared pointer itself).  A new wrapper is
made each time; the parameter of the C++ method is a shared pointer of its own, which may be empty. -/
def callback (s : World) (p : Option Nat) : World := drop (newWrapper (take s p) p) p

/-- An override in Python returns a wrapper as a shared pointer (smart_ptr.py:353-364): C++ gets a copy. -/
def callbackRet (s : World) (w : Nat) : World := cppKeeps s (s.ws w).obj

/-- What can happen. -/
inductive Ev where
  /-- C++ code creates an object and has a shared pointer for it. -/
  | cppNew (a : Nat)
  /-- C++ code copies a shared pointer, or gets one from a weak pointer. -/
  | cppShare (a : Nat)
  /-- C++ code drops a shared pointer. -/
  | cppDrop (a : Nat)
  /-- A function returns a shared pointer. -/
  | ret (p : Option Nat)
  /-- A function returns an object by value, the copy is at `a`. -/
  | retValue (a : Nat)
  | pyNew
  | pyInit (w a : Nat)
  /-- `w` is passed for a shared pointer parameter. -/
  | pass (w : Nat) (keep : Bool)
  /-- An override in Python is called with a shared pointer. -/
  | callback (p : Option Nat)
  /-- An override in Python returns `w`. -/
  | callbackRet (w : Nat)
  /-- The garbage collector clears `w`. -/
  | clear (w : Nat)
  /-- The last reference to `w` goes away. -/
  | dealloc (w : Nat)

def step (c : Cls) (s : World) : Ev → World
  | .cppNew a => { make s a with cpp := upd s.cpp a 1 }
  | .cppShare a => cppKeeps s (some a)
  | .cppDrop a => cppDrops s a
  | .ret p => (retShared c s p).1
  | .retValue a => retValue s a
  | .pyNew => allocate s
  | .pyInit w a => pyInit s w a
  | .pass w keep => pass s w keep
  | .callback p => callback s p
  | .callbackRet w => callbackRet s w
  | .clear w => clear c s w
  | .dealloc w => dealloc c s w

def run (c : Cls) : World → List Ev → World
  | s, [] => s
  | s, e :: es => run c (step c s e) es

/-- The object of a shared pointer is alive. -/
def Alive (s : World) (p : Option Nat) : Prop := ∀ a, p = some a → s.heap a ≠ none

/-- What C++ code and the interpreter may do: allocations are fresh, C++ drops only what it has, what it
returns or passes is alive, Python uses only live wrappers, and the generated code compiles. -/
def Ok (c : Cls) (s : World) : Ev → Prop
  | .cppNew a => s.heap a = none
  | .cppShare a => s.heap a ≠ none
  | .cppDrop a => 0 < s.cpp a
  | .ret p => Alive s p
  | .retValue a => c.registry = false ∧ s.heap a = none
  | .pyNew => True
  | .pyInit w a => (s.ws w).live = true ∧ s.heap a = none
  | .pass w _ => (s.ws w).live = true
  | .callback p => c.registry = false ∧ Alive s p
  | .callbackRet w => (s.ws w).live = true
  | .clear w => c.gc = true ∧ (s.ws w).live = true
  | .dealloc w => (s.ws w).live = true

def Legal (c : Cls) : World → List Ev → Prop
  | _, [] => True
  | s, e :: es => Ok c s e ∧ Legal c (step c s e) es

/-- The event is not the garbage collector clearing a wrapper that has an object. -/
def NoClear (s : World) : Ev → Prop
  | .clear w => (s.ws w).obj = none
  | _ => True

/-- `__init__` is not called on a wrapper that has an object. -/
def NoReinit (s : World) : Ev → Prop
  | .pyInit w _ => (s.ws w).obj = none
  | _ => True

/-- The object returned is not one that a live wrapper got from `__init__`. -/
def NotMade (s : World) : Ev → Prop
  | .ret (some a) => ∀ w, (s.ws w).live = true → (s.ws w).obj = some a → (s.ws w).viaInit = false
  | _ => True

/-- Every event is legal and satisfies `G`. -/
def Handled (G : World → Ev → Prop) (c : Cls) : World → List Ev → Prop
  | _, [] => True
  | s, e :: es => Ok c s e ∧ G s e ∧ Handled G c (step c s e) es

/-- The wrapper is alive and has a shared pointer for the object at `a`. -/
def Holds (s : World) (w a : Nat) : Bool := (s.ws w).live && (s.ws w).obj == some a

/-- How many wrappers hold the object at `a`. -/
def holders (s : World) (a : Nat) : Nat := (List.range s.next).countP (fun w => Holds s w a)

/-! ### The accounting -/

/-- The accounting of shared pointers; `x a` is the number of shared pointers for `a` that local variables
hold at the moment. -/
structure Bal (s : World) (x : Nat → Nat) : Prop where
  fine : s.bad = false
  count : ∀ a, (s.heap a).getD 0 = s.cpp a + holders s a + x a
  pos : ∀ a, s.heap a ≠ some 0
  fresh : ∀ w, s.next ≤ w → (s.ws w).live = false

abbrev none' : Nat → Nat := fun _ => 0

theorem Bal.init : Bal init none' :=
  ⟨rfl, fun _ => rfl, nofun, fun _ _ => rfl⟩

/-- One more local shared pointer. -/
def bump (x : Nat → Nat) : Option Nat → (Nat → Nat)
  | none => x
  | some a => upd x a (x a + 1)

theorem Bal.lt {s x} (h : Bal s x) {w : Nat} (hw : (s.ws w).live = true) : w < s.next := by
  rcases Nat.lt_or_ge w s.next with h' | h'
  · exact h'
  · rw [h.fresh w h'] at hw; cases hw

theorem take_some {s : World} {a n : Nat} (h : s.heap a = some n) :
    take s (some a) = { s with heap := upd s.heap a (some (n + 1)) } := by
  unfold take; simp only [h]

theorem drop_some {s : World} {a n : Nat} (h : s.heap a = some n) :
    drop s (some a) = { s with heap := upd s.heap a (if n ≤ 1 then none else some (n - 1)) } := by
  unfold drop; simp only [h]

theorem Bal.take {s x} (h : Bal s x) {p : Option Nat} (hp : Alive s p) :
    Bal (take s p) (bump x p) := by
  cases p with
  | none => exact h
  | some a =>
    match ha : s.heap a with
    | none => exact absurd ha (hp a rfl)
    | some n =>
      rw [take_some ha]
      refine ⟨h.fine, fun b => ?_, fun b => ?_, h.fresh⟩
      · have := h.count b
        by_cases hb : b = a
        · subst hb
          rw [ha] at this
          show (upd s.heap b (some (n+1)) b).getD 0 = s.cpp b + holders s b + upd x b (x b + 1) b
          rw [Lifetime.upd_same, Lifetime.upd_same]
          simp only [Option.getD_some] at this ⊢
          omega
        · show (upd s.heap a (some (n+1)) b).getD 0 = s.cpp b + holders s b + upd x a (x a + 1) b
          rw [Lifetime.upd_ne _ _ hb, Lifetime.upd_ne _ _ hb]
          exact this
      · show upd s.heap a (some (n+1)) b ≠ some 0
        by_cases hb : b = a
        · subst hb; rw [Lifetime.upd_same]; simp
        · rw [Lifetime.upd_ne _ _ hb]; exact h.pos b

theorem Bal.drop {s x} {p : Option Nat} (h : Bal s (bump x p)) : Bal (drop s p) x := by
  cases p with
  | none => exact h
  | some a =>
    have hc := h.count a
    simp only [bump, Lifetime.upd_same] at hc
    match ha : s.heap a with
    | none => rw [ha] at hc; simp at hc
    | some n =>
      rw [ha] at hc
      simp only [Option.getD_some] at hc
      rw [drop_some ha]
      refine ⟨h.fine, fun b => ?_, fun b => ?_, h.fresh⟩
      · have hb' := h.count b
        by_cases hb : b = a
        · subst hb
          show (upd s.heap b (if n ≤ 1 then none else some (n-1)) b).getD 0 = s.cpp b + holders s b + x b
          rw [Lifetime.upd_same]
          split
          · show 0 = _; omega
          · show n - 1 = _; omega
        · show (upd s.heap a (if n ≤ 1 then none else some (n-1)) b).getD 0 = s.cpp b + holders s b + x b
          rw [Lifetime.upd_ne _ _ hb]
          simp only [bump, Lifetime.upd_ne _ _ hb] at hb'
          exact hb'
      · show upd s.heap a (if n ≤ 1 then none else some (n-1)) b ≠ some 0
        by_cases hb : b = a
        · subst hb; rw [Lifetime.upd_same]
          split
          · simp
          · simp only [ne_eq, Option.some.injEq]; omega
        · rw [Lifetime.upd_ne _ _ hb]; exact h.pos b

theorem Bal.make {s x} (h : Bal s x) {a : Nat} (ha : s.heap a = none) : Bal (make s a) (bump x (some a)) := by
  refine ⟨h.fine, fun b => ?_, fun b => ?_, h.fresh⟩
  · have := h.count b
    show (upd s.heap a (some 1) b).getD 0 = s.cpp b + holders s b + upd x a (x a + 1) b
    by_cases hb : b = a
    · subst hb
      rw [ha] at this
      rw [Lifetime.upd_same, Lifetime.upd_same]
      simp only [Option.getD_none, Option.getD_some] at this ⊢
      omega
    · rw [Lifetime.upd_ne _ _ hb, Lifetime.upd_ne _ _ hb]; exact this
  · show upd s.heap a (some 1) b ≠ some 0
    by_cases hb : b = a
    · subst hb; rw [Lifetime.upd_same]; simp
    · rw [Lifetime.upd_ne _ _ hb]; exact h.pos b

/-- A local shared pointer is kept by C++ code. -/
theorem Bal.keep {s x} {a : Nat} (h : Bal s (bump x (some a))) :
    Bal { s with cpp := upd s.cpp a (s.cpp a + 1) } x := by
  refine ⟨h.fine, fun b => ?_, h.pos, h.fresh⟩
  have := h.count b
  show (s.heap b).getD 0 = upd s.cpp a (s.cpp a + 1) b + holders s b + x b
  by_cases hb : b = a
  · subst hb
    simp only [bump, Lifetime.upd_same] at this ⊢
    omega
  · simp only [bump, Lifetime.upd_ne _ _ hb] at this ⊢
    exact this

/-- A shared pointer of C++ code becomes a local one. -/
theorem Bal.unkeep {s x} {a : Nat} (h : Bal s x) (ha : 0 < s.cpp a) :
    Bal { s with cpp := upd s.cpp a (s.cpp a - 1) } (bump x (some a)) := by
  refine ⟨h.fine, fun b => ?_, h.pos, h.fresh⟩
  have := h.count b
  show (s.heap b).getD 0 = upd s.cpp a (s.cpp a - 1) b + holders s b + upd x a (x a + 1) b
  by_cases hb : b = a
  · subst hb
    simp only [Lifetime.upd_same]
    omega
  · simp only [Lifetime.upd_ne _ _ hb]
    exact this

theorem Bal.allocate {s x} (h : Bal s x) : Bal (allocate s) x := by
  refine ⟨h.fine, fun b => ?_, h.pos, fun w hw => ?_⟩
  · rw [show holders (Shared.allocate s) b = holders s b from ?_]
    · exact h.count b
    · show (List.range (s.next + 1)).countP _ = _
      rw [List.range_succ, List.countP_append, List.countP_singleton]
      have h1 : Holds (Shared.allocate s) s.next b = false := by
        simp [Holds, Shared.allocate, Lifetime.upd_same]
      rw [h1]
      simp only [Bool.false_eq_true, if_false, Nat.add_zero]
      apply Lifetime.countP_same
      intro y hy
      show ((upd s.ws s.next ⟨true, none, false⟩ y).live && _) = _
      simp only [Shared.allocate]
      rw [Lifetime.upd_ne _ _ (by omega)]
      rfl
  · show (upd s.ws s.next ⟨true, none, false⟩ w).live = false
    have : s.next + 1 ≤ w := hw
    rw [Lifetime.upd_ne _ _ (by omega)]
    exact h.fresh w (by omega)

/-- The pointer of a wrapper is exchanged for a local one. -/
theorem Bal.setObj {s x} {w : Nat} {p : Option Nat} (h : Bal s (bump x p)) (hw : (s.ws w).live = true) (v : Bool) :
    Bal { s with ws := upd s.ws w { s.ws w with obj := p, viaInit := v } } (bump x (s.ws w).obj) := by
  have hlt := h.lt hw
  refine ⟨h.fine, fun b => ?_, h.pos, fun y hy => ?_⟩
  · have hc := h.count b
    have key := Lifetime.countP_update s.next
      (fun y => Holds { s with ws := upd s.ws w { s.ws w with obj := p, viaInit := v } } y b) (fun y => Holds s y b) w hlt
      (fun y hy => by simp only [Holds]; rw [Lifetime.upd_ne _ _ hy])
    show (s.heap b).getD 0 = s.cpp b + holders _ b + bump x (s.ws w).obj b
    have e1 : Holds { s with ws := upd s.ws w { s.ws w with obj := p, viaInit := v } } w b = (p == some b) := by
      simp only [Holds, Lifetime.upd_same, hw, Bool.true_and]
    have e2 : Holds s w b = ((s.ws w).obj == some b) := by simp only [Holds, hw, Bool.true_and]
    rw [e1, e2] at key
    have bumpv : ∀ q : Option Nat, bump x q b = x b + (q == some b).toNat := by
      intro q
      cases q with
      | none => rfl
      | some a =>
        by_cases hb : b = a
        · subst hb; simp [bump, Lifetime.upd_same]
        · have : ¬ a = b := fun e => hb e.symm
          simp [bump, Lifetime.upd_ne _ _ hb, this]
    rw [bumpv] at hc ⊢
    unfold holders at hc ⊢
    show (s.heap b).getD 0 = s.cpp b + (List.range s.next).countP _ + _
    omega
  · show (upd s.ws w _ y).live = false
    have : y ≠ w := by have : s.next ≤ y := hy; omega
    rw [Lifetime.upd_ne _ _ this]
    exact h.fresh y hy

theorem Bal.replace {s x} {w : Nat} {p : Option Nat} (h : Bal s (bump x p)) (hw : (s.ws w).live = true) (v : Bool) :
    Bal (replace s w p v) x := (h.setObj hw v).drop

/-- The death of a wrapper whose pointer is then a local one. -/
theorem Bal.die {s x} {w : Nat} (h : Bal s x) (hw : (s.ws w).live = true) :
    Bal { s with ws := upd s.ws w { s.ws w with live := false } } (bump x (s.ws w).obj) := by
  have hlt := h.lt hw
  refine ⟨h.fine, fun b => ?_, h.pos, fun y hy => ?_⟩
  · have hc := h.count b
    have key := Lifetime.countP_update s.next
      (fun y => Holds { s with ws := upd s.ws w { s.ws w with live := false } } y b) (fun y => Holds s y b) w hlt
      (fun y hy => by simp only [Holds]; rw [Lifetime.upd_ne _ _ hy])
    have e1 : Holds { s with ws := upd s.ws w { s.ws w with live := false } } w b = false := by
      simp only [Holds, Lifetime.upd_same, Bool.false_and]
    have e2 : Holds s w b = ((s.ws w).obj == some b) := by simp only [Holds, hw, Bool.true_and]
    rw [e1, e2] at key
    have bumpv : ∀ q : Option Nat, bump x q b = x b + (q == some b).toNat := by
      intro q
      cases q with
      | none => rfl
      | some a =>
        by_cases hb : b = a
        · subst hb; simp [bump, Lifetime.upd_same]
        · have : ¬ a = b := fun e => hb e.symm
          simp [bump, Lifetime.upd_ne _ _ hb, this]
    rw [bumpv]
    have hh : holders { s with ws := upd s.ws w { s.ws w with live := false } } b = (List.range s.next).countP
      (fun y => Holds { s with ws := upd s.ws w { s.ws w with live := false } } y b) := rfl
    have hs : holders s b = (List.range s.next).countP (fun y => Holds s y b) := rfl
    rw [← hh, ← hs, Bool.toNat_false] at key
    show (s.heap b).getD 0 = s.cpp b + holders { s with ws := upd s.ws w { s.ws w with live := false } } b + _
    omega
  · show (upd s.ws w _ y).live = false
    have : y ≠ w := by have : s.next ≤ y := hy; omega
    rw [Lifetime.upd_ne _ _ this]
    exact h.fresh y hy

theorem Bal.regs {s x} (h : Bal s x) (r : Nat → Option Nat) : Bal { s with reg := r } x :=
  ⟨h.fine, h.count, h.pos, h.fresh⟩

theorem Bal.register {s x} (h : Bal s x) (c : Cls) (a w : Nat) : Bal (register c s a w) x := by
  unfold Shared.register; split
  · exact h.regs _
  · exact h

theorem Bal.unregister {s x} (h : Bal s x) (c : Cls) (p : Option Nat) : Bal (unregister c s p) x := by
  unfold Shared.unregister
  cases p with
  | none => exact h
  | some a => show Bal (if c.registry then _ else _) x; split; exacts [h.regs _, h]

theorem take_ws (s : World) (p : Option Nat) : (take s p).ws = s.ws := by
  cases p with
  | none => rfl
  | some a => simp only [take]; split <;> rfl

theorem take_next (s : World) (p : Option Nat) : (take s p).next = s.next := by
  cases p with
  | none => rfl
  | some a => simp only [take]; split <;> rfl

theorem take_reg (s : World) (p : Option Nat) : (take s p).reg = s.reg := by
  cases p with
  | none => rfl
  | some a => simp only [take]; split <;> rfl

theorem take_cpp (s : World) (p : Option Nat) : (take s p).cpp = s.cpp := by
  cases p with
  | none => rfl
  | some a => simp only [take]; split <;> rfl

theorem drop_ws (s : World) (p : Option Nat) : (drop s p).ws = s.ws := by
  cases p with
  | none => rfl
  | some a => simp only [drop]; split <;> rfl

theorem drop_next (s : World) (p : Option Nat) : (drop s p).next = s.next := by
  cases p with
  | none => rfl
  | some a => simp only [drop]; split <;> rfl

theorem drop_reg (s : World) (p : Option Nat) : (drop s p).reg = s.reg := by
  cases p with
  | none => rfl
  | some a => simp only [drop]; split <;> rfl

theorem drop_cpp (s : World) (p : Option Nat) : (drop s p).cpp = s.cpp := by
  cases p with
  | none => rfl
  | some a => simp only [drop]; split <;> rfl

/-- Copying a shared pointer does not end the life of any object. -/
theorem take_alive {s : World} {p q : Option Nat} (h : Alive s q) : Alive (take s p) q := by
  intro a ha hn
  cases p with
  | none => exact h a ha hn
  | some b =>
    simp only [take] at hn
    match hb : s.heap b with
    | none => rw [hb] at hn; exact h a ha hn
    | some n =>
      rw [hb] at hn
      by_cases e : a = b
      · subst e
        simp only [Lifetime.upd_same] at hn
        cases hn
      · simp only [Lifetime.upd_ne _ _ e] at hn
        exact h a ha hn

theorem Bal.newWrapper {s x} (h : Bal s x) {p : Option Nat} (hp : Alive s p) : Bal (newWrapper s p) x := by
  have h1 : Bal (Shared.take (Shared.allocate s) p) (bump x p) := h.allocate.take hp
  refine h1.replace ?_ false
  rw [take_ws]
  show (upd s.ws s.next _ s.next).live = true
  rw [Lifetime.upd_same]

theorem newWrapper_ws (s : World) (p : Option Nat) (v : Nat) :
    (newWrapper s p).ws v = if v = s.next then ⟨true, p, false⟩ else s.ws v := by
  unfold newWrapper replace
  rw [drop_ws]
  show upd _ s.next _ v = _
  rw [take_ws]
  show upd (upd s.ws s.next _) s.next _ v = _
  by_cases hv : v = s.next
  · subst hv; rw [Lifetime.upd_same, if_pos rfl]
    simp only [allocate, Lifetime.upd_same]
  · rw [Lifetime.upd_ne _ _ hv, Lifetime.upd_ne _ _ hv, if_neg hv]

theorem newWrapper_reg (s : World) (p : Option Nat) : (newWrapper s p).reg = s.reg := by
  unfold newWrapper replace
  rw [drop_reg]
  show (take (allocate s) p).reg = _
  rw [take_reg]; rfl

theorem newWrapper_next (s : World) (p : Option Nat) : (newWrapper s p).next = s.next + 1 := by
  unfold newWrapper replace
  rw [drop_next]
  show (take (allocate s) p).next = _
  rw [take_next]; rfl

theorem Bal.ret {c s x} (h : Bal s x) {p : Option Nat} (hp : Alive s p) : Bal (retShared c s p).1 x := by
  cases p with
  | none => exact h
  | some a =>
    have h1 : Bal (Shared.take s (some a)) (bump x (some a)) := h.take hp
    unfold retShared
    simp only
    cases hl : lookup c (Shared.take s (some a)) a with
    | some w => exact h1.drop
    | none =>
      exact ((h1.newWrapper (take_alive hp)).register c a _).drop

theorem Bal.cppKeeps {s x} (h : Bal s x) {p : Option Nat} (hp : Alive s p) : Bal (cppKeeps s p) x := by
  cases p with
  | none => exact h
  | some a =>
    have := (h.take hp).keep
    rw [take_cpp] at this
    exact this

theorem holds_alive {s x} (h : Bal s x) {w : Nat} (hw : (s.ws w).live = true) : Alive s (s.ws w).obj := by
  intro a ha hn
  have hc := h.count a
  have : 0 < holders s a :=
    List.countP_pos_iff.2 ⟨w, List.mem_range.2 (h.lt hw), by simp [Holds, hw, ha]⟩
  rw [hn] at hc
  simp only [Option.getD_none] at hc
  omega

theorem Bal.deleteDie {c : Cls} (hf : c.singleton = false) {s x} (h : Bal s x) {w : Nat}
    (hw : (s.ws w).live = true) : Bal (dealloc c s w) x := by
  unfold Shared.dealloc deleteCode
  simp only [hf, Bool.false_eq_true, if_false]
  have h1 : Bal (Shared.unregister c s (s.ws w).obj) x := h.unregister c _
  have hws : (Shared.unregister c s (s.ws w).obj).ws = s.ws := by
    unfold Shared.unregister; cases (s.ws w).obj with
    | none => rfl
    | some a => show (if c.registry then _ else _ : World).ws = _; split <;> rfl
  have hw1 : ((Shared.unregister c s (s.ws w).obj).ws w).live = true := by rw [hws]; exact hw
  generalize Shared.unregister c s (s.ws w).obj = t at h1 hw1
  have h2 := (h1.die hw1).drop
  have e : Shared.drop { t with ws := upd t.ws w { t.ws w with live := false } } (t.ws w).obj =
      { Shared.drop t (t.ws w).obj with
        ws := upd (Shared.drop t (t.ws w).obj).ws w { (Shared.drop t (t.ws w).obj).ws w with live := false } } := by
    rw [drop_ws]
    cases (t.ws w).obj with
    | none => rfl
    | some a => simp only [Shared.drop]; split <;> rfl
  rw [e] at h2
  exact h2

theorem Bal.step {c : Cls} (hf : c.singleton = false) {s : World} {e : Ev} (h : Bal s none') (hok : Ok c s e)
    (hg : NoClear s e) : Bal (step c s e) none' := by
  cases e with
  | cppNew a =>
    have t := Bal.keep (h.make hok)
    have e : (Shared.make s a).cpp a + 1 = 1 := by
      have := h.count a
      rw [show s.heap a = none from hok] at this
      simp only [Option.getD_none] at this
      show s.cpp a + 1 = 1
      omega
    rw [e] at t
    exact t
  | cppShare a => exact Bal.cppKeeps (p := some a) h (fun b hb => by cases hb; exact hok)
  | cppDrop a =>
    have := (h.unkeep hok).drop
    have e : Shared.drop { s with cpp := upd s.cpp a (s.cpp a - 1) } (some a) = cppDrops s a := by
      simp only [cppDrops, Shared.drop]; split <;> rfl
    rw [e] at this
    exact this
  | ret p => exact h.ret hok
  | retValue a =>
    refine ((h.allocate.make (a := a) hok.2).replace ?_ false)
    show (upd s.ws s.next _ s.next).live = true
    rw [Lifetime.upd_same]
  | pyNew => exact h.allocate
  | pyInit w a => exact (h.make hok.2).replace hok.1 true
  | pass w keep =>
    have ha := holds_alive h hok
    have h1 := h.take ha
    refine Bal.drop ?_
    cases keep with
    | false => exact h1
    | true => exact h1.cppKeeps (take_alive ha)
  | callback p =>
    exact ((h.take hok.2).newWrapper (take_alive hok.2)).drop
  | callbackRet w => exact h.cppKeeps (holds_alive h hok)
  | clear w =>
    have hg' : (s.ws w).obj = none := hg
    show Bal (if c.singleton then s else Shared.drop s (s.ws w).obj) _
    rw [hf, hg']
    exact h
  | dealloc w => exact h.deleteDie hf hok

theorem Bal.run {c : Cls} (hf : c.singleton = false) {es : List Ev} : ∀ {s : World}, Bal s none' →
    Handled NoClear c s es → Bal (run c s es) none' := by
  induction es with
  | nil => exact fun h _ => h
  | cons e es ih => exact fun h hh => ih (h.step hf hh.1 hh.2.1) hh.2.2

theorem run_append (c : Cls) (s : World) (es fs : List Ev) : run c s (es ++ fs) = run c (run c s es) fs := by
  induction es generalizing s with
  | nil => rfl
  | cons e es ih => exact ih _

/-! ### C110 -/

/-- Something holds the object at `a`: C++ code has a shared pointer for it, or a live wrapper does. -/
def Held (s : World) (a : Nat) : Prop := 0 < s.cpp a ∨ ∃ w, (s.ws w).live = true ∧ (s.ws w).obj = some a

/-- **C110, objects live exactly as long as something holds them.**  In every history in which the garbage
collector clears no wrapper that has an object, and after each of its events: an object is alive exactly when
C++ code or a live wrapper holds it, its use count is the number of those that do, and no destroyed object was
ever used or destroyed again.
Missing: classes with `allow_subclassing` whose wrappers are cleared by the garbage collector, and singletons;
for both the claim is false. -/
theorem C110_alive_while_held_partial (c : Cls) (hf : c.singleton = false) (es : List Ev)
    (h : Handled NoClear c init es) :
    let s := run c init es
    (∀ a, s.heap a ≠ none ↔ Held s a) ∧
    (∀ a n, s.heap a = some n → n = s.cpp a + holders s a) ∧ s.bad = false := by
  have b := Bal.run hf Bal.init h
  refine ⟨fun a => ⟨fun hne => ?_, fun hh => ?_⟩, fun a n hn => ?_, b.fine⟩
  · match hn : (run c init es).heap a with
    | none => exact absurd hn hne
    | some n =>
      have hc := b.count a
      have hp := b.pos a
      rw [hn] at hc hp
      simp only [Option.getD_some] at hc
      by_cases h0 : 0 < (run c init es).cpp a
      · exact .inl h0
      · have hn0 : n ≠ 0 := fun e => hp (by rw [e])
        have : 0 < holders (run c init es) a := by have e : none' a = 0 := rfl; omega
        obtain ⟨w, _, hw⟩ := List.countP_pos_iff.1 this
        simp only [Holds, Bool.and_eq_true, beq_iff_eq] at hw
        exact .inr ⟨w, hw.1, hw.2⟩
  · rcases hh with h0 | ⟨w, hl, ho⟩
    · intro hn
      have hc := b.count a
      rw [hn] at hc
      simp only [Option.getD_none] at hc
      omega
    · exact holds_alive b hl a ho
  · have hc := b.count a
    rw [hn] at hc
    simpa using hc

/-- A class without `allow_subclassing`: the garbage collector never clears its wrappers. -/
theorem Legal.noClear {c : Cls} (hg : c.gc = false) {es : List Ev} : ∀ {s : World}, Legal c s es →
    Handled NoClear c s es := by
  induction es with
  | nil => exact fun _ => trivial
  | cons e es ih =>
    intro s h
    refine ⟨h.1, ?_, ih h.2⟩
    cases e with
    | clear w => have := h.1.1; rw [hg] at this; cases this
    | _ => trivial

/-- **C110, for classes without `allow_subclassing`** there is no exception: this holds in every legal
history. -/
theorem C110_plain_classes (c : Cls) (hf : c.singleton = false) (hg : c.gc = false) (es : List Ev)
    (h : Legal c init es) :
    let s := run c init es
    (∀ a, s.heap a ≠ none ↔ Held s a) ∧
    (∀ a n, s.heap a = some n → n = s.cpp a + holders s a) ∧ s.bad = false :=
  C110_alive_while_held_partial c hf es (Legal.noClear hg h)

/-! ### The registry -/

/-- The registry describes the live wrappers. -/
def RegOk (c : Cls) (s : World) : Prop :=
  ∀ a w, lookup c s a = some w → (s.ws w).live = true ∧ (s.ws w).obj = some a

theorem RegOk.init (c : Cls) : RegOk c init := by
  intro a w h
  unfold lookup at h
  split at h <;> cases h

theorem RegOk.same {c : Cls} {s t : World} (h : RegOk c s) (hr : t.reg = s.reg)
    (hw : ∀ w, (s.ws w).live = true → (s.ws w).obj ≠ none → t.ws w = s.ws w) : RegOk c t := by
  intro a w hl
  have hl' : lookup c s a = some w := by unfold lookup at hl ⊢; rw [hr] at hl; exact hl
  have := h a w hl'
  rw [hw w this.1 (by rw [this.2]; simp)]
  exact this

theorem newWrapper_old {s : World} (hfresh : (s.ws s.next).live = false) (p : Option Nat) :
    ∀ w, (s.ws w).live = true → (s.ws w).obj ≠ none → (newWrapper s p).ws w = s.ws w := by
  intro w hl _
  rw [newWrapper_ws, if_neg]
  intro e
  rw [e, hfresh] at hl
  cases hl

theorem cppKeeps_ws (s : World) (p : Option Nat) : (cppKeeps s p).ws = s.ws := by
  cases p with
  | none => rfl
  | some a => exact take_ws s (some a)

theorem cppKeeps_reg (s : World) (p : Option Nat) : (cppKeeps s p).reg = s.reg := by
  cases p with
  | none => rfl
  | some a => exact take_reg s (some a)

theorem unregister_ws (c : Cls) (s : World) (p : Option Nat) : (unregister c s p).ws = s.ws := by
  cases p with
  | none => rfl
  | some a => simp only [unregister]; split <;> rfl

theorem unregister_reg {c : Cls} (hr : c.registry = true) (s : World) (p : Option Nat) (a : Nat) :
    (unregister c s p).reg a = if p = some a then none else s.reg a := by
  cases p with
  | none => rfl
  | some b =>
    simp only [unregister, hr, if_true, Option.some.injEq]
    by_cases e : b = a
    · subst e; rw [Lifetime.upd_same, if_pos rfl]
    · rw [Lifetime.upd_ne _ _ (fun h => e h.symm), if_neg e]

theorem dealloc_ws (c : Cls) (s : World) (w v : Nat) :
    (dealloc c s w).ws v = if v = w then { s.ws w with live := false } else s.ws v := by
  have e : (deleteCode c (unregister c s (s.ws w).obj) w).ws = s.ws := by
    unfold deleteCode
    split
    · exact unregister_ws ..
    · rw [drop_ws]; exact unregister_ws ..
  unfold dealloc
  simp only [e]
  by_cases h : v = w
  · subst h; rw [Lifetime.upd_same, if_pos rfl]
  · rw [Lifetime.upd_ne _ _ h, if_neg h]

theorem dealloc_reg (c : Cls) (s : World) (w : Nat) :
    (dealloc c s w).reg = (unregister c s (s.ws w).obj).reg := by
  unfold dealloc deleteCode
  simp only
  split
  · rfl
  · rw [drop_reg]

theorem replace_ws (s : World) (w : Nat) (p : Option Nat) (b : Bool) (v : Nat) :
    (replace s w p b).ws v = if v = w then { s.ws w with obj := p, viaInit := b } else s.ws v := by
  unfold replace
  rw [drop_ws]
  show upd s.ws w _ v = _
  by_cases h : v = w
  · subst h; rw [Lifetime.upd_same, if_pos rfl]
  · rw [Lifetime.upd_ne _ _ h, if_neg h]

theorem replace_reg (s : World) (w : Nat) (p : Option Nat) (b : Bool) : (replace s w p b).reg = s.reg := by
  unfold replace
  rw [drop_reg]

/-- What a returned shared pointer does, in terms of wrappers and registry. -/
theorem retShared_spec (c : Cls) (s : World) (a : Nat) :
    (∃ w, lookup c s a = some w ∧ (retShared c s (some a)).2 = some w ∧
      (retShared c s (some a)).1.ws = s.ws ∧ (retShared c s (some a)).1.reg = s.reg) ∨
    (lookup c s a = none ∧ (retShared c s (some a)).2 = some s.next ∧
      (∀ v, (retShared c s (some a)).1.ws v = if v = s.next then ⟨true, some a, false⟩ else s.ws v) ∧
      (retShared c s (some a)).1.reg = if c.registry then upd s.reg a (some s.next) else s.reg) := by
  have hl : lookup c (take s (some a)) a = lookup c s a := by unfold lookup; rw [take_reg]
  unfold retShared
  simp only [hl]
  cases h : lookup c s a with
  | some w => exact .inl ⟨w, rfl, rfl, by rw [drop_ws, take_ws], by rw [drop_reg, take_reg]⟩
  | none =>
    refine .inr ⟨rfl, by rw [take_next], fun v => ?_, ?_⟩
    · rw [drop_ws]
      have : (register c (newWrapper (take s (some a)) (some a)) a (take s (some a)).next).ws =
          (newWrapper (take s (some a)) (some a)).ws := by unfold register; split <;> rfl
      rw [this, newWrapper_ws, take_next, take_ws]
    · rw [drop_reg]
      show (register c (newWrapper (take s (some a)) (some a)) a (take s (some a)).next).reg = _
      unfold register
      split
      · show upd (newWrapper (take s (some a)) (some a)).reg a _ = _
        rw [newWrapper_reg, take_reg, take_next]
      · rw [newWrapper_reg, take_reg]

/-- Both conditions: no clearing and no second `__init__`. -/
def Tidy (s : World) (e : Ev) : Prop := NoClear s e ∧ NoReinit s e

theorem regOk_step {c : Cls} {s : World} (hb : ∀ w, s.next ≤ w → (s.ws w).live = false) {e : Ev} (h : RegOk c s)
    (hg : Tidy s e) : RegOk c (step c s e) := by
  have hfresh := hb s.next (Nat.le_refl _)
  cases e with
  | cppNew a => exact h.same rfl (fun _ _ _ => rfl)
  | cppShare a => exact h.same (cppKeeps_reg ..) (fun w _ _ => congrFun (cppKeeps_ws s (some a)) w)
  | cppDrop a => exact h.same (drop_reg ..) (fun w _ _ => congrFun (drop_ws s (some a)) w)
  | ret p =>
    cases p with
    | none => exact h
    | some a =>
      show RegOk c (retShared c s (some a)).1
      rcases retShared_spec c s a with ⟨w, _, _, hws, hreg⟩ | ⟨hn, _, hws, hreg⟩
      · exact h.same hreg (fun v _ _ => by rw [hws])
      · intro b v hl
        unfold lookup at hl
        by_cases hr : c.registry = true
        · rw [if_pos hr, hreg, if_pos hr] at hl
          by_cases hba : b = a
          · subst hba
            rw [Lifetime.upd_same] at hl
            cases hl
            rw [hws, if_pos rfl]
            exact ⟨rfl, rfl⟩
          · rw [Lifetime.upd_ne _ _ hba] at hl
            have := h b v (by unfold lookup; rw [if_pos hr]; exact hl)
            rw [hws, if_neg]
            · exact this
            · intro e; rw [e, hfresh] at this; cases this.1
        · rw [if_neg hr] at hl; cases hl
  | retValue a =>
    refine h.same (replace_reg ..) (fun w hl _ => ?_)
    have hne : w ≠ s.next := fun e => by rw [e, hfresh] at hl; cases hl
    show (replace (make (allocate s) a) s.next (some a) false).ws w = _
    rw [replace_ws, if_neg hne]
    exact Lifetime.upd_ne _ _ hne
  | pyNew =>
    refine h.same rfl (fun w hl _ => ?_)
    exact Lifetime.upd_ne _ _ (fun e => by rw [e, hfresh] at hl; cases hl)
  | pyInit w a =>
    refine h.same (replace_reg ..) (fun v _ ho => ?_)
    show (replace (make s a) w (some a) true).ws v = _
    rw [replace_ws, if_neg]
    · rfl
    · intro e; rw [e] at ho; exact ho hg.2
  | pass w keep =>
    refine h.same ?_ (fun v _ _ => ?_)
    · show (drop _ _).reg = _
      rw [drop_reg]
      cases keep
      · exact take_reg ..
      · exact (cppKeeps_reg _ _).trans (take_reg _ _)
    · show (drop _ _).ws v = _
      rw [drop_ws]
      cases keep
      · exact congrFun (take_ws _ _) v
      · exact congrFun ((cppKeeps_ws _ _).trans (take_ws _ _)) v
  | callback p =>
    refine h.same ?_ (fun v hl ho => ?_)
    · show (drop _ _).reg = _
      rw [drop_reg, newWrapper_reg, take_reg]
    · show (drop _ _).ws v = _
      rw [drop_ws, newWrapper_old]
      · rw [take_ws]
      · rw [take_ws, take_next]; exact hfresh
      · rw [take_ws]; exact hl
      · rw [take_ws]; exact ho
  | callbackRet w => exact h.same (cppKeeps_reg ..) (fun v _ _ => congrFun (cppKeeps_ws _ _) v)
  | clear w =>
    have e : step c s (.clear w) = s := by
      show (if c.singleton then s else drop s (s.ws w).obj) = s
      rw [show (s.ws w).obj = none from hg.1]
      split <;> rfl
    rw [e]; exact h
  | dealloc w =>
    intro a v hl
    unfold lookup at hl
    by_cases hr : c.registry = true
    · rw [if_pos hr] at hl
      have e : (step c s (.dealloc w)).reg a = if (s.ws w).obj = some a then none else s.reg a := by
        show (dealloc c s w).reg a = _
        rw [dealloc_reg, unregister_reg hr]
      rw [e] at hl
      by_cases ho : (s.ws w).obj = some a
      · rw [if_pos ho] at hl; cases hl
      · rw [if_neg ho] at hl
        have := h a v (by unfold lookup; rw [if_pos hr]; exact hl)
        show ((dealloc c s w).ws v).live = true ∧ ((dealloc c s w).ws v).obj = some a
        rw [dealloc_ws, if_neg]
        · exact this
        · intro e; rw [e] at this; exact ho this.2
    · rw [if_neg hr] at hl; cases hl

theorem fresh_step {c : Cls} (hf : c.singleton = false) {s : World} {e : Ev} (h : Bal s none') (hok : Ok c s e)
    (hg : Tidy s e) : Bal (step c s e) none' := h.step hf hok hg.1

theorem RegOk.run {c : Cls} (hf : c.singleton = false) {es : List Ev} : ∀ {s : World}, Bal s none' → RegOk c s →
    Handled Tidy c s es → Bal (run c s es) none' ∧ RegOk c (run c s es) := by
  induction es with
  | nil => exact fun b h _ => ⟨b, h⟩
  | cons e es ih => exact fun b h hh => ih (fresh_step hf b hh.1 hh.2.1) (regOk_step b.fresh h hh.2.1) hh.2.2

/-- **C110, what a returned shared pointer gives Python.**  In every history in which the garbage collector
clears no wrapper that has an object and `__init__` is not called on one, an empty pointer gives `None`, and any
other one a live wrapper that holds the object returned.
Missing: those two cases, for which this is false. -/
theorem C110_returned_partial (c : Cls) (hf : c.singleton = false) (es : List Ev) (h : Handled Tidy c init es)
    (p : Option Nat) :
    match p, (retShared c (run c init es) p).2 with
    | none, r => r = none
    | some a, r => ∃ w, r = some w ∧ ((retShared c (run c init es) p).1.ws w).live = true ∧
        ((retShared c (run c init es) p).1.ws w).obj = some a := by
  have hr := (RegOk.run hf Bal.init (RegOk.init c) h).2
  cases p with
  | none => rfl
  | some a =>
    rcases retShared_spec c (Shared.run c Shared.init es) a with ⟨w, hl, h2, hws, _⟩ | ⟨_, h2, hws, _⟩
    · exact ⟨w, h2, by rw [hws]; exact hr a w hl⟩
    · exact ⟨_, h2, by rw [hws, if_pos rfl]; exact ⟨rfl, rfl⟩⟩

/-! ### One wrapper per object -/

/-- Every live wrapper of an object is registered, or got it from `__init__`. -/
def Known (c : Cls) (s : World) : Prop :=
  ∀ w a, (s.ws w).live = true → (s.ws w).obj = some a → lookup c s a = some w ∨ (s.ws w).viaInit = true

/-- An object held by a wrapper that got it from `__init__` is held by that wrapper alone. -/
def Single (s : World) : Prop :=
  ∀ w v a, (s.ws w).live = true → (s.ws w).obj = some a → (s.ws w).viaInit = true →
    (s.ws v).live = true → (s.ws v).obj = some a → v = w

/-- The three conditions. -/
def Clean (s : World) (e : Ev) : Prop := Tidy s e ∧ NotMade s e

theorem Known.same {c : Cls} {s t : World} (h : Known c s) (hr : t.reg = s.reg)
    (hw : ∀ w, (t.ws w).live = true → (t.ws w).obj ≠ none → t.ws w = s.ws w) : Known c t := by
  intro w a hl ho
  have e := hw w hl (by rw [ho]; simp)
  rw [e] at hl ho ⊢
  have : lookup c t a = lookup c s a := by unfold lookup; rw [hr]
  rw [this]
  exact h w a hl ho

theorem Single.same {s t : World} (h : Single s)
    (hw : ∀ w, (t.ws w).live = true → (t.ws w).obj ≠ none → t.ws w = s.ws w) : Single t := by
  intro w v a hl ho hi hl' ho'
  have e := hw w hl (by rw [ho]; simp)
  have e' := hw v hl' (by rw [ho']; simp)
  rw [e] at hl ho hi
  rw [e'] at hl' ho'
  exact h w v a hl ho hi hl' ho'

/-- No live wrapper holds an object that does not exist. -/
theorem not_held {s : World} (b : Bal s none') {a : Nat} (ha : s.heap a = none) {w : Nat} (hl : (s.ws w).live = true) :
    (s.ws w).obj ≠ some a := fun ho => holds_alive b hl a ho ha

theorem known_step {c : Cls} (hr : c.registry = true) {s : World} (b : Bal s none') {e : Ev} (h : Known c s)
    (hs : Single s) (hok : Ok c s e) (hg : Clean s e) : Known c (step c s e) ∧ Single (step c s e) := by
  have hfresh := b.fresh s.next (Nat.le_refl _)
  have trivially : ∀ t : World, t.reg = s.reg → (∀ w, (t.ws w).live = true → (t.ws w).obj ≠ none → t.ws w = s.ws w) →
      Known c t ∧ Single t := fun t h1 h2 => ⟨h.same h1 h2, hs.same h2⟩
  cases e with
  | cppNew a => exact trivially _ rfl (fun _ _ _ => rfl)
  | cppShare a => exact trivially _ (cppKeeps_reg s (some a)) (fun w _ _ => congrFun (cppKeeps_ws s (some a)) w)
  | cppDrop a => exact trivially _ (drop_reg ..) (fun w _ _ => congrFun (drop_ws s (some a)) w)
  | ret p =>
    cases p with
    | none => exact ⟨h, hs⟩
    | some a =>
      have hm : ∀ w, (s.ws w).live = true → (s.ws w).obj = some a → (s.ws w).viaInit = false := hg.2
      show Known c (retShared c s (some a)).1 ∧ Single (retShared c s (some a)).1
      rcases retShared_spec c s a with ⟨w, _, _, hws, hreg⟩ | ⟨hn, _, hws, hreg⟩
      · exact trivially _ hreg (fun v _ _ => by rw [hws])
      · have none_holds : ∀ v, (s.ws v).live = true → (s.ws v).obj ≠ some a := by
          intro v hl ho
          rcases h v a hl ho with hk | hk
          · rw [hn] at hk; cases hk
          · rw [hm v hl ho] at hk; cases hk
        constructor
        · intro v x hl ho
          rw [hws] at hl ho ⊢
          unfold lookup
          rw [if_pos hr, hreg, if_pos hr]
          by_cases hv : v = s.next
          · rw [if_pos hv] at ho
            cases ho
            rw [Lifetime.upd_same, hv]
            exact .inl rfl
          · rw [if_neg hv] at hl ho ⊢
            have hx : x ≠ a := fun e => none_holds v hl (e ▸ ho)
            rw [Lifetime.upd_ne _ _ hx]
            have := h v x hl ho
            unfold lookup at this
            rw [if_pos hr] at this
            exact this
        · intro v u x hl ho hi hl' ho'
          rw [hws] at hl ho hi hl' ho'
          by_cases hv : v = s.next
          · rw [if_pos hv] at hi; cases hi
          · rw [if_neg hv] at hl ho hi
            by_cases hu : u = s.next
            · rw [if_pos hu] at ho'
              cases ho'
              exact absurd ho (none_holds v hl)
            · rw [if_neg hu] at hl' ho'
              exact hs v u x hl ho hi hl' ho'
  | retValue a => have := hok.1; rw [hr] at this; cases this
  | pyNew =>
    refine trivially _ rfl (fun w _ ho => ?_)
    by_cases hw : w = s.next
    · exfalso; apply ho; rw [hw]
      show (upd s.ws s.next _ s.next).obj = none
      rw [Lifetime.upd_same]
    · exact Lifetime.upd_ne _ _ hw
  | pyInit w a =>
    have e : ∀ v, (step c s (.pyInit w a)).ws v = if v = w then { s.ws w with obj := some a, viaInit := true } else s.ws v :=
      fun v => replace_ws _ _ _ _ _
    have hreg : (step c s (.pyInit w a)).reg = s.reg := replace_reg ..
    constructor
    · intro v x hl ho
      rw [e] at hl ho ⊢
      by_cases hv : v = w
      · rw [if_pos hv]; exact .inr rfl
      · rw [if_neg hv] at hl ho ⊢
        have : lookup c (step c s (.pyInit w a)) x = lookup c s x := by unfold lookup; rw [hreg]
        rw [this]
        exact h v x hl ho
    · intro v u x hl ho hi hl' ho'
      rw [e] at hl ho hi hl' ho'
      by_cases hv : v = w
      · by_cases hu : u = w
        · rw [hu, hv]
        · rw [if_pos hv] at ho
          rw [if_neg hu] at hl' ho'
          cases ho
          exact absurd ho' (not_held b hok.2 hl')
      · rw [if_neg hv] at hl ho hi
        by_cases hu : u = w
        · rw [if_pos hu] at ho'
          cases ho'
          exact absurd ho (not_held b hok.2 hl)
        · rw [if_neg hu] at hl' ho'
          exact hs v u x hl ho hi hl' ho'
  | pass w keep =>
    refine trivially _ ?_ (fun v _ _ => ?_)
    · show (drop _ _).reg = _
      rw [drop_reg]
      cases keep
      · exact take_reg ..
      · exact (cppKeeps_reg _ _).trans (take_reg _ _)
    · show (drop _ _).ws v = _
      rw [drop_ws]
      cases keep
      · exact congrFun (take_ws _ _) v
      · exact congrFun ((cppKeeps_ws _ _).trans (take_ws _ _)) v
  | callback p => have := hok.1; rw [hr] at this; cases this
  | callbackRet w => exact trivially _ (cppKeeps_reg ..) (fun v _ _ => congrFun (cppKeeps_ws _ _) v)
  | clear w =>
    have e : step c s (.clear w) = s := by
      show (if c.singleton then s else drop s (s.ws w).obj) = s
      rw [show (s.ws w).obj = none from hg.1.1]
      split <;> rfl
    rw [e]; exact ⟨h, hs⟩
  | dealloc w =>
    have e : ∀ v, (step c s (.dealloc w)).ws v = if v = w then { s.ws w with live := false } else s.ws v :=
      fun v => dealloc_ws c s w v
    have eold : ∀ v, ((step c s (.dealloc w)).ws v).live = true → v ≠ w ∧ (step c s (.dealloc w)).ws v = s.ws v := by
      intro v hl
      by_cases hv : v = w
      · rw [e, if_pos hv] at hl; cases hl
      · exact ⟨hv, by rw [e, if_neg hv]⟩
    refine ⟨?_, hs.same (fun v hl _ => (eold v hl).2)⟩
    intro v x hl ho
    obtain ⟨hv, ev⟩ := eold v hl
    rw [ev] at hl ho ⊢
    have hreg : lookup c (step c s (.dealloc w)) x = if (s.ws w).obj = some x then none else lookup c s x := by
      unfold lookup
      rw [if_pos hr, if_pos hr]
      show (dealloc c s w).reg x = _
      rw [dealloc_reg, unregister_reg hr]
    rw [hreg]
    rcases h v x hl ho with hk | hk
    · by_cases ho' : (s.ws w).obj = some x
      · exfalso
        rcases h w x hok ho' with hk' | hk'
        · rw [hk] at hk'; cases hk'; exact hv rfl
        · exact hv (hs w v x hok ho' hk' hl ho)
      · rw [if_neg ho']; exact .inl hk
    · exact .inr hk

theorem Known.run {c : Cls} (hf : c.singleton = false) (hr : c.registry = true) {es : List Ev} :
    ∀ {s : World}, Bal s none' → Known c s → Single s → Handled Clean c s es →
      Bal (run c s es) none' ∧ Known c (run c s es) ∧ Single (run c s es) := by
  induction es with
  | nil => exact fun b h hs _ => ⟨b, h, hs⟩
  | cons e es ih =>
    intro s b h hs hh
    have k := known_step hr b h hs hh.1 hh.2.1
    exact ih (b.step hf hh.1 hh.2.1.1.1) k.1 k.2 hh.2.2

/-- **C110, one wrapper per object.**  With the `std::map` registry, in every history in which moreover no
object is returned that a live wrapper got from `__init__`, two live wrappers never hold the same object, and
returning an object that Python has a wrapper for gives that wrapper.
Missing: without those conditions, and without registry, this is false. -/
theorem C110_one_wrapper_partial (c : Cls) (hf : c.singleton = false) (hr : c.registry = true) (es : List Ev)
    (h : Handled Clean c init es) :
    let s := run c init es
    (∀ w v a, (s.ws w).live = true → (s.ws v).live = true → (s.ws w).obj = some a → (s.ws v).obj = some a → w = v) ∧
    (∀ w a, (s.ws w).live = true → (s.ws w).obj = some a → (s.ws w).viaInit = false →
      (retShared c s (some a)).2 = some w) := by
  obtain ⟨b, k, hs⟩ := Known.run (c := c) hf hr Bal.init (fun w a hl _ => by cases hl) (fun w v a hl _ _ _ _ => by cases hl) h
  refine ⟨fun w v a hl hl' ho ho' => ?_, fun w a hl ho hi => ?_⟩
  · rcases k w a hl ho with h1 | h1
    · rcases k v a hl' ho' with h2 | h2
      · rw [h1] at h2; cases h2; rfl
      · exact hs v w a hl' ho' h2 hl ho
    · exact (hs w v a hl ho h1 hl' ho').symm
  · rcases k w a hl ho with h1 | h1
    · rcases retShared_spec c (Shared.run c Shared.init es) a with ⟨v, hl, h2, _, _⟩ | ⟨hn, _, _, _⟩
      · rw [h2, ← hl, h1]
      · rw [h1] at hn; cases hn
    · rw [hi] at h1; cases h1

/-! ### Examples and counterexamples -/

/-- A class as in examples/std_shared_ptr, with a registry. -/
def foo : Cls := ⟨true, false, false⟩
/-- The same with `allow_subclassing`. -/
def fooGc : Cls := ⟨true, false, true⟩
/-- Without registry. -/
def fooNull : Cls := ⟨false, false, false⟩

instance (s : World) (p : Option Nat) : Decidable (Alive s p) :=
  match p with
  | none => .isTrue (by intro a h; cases h)
  | some a => if h : s.heap a = none then .isFalse (fun k => k a rfl h) else .isTrue (by intro b hb; cases hb; exact h)

instance (c : Cls) (s : World) (e : Ev) : Decidable (Ok c s e) := by cases e <;> unfold Ok <;> infer_instance
instance (s : World) (e : Ev) : Decidable (Tidy s e) := by cases e <;> unfold Tidy NoClear NoReinit <;> infer_instance

/-- An object made by C++ is returned twice and dropped by C++, then passed back and kept, while another is made
by Python; the wrapper dies, C++ drops it. -/
def story : List Ev :=
  [.cppNew 1, .ret (some 1), .ret (some 1), .cppDrop 1, .pass 0 true, .pyNew, .pyInit 1 2, .pass 1 false,
   .dealloc 0]

example : Handled Clean foo init story ∧
    (run foo init story).heap 1 = some 1 ∧ (run foo init story).heap 2 = some 1 ∧
    (run foo init (story ++ [.cppDrop 1])).heap 1 = none ∧ (run foo init story).next = 2 := by
  refine ⟨⟨by decide, ⟨by decide, trivial⟩, by decide, ⟨by decide, ?_⟩, by decide, ⟨by decide, ?_⟩,
    by decide, ⟨by decide, trivial⟩, by decide, ⟨by decide, trivial⟩, by decide, ⟨by decide, trivial⟩,
    by decide, ⟨by decide, trivial⟩, by decide, ⟨by decide, trivial⟩, by decide, ⟨by decide, trivial⟩, trivial⟩,
    by decide, by decide, by decide, by decide⟩
  · intro w hl; cases hl
  · intro w hl _
    match w with
    | 0 => decide
    | w + 1 => exact absurd hl (by simp [step, retShared, lookup, take, drop, foo, register, newWrapper, replace, allocate, make, upd, init])

/-- An override is called with an object, keeps its wrapper, and returns it; the use count is three. -/
example : Legal fooNull init [.cppNew 1, .callback (some 1), .callbackRet 0, .retValue 2, .dealloc 1] ∧
    (run fooNull init [.cppNew 1, .callback (some 1), .callbackRet 0, .retValue 2, .dealloc 1]).heap 1 = some 3 ∧
    (run fooNull init [.cppNew 1, .callback (some 1), .callbackRet 0, .retValue 2, .dealloc 1]).heap 2 = none :=
  ⟨⟨by decide, by decide, by decide, by decide, by decide, trivial⟩, by decide, by decide⟩

/-- **C110 is false for wrappers that the garbage collector clears.**  `tp_clear` destroys the shared pointer
and leaves it in place; `tp_dealloc` destroys it again.  If Python held the object alone, it is destroyed twice;
if C++ holds it too, it is destroyed while C++ holds it. -/
theorem C110_clear_counterexample :
    Legal fooGc init [.cppNew 1, .ret (some 1), .cppDrop 1, .clear 0, .dealloc 0] ∧
    (run fooGc init [.cppNew 1, .ret (some 1), .cppDrop 1, .clear 0, .dealloc 0]).bad = true ∧
    Legal fooGc init [.cppNew 1, .ret (some 1), .clear 0, .dealloc 0] ∧
    (run fooGc init [.cppNew 1, .ret (some 1), .clear 0, .dealloc 0]).heap 1 = none ∧
    (run fooGc init [.cppNew 1, .ret (some 1), .clear 0, .dealloc 0]).cpp 1 = 1 :=
  ⟨⟨rfl, fun a h => by cases h; decide, by decide, by decide, by decide, trivial⟩, by decide,
   ⟨rfl, fun a h => by cases h; decide, by decide, by decide, trivial⟩, by decide, by decide⟩

/-- **C110 is false for singletons**: the death of the wrapper does not destroy its shared pointer, so the object
is never destroyed. -/
theorem C110_singleton_counterexample :
    Legal ⟨true, true, false⟩ init [.pyNew, .pyInit 0 1, .dealloc 0] ∧
    (run ⟨true, true, false⟩ init [.pyNew, .pyInit 0 1, .dealloc 0]).heap 1 = some 1 ∧
    ¬ Held (run ⟨true, true, false⟩ init [.pyNew, .pyInit 0 1, .dealloc 0]) 1 := by
  refine ⟨⟨trivial, by decide, by decide, trivial⟩, by decide, ?_⟩
  rintro (h | ⟨w, hl, _⟩)
  · exact absurd h (by decide)
  · match w with
    | 0 => exact absurd hl (by decide)
    | w + 1 => exact absurd hl (by simp [run, step, dealloc, deleteCode, pyInit, unregister, drop, replace, allocate, make, upd, init])

/-- **C110: `__init__` called on a wrapper that was returned by C++** leaves it registered under its old object:
returning that object gives a wrapper of another one, and, once it is dead, a wrapper that no longer exists. -/
theorem C110_reinit_counterexample :
    Legal foo init [.cppNew 1, .ret (some 1), .pyInit 0 2] ∧
    (retShared foo (run foo init [.cppNew 1, .ret (some 1), .pyInit 0 2]) (some 1)).2 = some 0 ∧
    ((run foo init [.cppNew 1, .ret (some 1), .pyInit 0 2]).ws 0).obj = some 2 ∧
    Legal foo init [.cppNew 1, .ret (some 1), .pyInit 0 2, .dealloc 0] ∧
    (retShared foo (run foo init [.cppNew 1, .ret (some 1), .pyInit 0 2, .dealloc 0]) (some 1)).2 = some 0 ∧
    ((run foo init [.cppNew 1, .ret (some 1), .pyInit 0 2, .dealloc 0]).ws 0).live = false :=
  ⟨⟨rfl, fun a h => by cases h; decide, by decide, trivial⟩, by decide, by decide,
   ⟨rfl, fun a h => by cases h; decide, by decide, by decide, trivial⟩, by decide, by decide⟩

/-- **C110: an object made by Python and returned by C++ gets a second wrapper**, and without registry every
return makes one. -/
theorem C110_second_wrapper_counterexample :
    Legal foo init [.pyNew, .pyInit 0 1, .ret (some 1)] ∧
    ((run foo init [.pyNew, .pyInit 0 1, .ret (some 1)]).ws 0).obj = some 1 ∧
    ((run foo init [.pyNew, .pyInit 0 1, .ret (some 1)]).ws 1).obj = some 1 ∧
    ((run foo init [.pyNew, .pyInit 0 1, .ret (some 1)]).ws 0).live = true ∧
    ((run foo init [.pyNew, .pyInit 0 1, .ret (some 1)]).ws 1).live = true ∧
    Legal fooNull init [.cppNew 1, .ret (some 1), .ret (some 1)] ∧
    ((run fooNull init [.cppNew 1, .ret (some 1), .ret (some 1)]).ws 0).obj = some 1 ∧
    ((run fooNull init [.cppNew 1, .ret (some 1), .ret (some 1)]).ws 1).obj = some 1 :=
  ⟨⟨trivial, by decide, fun a h => by cases h; decide, trivial⟩, by decide, by decide, by decide, by decide,
   ⟨rfl, fun a h => by cases h; decide, fun a h => by cases h; decide, trivial⟩, by decide, by decide⟩

end Verif.Shared
