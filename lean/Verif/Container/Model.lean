import Verif.Basic

/-!
# Wrapped C++ containers at run time (pybindgen/container.py)

What the C code generated for a `Container` does: the converter function, `__init__`, iteration,
deallocation, and passing containers to and from C++.

Simplifications.  The contents of a C++ container are a list in iteration order.  Python values are
an arbitrary type with a `view`; item converters are arbitrary functions of the item (and may run
Python code that changes the list being read, see `Item`).  Memory allocation does not fail.
-/
namespace Verif.Container
open Verif

/-! ## The C++ containers -/

/-- `container_type`, container.py:82-100. -/
inductive Kind where
  | list | deque | queue | priorityQueue | vector | stack
  | set | multiset | hashSet | hashMultiset | map | unorderedMap
  deriving DecidableEq, Repr

/-- The strings accepted for `container_type`, container.py:82-100. -/
def kindOf : Str → Option Kind := fun s =>
  if s = "list".toList then some .list
  else if s = "deque".toList then some .deque
  else if s = "queue".toList then some .queue
  else if s = "priority_queue".toList then some .priorityQueue
  else if s = "vector".toList then some .vector
  else if s = "stack".toList then some .stack
  else if s = "set".toList then some .set
  else if s = "multiset".toList then some .multiset
  else if s = "hash_set".toList then some .hashSet
  else if s = "hash_multiset".toList then some .hashMultiset
  else if s = "map".toList then some .map
  else if s = "unordered_map".toList then some .unorderedMap
  else if s = "dequeue".toList then some .deque
  else none

/-- Members of C++ containers that generated code may use. -/
inductive Member where
  | push_back | push | insert | clear | begin | endd | iterator
  deriving DecidableEq, Repr

/-- `add_value_method`, container.py:82-95. -/
def addMethod : Kind → Member
  | .list | .deque | .vector => .push_back
  | .queue | .priorityQueue | .stack => .push
  | .set | .multiset | .hashSet | .hashMultiset | .map | .unorderedMap => .insert

/-- `is_mapping`, container.py:93-94. -/
def isMapping : Kind → Bool
  | .map | .unorderedMap => true
  | _ => false

/-- Members of the container class named in the code generated for a container: the converter
function (container.py:542, 549, 574, 589), `tp_iter` (485) and `tp_iternext` (44, 49, 307). -/
def membersUsed (k : Kind) : List Member := [.clear, addMethod k, .iterator, .begin, .endd]

/-- Adding one element to a C++ container, by the method of `addMethod`.  `before` is the
comparison of the container (of the keys, for a map), `place` is where a hash table puts a new
element. -/
structure Cmp (E : Type) where
  before : E → E → Bool
  place : E → List E → Nat

/-- Insertion of an element in order, after its equivalents. -/
def insertAfter {E : Type} (before : E → E → Bool) (e : E) : List E → List E
  | [] => [e]
  | x :: xs => if before e x then e :: x :: xs else x :: insertAfter before e xs

/-- Neither comes before the other. -/
def equiv {E : Type} (before : E → E → Bool) (a b : E) : Bool := !before a b && !before b a

/-- `container->ADD_VALUE(item)`, container.py:549 and 589: `push_back`, `push`, `insert` of the C++
standard library.  (`priority_queue` is listed for completeness, in insertion order: it cannot be
iterated.) -/
def add {E : Type} (cmp : Cmp E) : Kind → List E → E → List E
  | .list, l, e | .deque, l, e | .vector, l, e | .queue, l, e | .stack, l, e | .priorityQueue, l, e => l ++ [e]
  | .set, l, e | .map, l, e => if l.any (equiv cmp.before e) then l else insertAfter cmp.before e l
  | .multiset, l, e => insertAfter cmp.before e l
  | .hashSet, l, e | .unorderedMap, l, e =>
    if l.any (equiv cmp.before e) then l else l.insertIdx (min (cmp.place e l) l.length) e
  | .hashMultiset, l, e => l.insertIdx (min (cmp.place e l) l.length) e

/-! ## The converter function -/

/-- What generated code can tell about a Python object. -/
inductive View (P : Type) where
  /-- an instance of the container's Python type, with this identity -/
  | inst (w : Nat)
  | list (xs : List P)
  | tuple (xs : List P)
  | other

/-- An item converter function (`PythonToCConverter`, converter_functions.py:10-85): gives the C
value or fails with a Python exception.  Converting can run Python code, which can change the list
that is being read: the second component. -/
def Item (P E : Type) := P → List P → Option E × List P

/-- The check and the two conversions for an item of a mapping, container.py:577-588. -/
def pairItem {P K V : Type} (view : P → View P) (key : Item P K) (val : Item P V) : Item P (K × V) :=
  fun p xs =>
    match view p with
    | .tuple [a, b] =>
      match key a xs with
      | (none, xs) => (none, xs)
      | (some k, xs) =>
        match val b xs with
        | (none, xs) => (none, xs)
        | (some v, xs) => (some (k, v), xs)
    | _ => (none, xs)

/-- Result of a piece of generated C code: `crash` is undefined behaviour. -/
inductive Res (α : Type) where
  | ok (a : α)
  | crash
  deriving DecidableEq, Repr

/-- The loop, container.py:544-550 and 576-590: `todo` iterations are left, `i` is the index, `xs` the
list, `c` the container.  `PyList_GET_ITEM` does not check the index.  The result is the container
and the return code. -/
def loop {P E : Type} (conv : Item P E) (addE : List E → E → List E) :
    Nat → Nat → List P → List E → Res (List E × Bool)
  | 0, _, _, c => .ok (c, true)
  | n + 1, i, xs, c =>
    match xs[i]? with
    | none => .crash
    | some p =>
      match conv p xs with
      | (none, _) => .ok (c, false)
      | (some e, xs) => loop conv addE n (i + 1) xs (addE c e)

/-! ## The process -/

/-- A Python object of the container's type.  -/
structure CObj where
  /-- reference count; the object exists while it is positive -/
  refs : Nat
  /-- history variable: how many of the references the Python program holds (iterators hold the
  others) -/
  user : Nat
  /-- `self->obj`; `none` is `NULL` -/
  obj : Option Nat

/-- An iterator object: `container` (`none`: `NULL`), and the C++ iterator: an index into a C++
container. -/
structure IObj where
  refs : Nat
  container : Option Nat
  iter : Option (Nat × Nat)

structure World (E : Type) where
  cs : Nat → CObj
  nextC : Nat
  is : Nat → IObj
  nextI : Nat
  /-- live C++ containers on the heap -/
  heap : Nat → Option (List E)
  nextH : Nat

def World.empty {E : Type} : World E :=
  { cs := fun _ => ⟨0, 0, none⟩, nextC := 0, is := fun _ => ⟨0, none, none⟩, nextI := 0
    heap := fun _ => none, nextH := 0 }

def upd {β : Type} (f : Nat → β) (a : Nat) (b : β) : Nat → β := fun x => if x = a then b else f x

section
variable {P E : Type} (view : P → View P) (kind : Kind) (cmp : Cmp E) (conv : Item P E)

/-- The converter function, container.py:536-557 (568-597 with `conv` a `pairItem`): `cur` is what
`*container` holds before. -/
def convert (w : World E) (arg : P) (cur : List E) : Res (List E × Bool) :=
  match view arg with
  | .inst c =>
    match (w.cs c).obj with
    | none => .crash
    | some h =>
      match w.heap h with
      | none => .crash
      | some l => .ok (l, true)
  | .list xs => loop conv (add cmp kind) xs.length 0 xs []
  | _ => .ok (cur, false)

/-- What a Python program can do with containers, and what can be observed. -/
inductive Op (P E : Type) where
  /-- calling the type: `tp_new` (`PyType_GenericNew`) and `tp_init` -/
  | create (arg : Option P)
  /-- `T.__new__(T)` -/
  | alloc
  /-- `c.__init__(arg)` -/
  | init (c : Nat) (arg : Option P)
  /-- a new Python reference, and dropping one -/
  | incC (c : Nat)
  | decC (c : Nat)
  /-- `iter(c)` -/
  | iter (c : Nat)
  /-- `TIter.__new__(TIter)`: the iterator type is callable too -/
  | allocI
  | incI (i : Nat)
  | decI (i : Nat)
  /-- `next(i)` -/
  | next (i : Nat)
  /-- a C++ function returns a container (container.py:857-861); also output parameters
  (730-734) and arguments of overridden virtual methods (695-701) -/
  | fromCpp (l : List E)
  /-- an argument is converted for a C++ function (container.py:684-687, 718-725, 784-791) -/
  | toCpp (arg : P)

/-- What the program sees. -/
inductive Out (E : Type) where
  /-- a new container object, an error if `none` -/
  | newC (c : Option Nat)
  | newI (i : Nat)
  /-- `__init__` done, or failed -/
  | inited (ok : Bool)
  /-- the next element, or `StopIteration` -/
  | elem (e : Option E)
  /-- what C++ received, or an error -/
  | passed (l : Option (List E))
  | unit
  deriving DecidableEq, Repr

variable {view kind cmp conv}

/-- `tp_dealloc` of the container, container.py:436-445. -/
def deallocC (w : World E) (c : Nat) : World E :=
  { w with
    heap := match (w.cs c).obj with
      | some h => upd w.heap h none
      | none => w.heap
    cs := upd w.cs c ⟨0, 0, none⟩ }

/-- `Py_DECREF` of a container object. -/
def decrefC (w : World E) (c : Nat) : World E :=
  if (w.cs c).refs = 1 then deallocC w c
  else { w with cs := upd w.cs c { w.cs c with refs := (w.cs c).refs - 1 } }

/-- The program gives up a reference (history variable only). -/
def lessUser (w : World E) (c : Nat) : World E :=
  { w with cs := upd w.cs c { w.cs c with user := (w.cs c).user - 1 } }

/-- `tp_dealloc` of the iterator, container.py:451-460. -/
def deallocI (w : World E) (i : Nat) : World E :=
  let c := (w.is i).container
  let w := { w with is := upd w.is i ⟨0, none, none⟩ }
  match c with
  | some c => decrefC w c
  | none => w

/-- `Py_DECREF` of an iterator object. -/
def decrefI (w : World E) (i : Nat) : World E :=
  if (w.is i).refs = 1 then deallocI w i
  else { w with is := upd w.is i { w.is i with refs := (w.is i).refs - 1 } }

variable (view kind cmp conv)

/-- `tp_init`, container.py:601-624. -/
def initC (w : World E) (c : Nat) (arg : Option P) : Res (World E × Bool) :=
  let h := w.nextH
  let w := { w with heap := upd w.heap h (some []), nextH := h + 1, cs := upd w.cs c { w.cs c with obj := some h } }
  match arg with
  | none => .ok (w, true)
  | some a =>
    match convert view kind cmp conv w a [] with
    | .crash => .crash
    | .ok (l, true) => .ok ({ w with heap := upd w.heap h (some l) }, true)
    | .ok (_, false) =>
      .ok ({ w with heap := upd w.heap h none, cs := upd w.cs c { w.cs c with obj := none } }, false)

/-- A new container object with one reference, `obj` `NULL`. -/
def allocC (w : World E) : World E :=
  { w with cs := upd w.cs w.nextC ⟨1, 1, none⟩, nextC := w.nextC + 1 }

/-- One step. -/
def step (w : World E) : Op P E → Res (World E × Out E)
  | .create arg =>
    match initC view kind cmp conv (allocC w) w.nextC arg with
    | .crash => .crash
    | .ok (w', true) => .ok (w', .newC (some w.nextC))
    | .ok (w', false) => .ok (decrefC (lessUser w' w.nextC) w.nextC, .newC none)
  | .alloc => .ok (allocC w, .newC (some w.nextC))
  | .init c arg =>
    match initC view kind cmp conv w c arg with
    | .crash => .crash
    | .ok (w', b) => .ok (w', .inited b)
  | .incC c => .ok ({ w with
      cs := upd w.cs c { w.cs c with refs := (w.cs c).refs + 1, user := (w.cs c).user + 1 } }, .unit)
  | .decC c => .ok (decrefC (lessUser w c) c, .unit)
  | .iter c =>
    -- container.py:478-487
    match (w.cs c).obj with
    | none => .crash
    | some h => .ok ({ w with
        cs := upd w.cs c { w.cs c with refs := (w.cs c).refs + 1 }
        is := upd w.is w.nextI ⟨1, some c, some (h, 0)⟩
        nextI := w.nextI + 1 }, .newI w.nextI)
  | .allocI => .ok ({ w with is := upd w.is w.nextI ⟨1, none, none⟩, nextI := w.nextI + 1 }, .newI w.nextI)
  | .incI i => .ok ({ w with is := upd w.is i { w.is i with refs := (w.is i).refs + 1 } }, .unit)
  | .decI i => .ok (decrefI w i, .unit)
  | .next i =>
    -- container.py:46-59: `iter = *self->iterator`, compared with `self->container->obj->end()`,
    -- `++(*self->iterator)`.  Comparing iterators of different containers is undefined.
    match (w.is i).iter, (w.is i).container with
    | some (h, n), some c =>
      match (w.cs c).obj with
      | none => .crash
      | some h' =>
        if h' = h then
          match w.heap h with
          | none => .crash
          | some l =>
            match l[n]? with
            | none => .ok (w, .elem none)
            | some e => .ok ({ w with is := upd w.is i { w.is i with iter := some (h, n + 1) } }, .elem (some e))
        else .crash
    | _, _ => .crash
  | .fromCpp l => .ok ({ w with
      cs := upd w.cs w.nextC ⟨1, 1, some w.nextH⟩
      nextC := w.nextC + 1
      heap := upd w.heap w.nextH (some l)
      nextH := w.nextH + 1 }, .newC (some w.nextC))
  | .toCpp arg =>
    match convert view kind cmp conv w arg [] with
    | .crash => .crash
    | .ok (l, true) => .ok (w, .passed (some l))
    | .ok (_, false) => .ok (w, .passed none)

/-- What Python guarantees: the program uses objects it has a reference to. -/
def Op.valid (w : World E) : Op P E → Prop
  | .create a => ∀ x, a = some x → ∀ c, view x = .inst c → 0 < (w.cs c).user
  | .init c a => 0 < (w.cs c).user ∧ ∀ x, a = some x → ∀ c, view x = .inst c → 0 < (w.cs c).user
  | .toCpp a => ∀ c, view a = .inst c → 0 < (w.cs c).user
  | .incC c | .iter c | .decC c => 0 < (w.cs c).user
  | .incI i | .decI i | .next i => 0 < (w.is i).refs
  | .alloc | .allocI | .fromCpp _ => True

/-- A history: operations with what they gave, each allowed by `Q` at its point. -/
inductive Run (Q : World E → Op P E → Prop) : World E → List (Op P E × Out E) → World E → Prop where
  | nil (w) : Run Q w [] w
  | cons {w w' w'' : World E} {op : Op P E} {out : Out E} {h} : op.valid view w → Q w op →
      step view kind cmp conv w op = .ok (w', out) → Run Q w' h w'' → Run Q w ((op, out) :: h) w''
end

end Verif.Container
