import Verif.CppClass.Reexport
import Verif.Wrapper.Values

/-!
# `str()` of wrapped objects
(pybindgen/cppclass.py:647, 1623-1637, 2017-2018, 2495-2511, 1979-1995; pybindgen/pytypeobject.py:28, 83)

A class for which `add_output_stream_operator` was called gets a `tp_str` function that writes the C++ object into a
`std::ostringstream`; the classes below it inherit the function the way `PyType_Ready` inherits slots.
-/
namespace Verif.Str
open Verif Verif.CppClass Verif.Wrap

/-- Contents of the slot `tp_str`. -/
inductive Slot where
  /-- that of `object`, which calls `repr` -/
  | object
  /-- `_wrap_PyK__tp_str`, the function generated for class `k`, cppclass.py:2498 -/
  | generated (k : Nat)
  /-- a function the user put into `slots` -/
  | user (f : Str)
  deriving DecidableEq

/-- What is registered for the classes. -/
structure Reg where
  /-- `has_output_stream_operator` -/
  stream : Nat → Bool
  /-- `slots.get("tp_str")` before generation -/
  slots : Nat → Option Str

/-- The slot in the type structure of a class before `PyType_Ready`: `setdefault`, cppclass.py:2499; `NULL` otherwise,
pytypeobject.py:83. -/
def Reg.own (r : Reg) (c : Nat) : Option Slot :=
  match r.slots c with
  | some f => some (.user f)
  | none => if r.stream c then some (.generated c) else none

/-- CPython's method resolution order, without `object` at its end.  What is assumed of it: it begins with the class, it
contains only ancestors, each of them, for a class with one base it is the class followed by that of the base, and the first base comes second. -/
structure PyMro (h : Hier) where
  mro : Nat → List Nat
  head : ∀ c, ∃ l, mro c = c :: l ∧ ∀ k ∈ l, k < c
  sound : ∀ c, ∀ k ∈ mro c, Ancestor h k c
  complete : ∀ c k, Ancestor h k c → k ∈ mro c
  root : ∀ c, h.bases c = [] → mro c = [c]
  one : ∀ c b, h.bases c = [b] → mro c = c :: mro b
  first : ∀ c b l, h.bases c = b :: l → ∃ t, mro c = c :: b :: t

/-- The slot after `PyType_Ready` (CPython's `inherit_slots`): its own one; otherwise the first one along the method
resolution order that is not itself inherited from that class's `tp_base` (`SLOTDEFINED`); `tp_base` is the first base,
cppclass.py:1981-1982. -/
def slot {h : Hier} (m : PyMro h) (r : Reg) (c : Nat) : Slot :=
  match r.own c with
  | some s => s
  | none =>
    (((m.mro c).filter (· < c)).attach.findSome? (fun (b : { x // x ∈ (m.mro c).filter (· < c) }) =>
      have : b.1 < c := by have := (List.mem_filter.mp b.2).2; simpa using this
      let base : Slot := match hb : (h.bases b.1).head? with
        | none => .object
        | some p =>
          have : p < c := Nat.lt_trans (h.acyclic b.1 p (List.mem_of_mem_head? hb)) ‹b.1 < c›
          slot m r p
      if slot m r b.1 = base then none else some (slot m r b.1))).getD .object
termination_by c

/-- A C++ object: what `operator<<` for the part of class `k` writes when the function is given a pointer to that part;
`none`: it throws an exception. -/
abbrev Obj := Nat → Option Bytes

/-- What `str(o)` does. -/
inductive Outcome (T : Type) where
  /-- it returns this text -/
  | text (s : T)
  /-- `UnicodeDecodeError` -/
  | decodeError
  /-- what `repr` says -/
  | repr
  /-- what the user's function does -/
  | user (f : Str)
  /-- the process ends: a null pointer is dereferenced, or a C++ exception goes through the interpreter -/
  | dies
  /-- undefined behaviour: the pointer is taken for one to another class than it points to -/
  | undefined
  deriving DecidableEq

/-- `PyUnicode_FromString(oss.str ().c_str ())`, cppclass.py:2508: the bytes up to the first zero byte, as UTF-8. -/
def fromString {T : Type} (u : Codec T) (b : Bytes) : Outcome T :=
  match u.dec (b.takeWhile (· ≠ 0)) with
  | some s => .text s
  | none => .decodeError

open Classical in
/-- `str(o)` for an instance of class `c`; `obj` is what `self->obj` points to (a whole object of class `c`), `none` for
an object that was not initialised.  The generated function of class `k`, cppclass.py:2501-2511, takes the pointer for
one to a `k`. -/
noncomputable def str {T : Type} {h : Hier} (u : Codec T) (m : PyMro h) (r : Reg) (c : Nat) (obj : Option Obj) : Outcome T :=
  match slot m r c with
  | .object => .repr
  | .user f => .user f
  | .generated k =>
    match obj with
    | none => .dies
    | some o =>
      if AtStart h c k then
        match o k with
        | none => .dies
        | some b => fromString u b
      else .undefined

/-- The includes of the module after `add_output_stream_operator`, cppclass.py:1636-1637 with module.py:362-373. -/
def addIncludes (l : List Str) : List Str :=
  let l := if "<ostream>".toList ∈ l then l else l ++ ["<ostream>".toList]
  if "<sstream>".toList ∈ l then l else l ++ ["<sstream>".toList]

end Verif.Str
