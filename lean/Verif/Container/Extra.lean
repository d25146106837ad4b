import Verif.Container.Memory
import Verif.Params.Props

/-!
# Where C60–C62 fail, mapping iteration (C63)
-/
namespace Verif.Container
open Verif

/-! ## Concrete Python values, for counterexamples and instances -/

inductive Py where
  | int (n : Int)
  | list (xs : List Py)
  | tuple (xs : List Py)
  | inst (c : Nat)
  | none
  /-- an object whose conversion empties the list it is in, and gives 0 -/
  | evil

def pyView : Py → View Py
  | .list xs => .list xs
  | .tuple xs => .tuple xs
  | .inst c => .inst c
  | _ => .other

def intOf : Py → Option Int
  | .int n => some n
  | _ => Option.none

/-- The converter of `int` items, for lists of ordinary objects. -/
def intItem : Item Py Int := fun p xs => (intOf p, xs)

/-- The converter of `int` items, with objects that run code (`__index__`). -/
def evilItem : Item Py Int := fun p xs =>
  match p with
  | .evil => (some 0, [])
  | p => (intOf p, xs)

def intCmp : Cmp Int := ⟨fun a b => a < b, fun _ _ => 0⟩

theorem intItem_pure : Pure intItem intOf := fun _ _ => rfl

theorem intCmp_weak : Weak intCmp.before := by
  constructor
  · intro a b h; simp only [intCmp, decide_eq_true_eq, decide_eq_false_iff_not] at *; omega
  · intro a b c h1 h2; simp only [intCmp, decide_eq_false_iff_not] at *; omega

/-- A sequence of operations from a state. -/
def exec {P E : Type} (view : P → View P) (kind : Kind) (cmp : Cmp E) (conv : Item P E) (w : World E) :
    List (Op P E) → Res (World E × List (Out E))
  | [] => .ok (w, [])
  | op :: ops =>
    match step view kind cmp conv w op with
    | .crash => .crash
    | .ok (w', o) =>
      match exec view kind cmp conv w' ops with
      | .crash => .crash
      | .ok (w'', os) => .ok (w'', o :: os)

def outs {E : Type} : Res (World E × List (Out E)) → Option (List (Out E))
  | .crash => none
  | .ok (_, os) => some os

/-! ## C60 -/

example : outs (exec pyView .vector intCmp intItem World.empty
    [.toCpp (.list [.int 3, .int 1, .int 3]), .toCpp .none, .toCpp (.list [.int 3, .none])]) =
    some [.passed (some [3, 1, 3]), .passed none, .passed none] := by decide

example : outs (exec pyView .set intCmp intItem World.empty [.toCpp (.list [.int 3, .int 1, .int 3])]) =
    some [.passed (some [1, 3])] := by decide

example : outs (exec pyView .map ⟨fun a b => a.1 < b.1, fun _ _ => 0⟩ (pairItem pyView intItem intItem) World.empty
    [.toCpp (.list [.tuple [.int 3, .int 1], .tuple [.int 2, .int 7], .tuple [.int 3, .int 9]])]) =
    some [.passed (some [(2, 7), (3, 1)])] := by decide

/-- C60 needs items whose conversion leaves the list alone: the generated loop reads the size once
and then takes items without checking, so it can read past the end of the list. -/
theorem C60_list_changed_counterexample :
    step pyView .vector intCmp evilItem World.empty (.toCpp (.list [.evil, .int 1])) = .crash := rfl

/-- The members the C++ standard library gives these containers (of those in `Member`). -/
def provides : Kind → List Member
  | .list | .deque | .vector => [.push_back, .insert, .clear, .begin, .endd, .iterator]
  | .queue | .priorityQueue | .stack => [.push]
  | .set | .multiset | .hashSet | .hashMultiset | .map | .unorderedMap => [.insert, .clear, .begin, .endd, .iterator]

/-- C60 (what compiles): the code generated for a container uses only members that the container has,
except for the three container adapters. -/
theorem C60_members_partial (k : Kind) (h : k ≠ .queue ∧ k ≠ .priorityQueue ∧ k ≠ .stack) :
    ∀ m ∈ membersUsed k, m ∈ provides k := by
  obtain ⟨h1, h2, h3⟩ := h
  cases k <;> first | exact absurd rfl h1 | exact absurd rfl h2 | exact absurd rfl h3 | decide

/-- C60 fails for `queue`, `priority_queue` and `stack`, which `container_type` accepts: the
generated code does not compile. -/
theorem C60_adapters_counterexample (s : Str) (hs : s ∈ ["queue".toList, "priority_queue".toList, "stack".toList]) :
    ∃ k, kindOf s = some k ∧ .clear ∈ membersUsed k ∧ .clear ∉ provides k ∧ .begin ∈ membersUsed k ∧
      .begin ∉ provides k := by
  simp only [List.mem_cons, List.not_mem_nil, or_false] at hs
  rcases hs with rfl | rfl | rfl
  · exact ⟨.queue, by decide⟩
  · exact ⟨.priorityQueue, by decide⟩
  · exact ⟨.stack, by decide⟩

/-! ## C61 and C62 -/

example : outs (exec pyView .vector intCmp intItem World.empty
    [.create (some (.list [.int 4, .int 5])), .iter 0, .iter 0, .decC 0, .next 0, .next 1, .decI 1, .next 0, .next 0, .next 0,
      .decI 0]) =
    some [.newC (some 0), .newI 0, .newI 1, .unit, .elem (some 4), .elem (some 4), .unit, .elem (some 5), .elem none,
      .elem none, .unit] := by decide

/-- C62 fails for an object that is not initialized (`T.__new__(T)`, or after a failed
`__init__`): iterating it, or passing it to C++, dereferences a null pointer. -/
theorem C62_uninitialized_counterexample :
    outs (exec pyView .vector intCmp intItem World.empty [.alloc, .iter 0]) = none ∧
    outs (exec pyView .vector intCmp intItem World.empty [.alloc, .toCpp (.inst 0)]) = none ∧
    outs (exec pyView .vector intCmp intItem World.empty [.create none, .init 0 (some .none)]) =
      some [.newC (some 0), .inited false] ∧
    outs (exec pyView .vector intCmp intItem World.empty [.create none, .init 0 (some .none), .iter 0]) = none := by
  decide

/-- C62 fails for an iterator made by calling the iterator type, which is in the module. -/
theorem C62_iterator_type_counterexample :
    outs (exec pyView .vector intCmp intItem World.empty [.allocI, .next 0]) = none := by decide

/-- C62 fails when `__init__` is called again: the old C++ container is leaked, -/
theorem C62_reinit_counterexample : ∃ w, exec pyView .vector intCmp intItem World.empty
    [.create (some (.list [.int 4])), .init 0 none, .decC 0] = .ok (w, [.newC (some 0), .inited true, .unit]) ∧
    (w.heap 0) = some [4] ∧ ∀ c, (w.cs c).refs = 0 ∧ (w.cs c).obj = none := by
  refine ⟨_, rfl, rfl, ?_⟩
  intro c
  by_cases h : c = 0
  · subst h; exact ⟨rfl, rfl⟩
  · have : ∀ (β : Type) (f : Nat → β) (b : β), upd f 0 b c = f c := fun _ f b => upd_ne f b h
    simp only [lessUser, decrefC, deallocC, allocC, World.empty, upd_same, if_true, this, and_self]

/-- and C61 fails: an iterator made before then compares C++ iterators of two containers. -/
theorem C61_reinit_counterexample :
    outs (exec pyView .vector intCmp intItem World.empty
      [.create (some (.list [.int 4])), .iter 0, .init 0 none, .next 0]) = none := by decide

/-! ## C63 -/

/-- What `tp_iternext` adds to the returned value for a mapping, container.py:56-59: the value, then
the key; each handler says whether it puts its part in front. -/
def pairCalls (valPrepend keyPrepend : Bool) (v k : Params.BItem) : List Params.BCall :=
  [⟨v, valPrepend⟩, ⟨k, keyPrepend⟩]

/-- Handlers of returned values and whether `convert_c_to_python` adds its part in front. -/
inductive RetHandler where
  | int | uint | long | longlong | bool | double | float | pyObject | stdString | glibString
  | cppClass | cppClassPtr | container | enum | char | cstring
  deriving DecidableEq, Repr

/-- `prepend=True` in `convert_c_to_python`: inttype.py, booltype.py:45-47, doubletype.py:35,
floattype.py:36, pyobjecttype.py:62-65, stringtype.py:243-246 and 399-402, cppclass.py:3274, 3352
and 3788, container.py:861, enum (an `IntReturn`); not so `char` (stringtype.py:204-205) and `char*`
(222-223). -/
def prepends : RetHandler → Bool
  | .char | .cstring => false
  | _ => true

/-- C63: iterating a mapping yields `(key, value)` pairs, whatever the type of the values, if the
keys are not `char` or `char*`. -/
theorem C63_pairs_partial (key val : RetHandler) (v k : Params.BItem) (h : key ≠ .char ∧ key ≠ .cstring) :
    Params.bRun (pairCalls (prepends val) (prepends key) v k) = [k, v] := by
  have hk : prepends key = true := by
    obtain ⟨h1, h2⟩ := h
    cases key <;> first | rfl | exact absurd rfl h1 | exact absurd rfl h2
  simp only [pairCalls, hk, Params.bRun, List.foldl_cons, List.foldl_nil, Params.addBuild, if_true]
  split <;> rfl

/-- C63 fails for `char` and `char*` keys: the pairs come out as `(value, key)`. -/
theorem C63_char_key_counterexample (val : RetHandler) (v k : Params.BItem) :
    Params.bRun (pairCalls (prepends val) (prepends .char) v k) = [v, k] ∧
    Params.bRun (pairCalls (prepends val) (prepends .cstring) v k) = [v, k] := by
  cases val <;> exact ⟨rfl, rfl⟩

/-! ## Items of mappings, names of container kinds -/

/-- C60 (mappings): an item of a mapping is a tuple of exactly two elements, the first converted as the
key, the second as the value; anything else is refused. -/
theorem C60_pairs {P K V : Type} (view : P → View P) {key : Item P K} {val : Item P V} {f : P → Option K}
    {g : P → Option V} (hk : Pure key f) (hv : Pure val g) :
    Pure (pairItem view key val) (fun p =>
      match view p with
      | .tuple [a, b] => do some (← f a, ← g b)
      | _ => none) := by
  intro p xs
  unfold pairItem
  split
  · rename_i a b hab
    rw [hk a xs]
    cases hf : f a with
    | none => simp [hab, hf]
    | some k =>
      simp only [hv b xs]
      cases hg : g b <;> simp [hab, hf, hg]
  · rename_i h
    dsimp only
    split
    · rename_i a b hab
      exact absurd hab (h a b)
    · rfl

/-- The C++ container each accepted `container_type` stands for. -/
def kindTable : List (Str × Kind) :=
  [("list".toList, .list), ("deque".toList, .deque), ("dequeue".toList, .deque), ("queue".toList, .queue),
   ("priority_queue".toList, .priorityQueue), ("vector".toList, .vector), ("stack".toList, .stack),
   ("set".toList, .set), ("multiset".toList, .multiset), ("hash_set".toList, .hashSet),
   ("hash_multiset".toList, .hashMultiset), ("map".toList, .map), ("unordered_map".toList, .unorderedMap)]

/-- C60 (container types): exactly the names of the table are accepted, for the container they name. -/
theorem C60_kinds (s : Str) (k : Kind) : kindOf s = some k ↔ (s, k) ∈ kindTable := by
  constructor
  · intro h
    unfold kindOf at h
    by_cases hs : s = "list".toList
    · rw [if_pos hs] at h; rw [hs, ← Option.some.inj h]; decide
    rw [if_neg hs] at h; clear hs
    by_cases hs : s = "deque".toList
    · rw [if_pos hs] at h; rw [hs, ← Option.some.inj h]; decide
    rw [if_neg hs] at h; clear hs
    by_cases hs : s = "queue".toList
    · rw [if_pos hs] at h; rw [hs, ← Option.some.inj h]; decide
    rw [if_neg hs] at h; clear hs
    by_cases hs : s = "priority_queue".toList
    · rw [if_pos hs] at h; rw [hs, ← Option.some.inj h]; decide
    rw [if_neg hs] at h; clear hs
    by_cases hs : s = "vector".toList
    · rw [if_pos hs] at h; rw [hs, ← Option.some.inj h]; decide
    rw [if_neg hs] at h; clear hs
    by_cases hs : s = "stack".toList
    · rw [if_pos hs] at h; rw [hs, ← Option.some.inj h]; decide
    rw [if_neg hs] at h; clear hs
    by_cases hs : s = "set".toList
    · rw [if_pos hs] at h; rw [hs, ← Option.some.inj h]; decide
    rw [if_neg hs] at h; clear hs
    by_cases hs : s = "multiset".toList
    · rw [if_pos hs] at h; rw [hs, ← Option.some.inj h]; decide
    rw [if_neg hs] at h; clear hs
    by_cases hs : s = "hash_set".toList
    · rw [if_pos hs] at h; rw [hs, ← Option.some.inj h]; decide
    rw [if_neg hs] at h; clear hs
    by_cases hs : s = "hash_multiset".toList
    · rw [if_pos hs] at h; rw [hs, ← Option.some.inj h]; decide
    rw [if_neg hs] at h; clear hs
    by_cases hs : s = "map".toList
    · rw [if_pos hs] at h; rw [hs, ← Option.some.inj h]; decide
    rw [if_neg hs] at h; clear hs
    by_cases hs : s = "unordered_map".toList
    · rw [if_pos hs] at h; rw [hs, ← Option.some.inj h]; decide
    rw [if_neg hs] at h; clear hs
    by_cases hs : s = "dequeue".toList
    · rw [if_pos hs] at h; rw [hs, ← Option.some.inj h]; decide
    rw [if_neg hs] at h; clear hs
    cases h
  · intro h
    have : ∀ e ∈ kindTable, kindOf e.1 = some e.2 := by decide
    exact this (s, k) h

end Verif.Container
