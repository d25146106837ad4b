import Verif.Basic
import Mathlib.Data.List.Count
import Mathlib.Data.List.Dedup

/-!
# Custodians and wards

Generator side: `add_custodian_and_ward` (function.py:158-167; the same code in
cppmethod.py:161-170 and 610-619), `scan_custodians_and_wards` (cppclass.py:3853-3872),
`_get_custodian_or_ward` (3894-3902) and the pre-call/post-call split (3905-3918).

Run-time side: the statements written by `_add_ward` (3876-3891) acting on a heap of Python objects
with reference counts, and CPython's `Py_DECREF`, which frees an object with count zero together
with its instance dictionary and so releases its wards.

Simplifications.  The `__wards__` list object is kept inside its owner (the generated code leaves
it with exactly the reference of the owner's dictionary).  Python code is assumed not to touch
`__wards__`.  Memory exhaustion is ignored.  Other references between Python objects are part of
the number `ext` of references held outside the `__wards__` lists.  The cyclic garbage collector
is not run.
-/
namespace Verif.Custodian

/-! ## Generator side -/

/-- function.py:158-167: add one relation to `custodians_and_wards`.  `TypeConfigurationError` is
not imported in function.py and cppmethod.py, so the `raise` statement itself raises `NameError`. -/
def addCustodianAndWard (l : List (Int × Int × Bool)) (custodian ward : Int)
    (postcall : Option Bool) : PyRes (List (Int × Int × Bool)) :=
  if custodian = -1 ∨ ward = -1 then
    let postcall := postcall.getD true
    if !postcall then .error .nameError
    else .ok (l ++ [(custodian, ward, postcall)])
  else
    .ok (l ++ [(custodian, ward, postcall.getD false)])

/-- What scan_custodians_and_wards reads from a wrapper: the `custodian` attribute of each
parameter and of the return value, and `return_internal_reference`. -/
structure Annotations where
  params : List (Option Int)
  retCustodian : Option Int
  returnInternalReference : Bool

/-- cppclass.py:3862-3865, the loop; `num` is the loop counter. -/
def scanParams : Nat → List (Option Int) → List (Int × Int × Bool) →
    PyRes (List (Int × Int × Bool))
  | _, [], l => .ok l
  | num, none :: ps, l => scanParams (num + 1) ps l
  | num, some c :: ps, l => do
    let l ← addCustodianAndWard l c (num + 1 : Nat) none
    scanParams (num + 1) ps l

/-- cppclass.py:3853-3872. -/
def scan (a : Annotations) : PyRes (List (Int × Int × Bool)) := do
  let l ← scanParams 0 a.params []
  let l ← match a.retCustodian with
    | some c => addCustodianAndWard l c (-1) none
    | none => .ok l
  if a.returnInternalReference then addCustodianAndWard l (-1) 0 none else .ok l

/-- The C variable a number stands for. -/
inductive Role where
  | retval
  | self
  /-- the parameter with this index, from 0 -/
  | param (i : Nat)
  deriving DecidableEq, Repr

/-- cppclass.py:3894-3902, for a wrapper with `n` parameters, all with a `py_name`.  Python's
negative indices are part of the behaviour: `parameters[num-1]` for `num ≤ -2`. -/
def getCustodianOrWard (n : Nat) (num : Int) : PyRes Role :=
  if num = -1 then .ok .retval
  else if num = 0 then .ok .self
  else if 0 < num then
    if num.toNat ≤ n then .ok (.param (num.toNat - 1)) else .error .indexError
  else
    -- parameters[num-1] with num - 1 < 0 is parameters[n + num - 1]
    if 0 ≤ n + num - 1 then .ok (.param (n + num - 1).toNat) else .error .indexError

/-- The loops of implement_parameter_custodians_precall (`post = false`, cppclass.py:3905-3910) and
implement_parameter_custodians_postcall (`post = true`, 3913-3918): the `_add_ward` calls made. -/
def implement (n : Nat) (post : Bool) : List (Int × Int × Bool) → PyRes (List (Role × Role))
  | [] => .ok []
  | (c, w, p) :: rest =>
    if p = post then do
      let c ← getCustodianOrWard n c
      let w ← getCustodianOrWard n w
      let l ← implement n post rest
      .ok ((c, w) :: l)
    else implement n post rest

/-! ## Run-time side -/

/-- A live Python object. -/
structure Obj where
  /-- `ob_refcnt` -/
  rc : Nat
  /-- the object has an instance dictionary (`inst_dict`), so that attributes can be set -/
  hasDict : Bool
  /-- the list in the attribute `__wards__`, if there is one -/
  wards : Option (List Nat)
  deriving DecidableEq, Repr

/-- Objects by address (addresses are not reused); `none` once freed.  `ext o` is the number of
references to `o` held outside `__wards__` lists (local variables, other objects). -/
structure Heap where
  objs : List (Option Obj)
  ext : Nat → Nat

/-- The live object at an address. -/
def Heap.get (h : Heap) (o : Nat) : Option Obj := (h.objs[o]?).join

/-- Number of live objects. -/
def Heap.live (h : Heap) : Nat := h.objs.countP Option.isSome

/-- Store an object (`none`: free it). -/
def Heap.put (h : Heap) (o : Nat) (x : Option Obj) : Heap := { h with objs := h.objs.set o x }

/-- The wards held by an object. -/
def Obj.wardList (x : Obj) : List Nat := x.wards.getD []

theorem live_put_none {h : Heap} {o : Nat} {x : Obj} (hx : h.get o = some x) :
    (h.put o none).live < h.live := by
  unfold Heap.get at hx
  unfold Heap.live Heap.put
  obtain ⟨l, e⟩ := h
  simp only at hx ⊢
  clear e
  induction l generalizing o with
  | nil => simp at hx
  | cons y ys ih =>
    cases o with
    | zero =>
      simp at hx
      simp [hx]
    | succ o =>
      simp at hx
      have := ih (o := o) (by simpa using hx)
      simp only [List.set_cons_succ, List.countP_cons]
      omega

theorem live_put_some {h : Heap} {o : Nat} {x : Obj} (y : Obj) (hx : h.get o = some x) :
    (h.put o (some y)).live = h.live := by
  unfold Heap.get at hx
  unfold Heap.live Heap.put
  obtain ⟨l, e⟩ := h
  simp only at hx ⊢
  clear e
  induction l generalizing o with
  | nil => simp at hx
  | cons y ys ih =>
    cases o with
    | zero =>
      simp at hx
      simp [hx]
    | succ o =>
      simp at hx
      have := ih (o := o) (by simpa using hx)
      simp only [List.set_cons_succ, List.countP_cons]
      omega

/-- `Py_DECREF` on each object of a list: the count goes down and at zero the object is freed,
which releases its instance dictionary, hence each of its wards (tp_dealloc → tp_clear →
`Py_CLEAR(self->inst_dict)`, cppclass.py:2453-2467 and 2549-2585).  A reference to a freed object
does not occur in reachable states (`Inv`), the model skips it. -/
def decref (h : Heap) : List Nat → Heap
  | [] => h
  | o :: q =>
    match hx : h.get o with
    | none => decref h q
    | some x =>
      if x.rc ≤ 1 then decref (h.put o none) (x.wardList ++ q)
      else decref (h.put o (some { x with rc := x.rc - 1 })) q
termination_by q => (h.live, q.length)
decreasing_by
  · exact Prod.Lex.right _ (by simp)
  · exact Prod.Lex.left _ _ (live_put_none hx)
  · rw [live_put_some _ hx]; exact Prod.Lex.right _ (by simp)

/-- `Py_INCREF`. -/
def incref (h : Heap) (o : Nat) : Heap :=
  match h.get o with
  | some x => h.put o (some { x with rc := x.rc + 1 })
  | none => h

/-- The statements written by `_add_ward` (cppclass.py:3876-3891), including the cleanup
`Py_DECREF(wards)`.  `eq` is `==` between Python objects, which `PySequence_Contains` uses after
comparing identities.  Returns the heap and whether a Python exception is left set.  When the
attribute can not be set, the new list is freed by the cleanup, with the ward reference it took. -/
def addWard (eq : Nat → Nat → Bool) (h : Heap) (c : Nat) (w : Option Nat) : Heap × Bool :=
  match h.get c with
  | none => (h, false)
  | some x =>
    match x.wards with
    | some l =>
      match w with
      | none => (h, false)
      | some w =>
        if l.any (fun v => v == w || eq v w) then (h, false)
        else
          let h := incref h w
          match h.get c with
          | some x => (h.put c (some { x with wards := some (l ++ [w]) }), false)
          | none => (h, false)
    | none =>
      if x.hasDict then
        match w with
        | none => (h.put c (some { x with wards := some [] }), false)
        | some w =>
          let h := incref h w
          match h.get c with
          | some x => (h.put c (some { x with wards := some [w] }), false)
          | none => (h, false)
      else (h, true)

/-- Things that happen to the heap. -/
inductive Ev where
  /-- a new object, referenced once by the program -/
  | new (hasDict : Bool)
  /-- the program takes one more reference -/
  | take (o : Nat)
  /-- the program drops a reference -/
  | drop (o : Nat)
  /-- generated code makes `c` custodian of `w` (`none`: `NULL`) -/
  | adopt (c : Nat) (w : Option Nat)
  deriving DecidableEq, Repr

def step (eq : Nat → Nat → Bool) (h : Heap) : Ev → Heap
  | .new d => { objs := h.objs ++ [some { rc := 1, hasDict := d, wards := none }]
                ext := Function.update h.ext h.objs.length 1 }
  | .take o => { incref h o with ext := Function.update h.ext o (h.ext o + 1) }
  | .drop o => decref { h with ext := Function.update h.ext o (h.ext o - 1) } [o]
  | .adopt c w => (addWard eq h c w).1

def run (eq : Nat → Nat → Bool) (h : Heap) (evs : List Ev) : Heap := evs.foldl (step eq) h

/-- An empty heap. -/
def Heap.empty : Heap := { objs := [], ext := fun _ => 0 }

/-- `o` has not been freed. -/
def Alive (h : Heap) (o : Nat) : Prop := (h.get o).isSome

/-- What a program can do: use objects it holds references to (arguments and results of a call are
held by the caller or by the wrapper while the generated code runs), or, for `take`, that are
alive. -/
def Legal (h : Heap) : Ev → Prop
  | .new _ => True
  | .take o => Alive h o
  | .drop o => 0 < h.ext o
  | .adopt c w => 0 < h.ext c ∧ ∀ v, w = some v → 0 < h.ext v

/-- Every step of a history is legal. -/
def LegalRun (eq : Nat → Nat → Bool) : Heap → List Ev → Prop
  | _, [] => True
  | h, e :: evs => Legal h e ∧ LegalRun eq (step eq h e) evs

end Verif.Custodian
