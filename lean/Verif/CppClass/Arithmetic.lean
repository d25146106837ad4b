import Verif.CppClass.Operators

/-!
# C112: Python expressions with operators of wrapped classes

What `a + b`, `a += b`, `-a` and `a < b` do in Python when the operands are wrappers: CPython's operator protocols
(`binary_op1`, `binary_iop1`, `PyNumber_Negative`, `do_richcompare`) calling the functions that
`_generate_number_methods` and `_generate_tp_richcompare` write (pybindgen/cppclass.py:2036-2159, 2588-2635), whose
tables are those of `Verif/CppClass/Operators.lean`.

Simplifications.  Slots are inherited from the nearest class that has them (single inheritance).  Objects that are
not wrappers do not know how to combine themselves with wrappers (their own slots give `NotImplemented`).  Classes
have no `__add__`, `__mul__`, `__iadd__`, `__imul__` methods (which fill `sq_concat` and so on, C67), and Python
subclasses define no operator methods.  In the generated functions the conversions do not fail half way (C96), and
operand classes have the default constructor that `Foo left;` needs.
-/
namespace Verif.Arith
open Verif Verif.Operators

/-- A Python object: a wrapper of class `cls` around the C++ value `v`, or something else. -/
inductive Val (D X : Type) where
  | inst (cls : Nat) (v : D)
  | other (x : X)
  deriving DecidableEq, Repr

/-- The classes of a module with what was registered for them, and the meaning of the C++ operators. -/
structure Prog (D X : Type) where
  /-- the `add_*_operator` calls made for a class -/
  calls : Nat → List Call
  /-- the class and its ancestors, nearest first -/
  mro : Nat → List Nat
  /-- an object of class `d` seen as a `c` -/
  view : (d c : Nat) → D → D
  /-- the conversion of a parameter that is not of class type -/
  param : Nat → Val D X → Option D
  /-- the C++ operator: its result, and the value of the left operand afterwards -/
  op : Str → Case → D → D → D × D
  neg : Nat × Nat → D → D
  /-- the C++ comparison of two objects of class `k` -/
  cmp : (k : Nat) → Str → D → D → Bool

variable {D X : Type}

abbrev Heap (D X : Type) := List (Val D X)

def Prog.ops (P : Prog D X) (k : Nat) : Ops := Operators.run { self := k } (P.calls k)

/-- The slot in the class's own `PyNumberMethods`. -/
def Prog.ownSlot (P : Prog D X) (slot : String) (k : Nat) : Option SlotImpl :=
  match tpAsNumber (P.ops k) with
  | none => none
  | some l => (l.find? (fun e => e.1 = slot)).map (·.2)

/-- A slot of the type of an object, own or inherited (`inherit_slots` in CPython's typeobject.c), with the class it
comes from. -/
def Prog.slot (P : Prog D X) (slot : String) : Val D X → Option (Nat × SlotImpl)
  | .inst c _ => (P.mro c).findSome? fun k => (P.ownSlot slot k).map (k, ·)
  | .other _ => none

/-- The converter functions, as called by the operator functions: `O!` checks the type and the object is copied into
the variable (C96). -/
def Prog.convert (P : Prog D X) : Operand → Val D X → Option D
  | .cls c, .inst d v => if c ∈ P.mro d then some (P.view d c v) else none
  | .cls _, .other _ => none
  | .param id, x => P.param id x

/-- The generated operator function, cppclass.py:2076-2107: `NotImplemented` is `none`.  The operator works on the
variables `left` and `right`; what it makes of `left` is lost with the variable. -/
def Prog.callSlot (P : Prog D X) (h : Heap D X) (a b : Val D X) : SlotImpl → Heap D X × Option Nat
  | .cases op l =>
    match (runCases (fun o x => (P.convert o x).isSome) a b l false).1 with
    | none => (h, none)
    | some c =>
      match P.convert (.cls c.left) a, P.convert c.right b with
      | some left, some right => (h ++ [.inst c.result (P.op op c left right).1], some h.length)
      | _, _ => (h, none)
  | .unary _ _ => (h, none)

/-- `PyType_IsSubtype(Py_TYPE(w), Py_TYPE(v))` for objects of different types. -/
def Prog.below (P : Prog D X) : Val D X → Val D X → Bool
  | .inst d _, .inst c _ => d ≠ c && c ∈ P.mro d
  | _, _ => false

/-- The next attempt is made if the first gave `NotImplemented`. -/
def orTry (r q : Heap D X × Option Nat) : Heap D X × Option Nat :=
  match r.2 with
  | some _ => r
  | none => q

/-- `binary_op1`, CPython's Objects/abstract.c. -/
def Prog.binop (P : Prog D X) (h : Heap D X) (slot : String) (v w : Val D X) : Heap D X × Option Nat :=
  let sv := P.slot slot v
  let sw := P.slot slot w
  let sw := if sw.map (·.1) = sv.map (·.1) then none else sw
  match sv, sw with
  | none, none => (h, none)
  | some (_, f), none => P.callSlot h v w f
  | none, some (_, g) => P.callSlot h v w g
  | some (_, f), some (_, g) =>
    if P.below w v then orTry (P.callSlot h v w g) (P.callSlot h v w f)
    else orTry (P.callSlot h v w f) (P.callSlot h v w g)

/-- `binary_iop1`, CPython's Objects/abstract.c. -/
def Prog.iop (P : Prog D X) (h : Heap D X) (islot slot : String) (v w : Val D X) : Heap D X × Option Nat :=
  match P.slot islot v with
  | some (_, f) => orTry (P.callSlot h v w f) (P.binop h slot v w)
  | none => P.binop h slot v w

/-- Names and objects. -/
structure State (D X : Type) where
  env : Nat → Nat
  heap : Heap D X

/-- The statement `x op= y`; `none` is a `TypeError`. -/
def Prog.augAssign (P : Prog D X) (s : State D X) (islot slot : String) (x y : Nat) : Option (State D X) :=
  match s.heap[s.env x]?, s.heap[s.env y]? with
  | some v, some w =>
    match P.iop s.heap islot slot v w with
    | (h, some r) => some { env := fun z => if z = x then r else s.env z, heap := h }
    | (_, none) => none
  | _, _ => none

/-- The value of an expression. -/
inductive Out where
  | obj (r : Nat)
  /-- the object `NotImplemented` itself -/
  | notImplemented
  | typeError
  deriving DecidableEq, Repr

/-- `PyNumber_Negative` and the generated function, cppclass.py:2115-2144: what the slot returns is the value. -/
def Prog.negate (P : Prog D X) (h : Heap D X) (a : Val D X) : Heap D X × Out :=
  match P.slot "nb_negative" a with
  | some (_, .unary _ l) =>
    match (runUnary (fun o x => (P.convert o x).isSome) a l false).1 with
    | none => (h, .notImplemented)
    | some c =>
      match P.convert (.cls c.2) a with
      | some self => (h ++ [.inst c.1 (P.neg c self)], .obj h.length)
      | none => (h, .notImplemented)
  | _ => (h, .typeError)

/-- The class whose `tp_richcompare` an object's type has, cppclass.py:2026-2027. -/
def Prog.richSlot (P : Prog D X) : Val D X → Option Nat
  | .inst c _ => (P.mro c).find? fun k => (P.ops k).comparison ≠ []
  | .other _ => none

/-- `swapped_op`, CPython's Objects/object.c. -/
def swap : OpId → OpId
  | .lt => .gt | .le => .ge | .eq => .eq | .ne => .ne | .ge => .le | .gt => .lt

/-- Calling the `tp_richcompare` of `self`, cppclass.py:2596-2630. -/
def Prog.rich (P : Prog D X) (self other : Val D X) (id : OpId) : Option Bool :=
  match P.richSlot self, self, other with
  | some k, .inst c v, .inst d u =>
    runRichcompare (P.ops k) (k ∈ P.mro d) id (fun op => P.cmp k op (P.view c k v) (P.view d k u))
  | _, _, _ => none

/-- `do_richcompare`, CPython's Objects/object.c; `same` tells whether the operands are the same object.  `none` is a
`TypeError`. -/
def Prog.compare (P : Prog D X) (v w : Val D X) (same : Bool) (id : OpId) : Option Bool :=
  let first := P.below w v && (P.richSlot w).isSome
  let r := (if first then P.rich w v (swap id) else none)
  let r := r.or (P.rich v w id)
  let r := r.or (if first then none else P.rich w v (swap id))
  r.or (match id with | .eq => some same | .ne => some !same | _ => none)

/-! ## Specification -/

/-- The object may stand for the operand, and then has this value: a wrapper of the class or of a class derived from
it, or something that converts to the parameter. -/
inductive Fits (P : Prog D X) : Operand → Val D X → D → Prop where
  | cls {c d : Nat} {v : D} (h : c ∈ P.mro d) : Fits P (.cls c) (.inst d v) (P.view d c v)
  | param {id : Nat} {x : Val D X} {y : D} (h : P.param id x = some y) : Fits P (.param id) x y

/-- The operands fit a registered case. -/
def FitsCase (P : Prog D X) (c : Case) (a b : Val D X) (x y : D) : Prop := Fits P (.cls c.left) a x ∧ Fits P c.right b y

/-- The first class, from the object's own class upwards, with registrations given by `req`. -/
def nearest {α : Type} (P : Prog D X) (req : Nat → List α) : Val D X → Option Nat
  | .inst c _ => (P.mro c).find? fun k => (req k).length ≠ 0
  | .other _ => none

def requests {α : Type} (req : Nat → List α) : Option Nat → List α
  | none => []
  | some k => req k

/-- The registrations for binary operator `op`. -/
def Prog.binary (P : Prog D X) (op : Str) (k : Nat) : List Case := requestedBinary k op (P.calls k)

/-- The case asked for by an `add_inplace_numeric_operator` call. -/
def inplaceCase (self : Nat) (op : Str) : Call → Option Case
  | .inplace op' .omitted => if op' = op then some ⟨self, self, .cls self⟩ else none
  | .inplace op' (.param id) | .inplace op' (.spec _ id) => if op' = op then some ⟨self, self, .param id⟩ else none
  | _ => none

def Prog.inplace (P : Prog D X) (op : Str) (k : Nat) : List Case := (P.calls k).filterMap (inplaceCase k op)

def Prog.unary (P : Prog D X) (k : Nat) : List (Nat × Nat) := requestedUnary k ['-'] (P.calls k)

/-- The registrations that count for `a op b`: those of the nearest class of `a` and of the nearest class of `b`,
the latter first if the type of `b` is derived from the type of `a`. -/
def Prog.candidates (P : Prog D X) (op : Str) (a b : Val D X) : List Case :=
  let ka := nearest P (P.binary op) a
  let kb := nearest P (P.binary op) b
  if ka = kb then requests (P.binary op) ka
  else if P.below b a then requests (P.binary op) kb ++ requests (P.binary op) ka
  else requests (P.binary op) ka ++ requests (P.binary op) kb

/-- `c` is the first of `l` that fits. -/
def FirstFit (P : Prog D X) (l : List Case) (a b : Val D X) (c : Case) (x y : D) : Prop :=
  ∃ pre post, l = pre ++ c :: post ∧ FitsCase P c a b x y ∧ ∀ d ∈ pre, ∀ x' y', ¬ FitsCase P d a b x' y'

def NoneFits (P : Prog D X) (l : List Case) (a b : Val D X) : Prop := ∀ d ∈ l, ∀ x y, ¬ FitsCase P d a b x y

/-- The right operand of the registration could be evaluated. -/
def Evaluates : Call → Prop
  | .binary _ _ _ x => ∀ e, x ≠ .badSpec e ∧ x ≠ .other
  | .inplace _ x => ∀ e, x ≠ .badSpec e ∧ x ≠ .other ∧ ∀ c, x ≠ .cls c
  | _ => True

def Prog.Clean (P : Prog D X) : Prop := ∀ k, ∀ c ∈ P.calls k, Evaluates c

/-- The class has registered comparisons. -/
def Compares (P : Prog D X) (k : Nat) : Prop := ∃ op ∈ comparisonNames, .comparison op ∈ P.calls k

/-- The first class, from the object's own class upwards, with registered comparisons. -/
def IsComparer (P : Prog D X) : Val D X → Nat → Prop
  | .inst c _, k => ∃ pre post, P.mro c = pre ++ k :: post ∧ Compares P k ∧ ∀ j ∈ pre, ¬ Compares P j
  | .other _, _ => False

/-- The comparer of `a` compares it with `b` by the C++ operator of `id`, with result `r`: the operator was
registered, and both objects are seen as objects of that class. -/
def ComparesTo (P : Prog D X) (a b : Val D X) (id : OpId) (r : Bool) : Prop :=
  ∃ k x y, IsComparer P a k ∧ .comparison id.symbol ∈ P.calls k ∧ Fits P (.cls k) a x ∧ Fits P (.cls k) b y ∧
    r = P.cmp k id.symbol x y

/-- What Python answers if neither operand does. -/
def byIdentity (same : Bool) : OpId → Option Bool
  | .eq => some same
  | .ne => some !same
  | _ => none

/-- `c` is the first of the unary registrations that fits. -/
def FirstFit1 (P : Prog D X) (l : List (Nat × Nat)) (a : Val D X) (c : Nat × Nat) (x : D) : Prop :=
  ∃ pre post, l = pre ++ c :: post ∧ Fits P (.cls c.2) a x ∧ ∀ d ∈ pre, ∀ x', ¬ Fits P (.cls d.2) a x'

/-! ## Proofs -/

theorem convert_iff (P : Prog D X) (o : Operand) (a : Val D X) (x : D) : P.convert o a = some x ↔ Fits P o a x := by
  constructor
  · intro h
    match o, a with
    | .cls c, .inst d v =>
      simp only [Prog.convert] at h
      split at h
      · rename_i hc; cases h; exact .cls hc
      · cases h
    | .cls c, .other z => cases h
    | .param id, a => exact .param h
  · intro h
    cases h with
    | cls h => simp only [Prog.convert]; rw [if_pos h]
    | param h => exact h

theorem convert_isSome (P : Prog D X) (o : Operand) (a : Val D X) : (P.convert o a).isSome = true ↔ ∃ x, Fits P o a x := by
  rw [Option.isSome_iff_exists]; simp only [convert_iff]

theorem fits_unique {P : Prog D X} {o : Operand} {a : Val D X} {x y : D} (h : Fits P o a x) (h' : Fits P o a y) : x = y := by
  rw [← convert_iff] at h h'; rw [h] at h'; exact Option.some.inj h'

/-- The slot function on a list of cases. -/
theorem callSlot_some (P : Prog D X) (h : Heap D X) (a b : Val D X) (op : Str) (l : List Case) (c : Case) (x y : D)
    (hf : FirstFit P l a b c x y) :
    P.callSlot h a b (.cases op l) = (h ++ [.inst c.result (P.op op c x y).1], some h.length) := by
  obtain ⟨pre, post, hl, ⟨h1, h2⟩, h3⟩ := hf
  have := ((C36_dispatch (fun o x => (P.convert o x).isSome) a b l).1 c).2
    ⟨pre, post, hl, (convert_isSome ..).2 ⟨x, h1⟩, (convert_isSome ..).2 ⟨y, h2⟩, fun d hd hdd => by
      obtain ⟨x', hx'⟩ := (convert_isSome ..).1 hdd.1
      obtain ⟨y', hy'⟩ := (convert_isSome ..).1 hdd.2
      exact h3 d hd x' y' ⟨hx', hy'⟩⟩
  unfold Prog.callSlot
  simp only [this, (convert_iff P _ _ _).2 h1, (convert_iff P _ _ _).2 h2]

theorem callSlot_none (P : Prog D X) (h : Heap D X) (a b : Val D X) (op : Str) (l : List Case)
    (hn : NoneFits P l a b) : P.callSlot h a b (.cases op l) = (h, none) := by
  have := (C36_dispatch (fun o x => (P.convert o x).isSome) a b l).2.1.2 (fun d hd hdd => by
      obtain ⟨x', hx'⟩ := (convert_isSome ..).1 hdd.1
      obtain ⟨y', hy'⟩ := (convert_isSome ..).1 hdd.2
      exact hn d hd x' y' ⟨hx', hy'⟩)
  unfold Prog.callSlot
  simp only [this]

/-- Either some case fits first, or none fits. -/
theorem fit_cases (P : Prog D X) (a b : Val D X) : ∀ (l : List Case),
    (∃ c x y, FirstFit P l a b c x y) ∨ NoneFits P l a b
  | [] => .inr nofun
  | c :: l => by
    by_cases hc : ∃ x y, FitsCase P c a b x y
    · obtain ⟨x, y, h⟩ := hc
      exact .inl ⟨c, x, y, [], l, rfl, h, nofun⟩
    · have hc' : ∀ x y, ¬ FitsCase P c a b x y := fun x y h => hc ⟨x, y, h⟩
      rcases fit_cases P a b l with ⟨d, x, y, pre, post, rfl, h1, h2⟩ | h
      · exact .inl ⟨d, x, y, c :: pre, post, rfl, h1, fun e he => by
          rcases List.mem_cons.1 he with rfl | he
          · exact hc'
          · exact h2 e he⟩
      · exact .inr fun e he => by
          rcases List.mem_cons.1 he with rfl | he
          · exact hc'
          · exact h e he

theorem first_before {α : Type} [DecidableEq α] {pre post p q : List α} {c d : α}
    (hf : FirstOccurrences (pre ++ c :: post) (p ++ c :: q)) (hd : d ∈ p) (hnc : c ∉ pre) : d ∈ pre := by
  have hlt := (List.pairwise_append.1 hf.2.2).2.2 d hd c (by simp)
  by_contra hn
  rw [List.idxOf_append_of_notMem hn, List.idxOf_append_of_notMem hnc] at hlt
  simp at hlt
  omega

/-- Repetitions do not matter. -/
theorem firstFit_firstOccurrences {P : Prog D X} {req cases : List Case} (hf : FirstOccurrences req cases) {a b : Val D X}
    {c : Case} {x y : D} (h : FirstFit P req a b c x y) : FirstFit P cases a b c x y := by
  obtain ⟨pre, post, rfl, h1, h2⟩ := h
  have hc : c ∈ cases := (hf.2.1 c).2 (by simp)
  obtain ⟨p, q, rfl⟩ := List.append_of_mem hc
  refine ⟨p, q, rfl, h1, fun d hd => ?_⟩
  have hnc : c ∉ pre := fun hc => h2 c hc x y h1
  have hdr : d ∈ pre := first_before hf hd hnc
  exact h2 d hdr

theorem noneFits_firstOccurrences {P : Prog D X} {req cases : List Case} (hf : FirstOccurrences req cases) {a b : Val D X}
    (h : NoneFits P req a b) : NoneFits P cases a b := fun d hd => h d ((hf.2.1 d).1 hd)

theorem inplace_keys (cs : List Call) (o : Ops) (op : Str) (hop : op ∉ inplaceNames)
    (ho : lookup o.inplace op = none) : lookup (Operators.run o cs).inplace op = none := by
  induction cs generalizing o with
  | nil => exact ho
  | cons c cs ih =>
    refine ih _ ?_
    cases c with
    | comparison op' => simp only [call, addComparison]; split <;> exact ho
    | binary op' r l x =>
      simp only [call, addBinary]
      split
      · exact ho
      · split
        · exact ho
        · split <;> exact ho
    | unary op' r l => simp only [call, addUnary]; split <;> [exact ho; split <;> exact ho]
    | inplace op' x =>
      simp only [call, addInplace]
      split
      · exact ho
      · next hn =>
        have hne : op ≠ op' := fun e => hop (e ▸ not_not.1 hn)
        split
        · exact (lookup_store_ne _ _ _ _ hne).trans ho
        · exact (lookup_store_ne _ _ _ _ hne).trans ho

theorem binary_isSome_step (o : Ops) (c : Call) (op : Str) (hop : op ∈ binaryNames) (hc : Evaluates c) :
    (lookup (call o c).1.binary op).isSome = ((lookup o.binary op).isSome || (Call.binaryCase o.self op c).isSome) := by
  cases c with
  | comparison op' => simp only [call, addComparison, Call.binaryCase]; split <;> simp
  | inplace op' x =>
    simp only [call, addInplace, Call.binaryCase]
    split
    · simp
    · split <;> simp
  | unary op' r l =>
    simp only [call, addUnary, Call.binaryCase]
    split
    · simp
    · split <;> simp
  | binary op' r l x =>
    simp only [call, addBinary, Call.binaryCase]
    by_cases he : op' = op
    · subst he
      rw [if_neg (by simp [hop])]
      cases x <;> simp only [evalRightBinary, if_true]
      all_goals first
        | (split <;> simp [lookup_store])
        | (exfalso; have := hc .typeError; simp at this; done)
        | (exfalso; rename_i e; exact (hc e).1 rfl)
    · simp only [he, if_false]
      split
      · simp
      · split
        · simp [lookup_store, he]
        · split <;> simp [lookup_store, he]

theorem binary_isSome (op : Str) (hop : op ∈ binaryNames) : ∀ (cs : List Call) (o : Ops), (∀ c ∈ cs, Evaluates c) →
    (lookup (Operators.run o cs).binary op).isSome =
      ((lookup o.binary op).isSome || decide ((cs.filterMap (Call.binaryCase o.self op)).length ≠ 0))
  | [], o, _ => by simp [Operators.run]
  | c :: cs, o, h => by
    have ih := binary_isSome op hop cs (call o c).1 (fun d hd => h d (List.mem_cons_of_mem _ hd))
    have e : Operators.run o (c :: cs) = Operators.run (call o c).1 cs := rfl
    rw [e, ih, binary_isSome_step o c op hop (h c (by simp)), call_self, List.filterMap_cons]
    cases Call.binaryCase o.self op c <;> simp

theorem inplace_step (o : Ops) (c : Call) (op : Str) (hop : op ∈ inplaceNames) (hc : Evaluates c) :
    lookup (call o c).1.inplace op =
      match inplaceCase o.self op c with
      | none => lookup o.inplace op
      | some x => some ((lookup o.inplace op).getD [] ++ [x]) := by
  cases c with
  | comparison op' => simp only [call, addComparison, inplaceCase]; split <;> rfl
  | binary op' r l x =>
    simp only [call, addBinary, inplaceCase]
    split
    · rfl
    · split
      · rfl
      · split <;> rfl
  | unary op' r l =>
    simp only [call, addUnary, inplaceCase]
    split
    · rfl
    · split <;> rfl
  | inplace op' x =>
    simp only [call, addInplace]
    by_cases he : op' = op
    · subst he
      rw [if_neg (by simp [hop])]
      cases x with
      | omitted => simp [inplaceCase, evalRightInplace, lookup_store]
      | param id => simp [inplaceCase, evalRightInplace, lookup_store]
      | spec t id => simp [inplaceCase, evalRightInplace, lookup_store]
      | cls c => exact absurd rfl ((hc .typeError).2.2 c)
      | badSpec e => exact absurd rfl (hc e).1
      | other => exact absurd rfl (hc .typeError).2.1
    · have hi : inplaceCase o.self op (.inplace op' x) = none := by cases x <;> simp [inplaceCase, he]
      rw [hi]
      split
      · rfl
      · split <;> simp [lookup_store, he]

theorem inplace_table (op : Str) (hop : op ∈ inplaceNames) : ∀ (cs : List Call) (o : Ops), (∀ c ∈ cs, Evaluates c) →
    lookup (Operators.run o cs).inplace op =
      if (cs.filterMap (inplaceCase o.self op)).length = 0 then lookup o.inplace op
      else some ((lookup o.inplace op).getD [] ++ cs.filterMap (inplaceCase o.self op))
  | [], o, _ => by simp [Operators.run]
  | c :: cs, o, h => by
    have ih := inplace_table op hop cs (call o c).1 (fun d hd => h d (List.mem_cons_of_mem _ hd))
    have e : Operators.run o (c :: cs) = Operators.run (call o c).1 cs := rfl
    rw [e, ih, inplace_step o c op hop (h c (by simp)), call_self, List.filterMap_cons]
    cases inplaceCase o.self op c with
    | none => rfl
    | some x =>
      simp only [List.length_cons, Option.getD_some]
      split
      · rename_i h0; rw [List.length_eq_zero_iff.1 h0]; simp
      · simp

theorem find_binarySlot (o : Ops) (op : Str) (s t : String) :
    (binarySlot o op s).find? (fun e => decide (e.1 = t)) =
      if s = t then (binarySlot o op s).head? else none := by
  unfold binarySlot
  cases lookup o.binary op with
  | some l => by_cases h : s = t <;> simp [h]
  | none =>
    cases lookup o.inplace op with
    | some l => by_cases h : s = t <;> simp [h]
    | none => simp

theorem find_unarySlot (o : Ops) (op : Str) (s t : String) :
    (unarySlot o op s).find? (fun e => decide (e.1 = t)) = if s = t then (unarySlot o op s).head? else none := by
  unfold unarySlot
  cases lookup o.unary op with
  | some l => by_cases h : s = t <;> simp [h]
  | none => simp

theorem binarySlot_head (o : Ops) (op : Str) (s : String) (hi : lookup o.inplace op = none) :
    ((binarySlot o op s).head?).map (·.2) = (lookup o.binary op).map (SlotImpl.cases op) := by
  unfold binarySlot
  cases lookup o.binary op with
  | some l => rfl
  | none => rw [hi]; rfl

theorem binarySlot_head' (o : Ops) (op : Str) (s : String) (hb : lookup o.binary op = none) :
    ((binarySlot o op s).head?).map (·.2) = (lookup o.inplace op).map (SlotImpl.cases op) := by
  unfold binarySlot
  rw [hb]
  cases lookup o.inplace op <;> rfl

theorem unarySlot_head (o : Ops) (op : Str) (s : String) :
    ((unarySlot o op s).head?).map (·.2) = (lookup o.unary op).map (SlotImpl.unary op) := by
  unfold unarySlot
  cases lookup o.unary op <;> rfl

theorem lookup_nil {α : Type} (k : Str) : lookup ([] : List (Str × List α)) k = none := rfl

theorem slotOf_names {op : Str} {s : String} (h : slotOf op = some s) :
    op ∈ binaryNames ∧ op ∉ inplaceNames := by
  unfold slotOf at h
  split at h
  · rename_i e; subst e; decide
  · split at h
    · rename_i e; subst e; decide
    · split at h
      · rename_i e; subst e; decide
      · split at h
        · rename_i e; subst e; decide
        · cases h

theorem inplaceSlotOf_names {op : Str} {s : String} (h : inplaceSlotOf op = some s) :
    op ∈ inplaceNames ∧ op ∉ binaryNames := by
  unfold inplaceSlotOf at h
  split at h
  · rename_i e; subst e; decide
  · split at h
    · rename_i e; subst e; decide
    · split at h
      · rename_i e; subst e; decide
      · split at h
        · rename_i e; subst e; decide
        · cases h

/-- The slot of an operator, found in the table. -/
theorem find_number {op : Str} {slot : String} (o : Ops) (hs : slotOf op = some slot ∨ inplaceSlotOf op = some slot) :
    (numberMethods o).find? (fun e => decide (e.1 = slot)) = (binarySlot o op slot).head? := by
  unfold numberMethods
  simp only [List.find?_append, find_binarySlot, find_unarySlot]
  rcases hs with hs | hs
  · unfold slotOf at hs
    split at hs
    · rename_i e; subst e; cases hs; simp
    · split at hs
      · rename_i e; subst e; cases hs; simp
      · split at hs
        · rename_i e; subst e; cases hs; simp
        · split at hs
          · rename_i e; subst e; cases hs; simp
          · cases hs
  · unfold inplaceSlotOf at hs
    split at hs
    · rename_i e; subst e; cases hs; simp
    · split at hs
      · rename_i e; subst e; cases hs; simp
      · split at hs
        · rename_i e; subst e; cases hs; simp
        · split at hs
          · rename_i e; subst e; cases hs; simp
          · cases hs

theorem find_negative (o : Ops) :
    (numberMethods o).find? (fun e => decide (e.1 = "nb_negative")) = (unarySlot o ['-'] "nb_negative").head? := by
  unfold numberMethods
  simp only [List.find?_append, find_binarySlot, find_unarySlot]
  simp

/-- The slot of a binary operator is there exactly if something was registered for it. -/
theorem ownSlot_binary (P : Prog D X) (hP : P.Clean) {op : Str} {slot : String} (hs : slotOf op = some slot) (k : Nat) :
    ∃ l, FirstOccurrences (P.binary op k) l ∧
      P.ownSlot slot k = if (P.binary op k).length ≠ 0 then some (.cases op l) else none := by
  obtain ⟨hb, hi⟩ := slotOf_names hs
  refine ⟨(lookup (P.ops k).binary op).getD [], (C36_cases k (P.calls k)).1 op hb, ?_⟩
  have hsome := binary_isSome op hb (P.calls k) { self := k } (hP k)
  simp only [lookup_nil, Option.isSome_none, Bool.false_or] at hsome
  change (lookup (P.ops k).binary op).isSome = decide ((P.binary op k).length ≠ 0) at hsome
  have hin : lookup (P.ops k).inplace op = none := inplace_keys _ _ op hi rfl
  unfold Prog.ownSlot tpAsNumber
  split
  · rename_i h
    have hnil : (P.ops k).binary = [] := by
      by_contra hne
      rw [if_pos (.inl hne)] at h; cases h
    rw [hnil, lookup_nil] at hsome
    rw [if_neg]
    intro hne
    simp [hne] at hsome
  · rename_i l h
    split at h
    · cases h
      rw [find_number _ (.inl hs), binarySlot_head _ _ _ hin]
      cases hl : lookup (P.ops k).binary op with
      | none => rw [hl] at hsome; rw [if_neg (fun hne => by simp [hne] at hsome)]; rfl
      | some l => rw [hl] at hsome; rw [if_pos (by simpa using hsome.symm)]; rfl
    · cases h

theorem ownSlot_inplace (P : Prog D X) (hP : P.Clean) {op : Str} {slot : String} (hs : inplaceSlotOf op = some slot) (k : Nat) :
    P.ownSlot slot k = if (P.inplace op k).length ≠ 0 then some (.cases op (P.inplace op k)) else none := by
  obtain ⟨hi, hb⟩ := inplaceSlotOf_names hs
  have ht := inplace_table op hi (P.calls k) { self := k } (hP k)
  simp only [lookup_nil, Option.getD_none, List.nil_append] at ht
  change lookup (P.ops k).inplace op = if (P.inplace op k).length = 0 then none else some (P.inplace op k) at ht
  have hbn : lookup (P.ops k).binary op = none := binary_keys _ _ op hb rfl
  unfold Prog.ownSlot tpAsNumber
  split
  · rename_i h
    have hnil : (P.ops k).inplace = [] := by
      by_contra hne
      rw [if_pos (.inr hne)] at h; cases h
    rw [hnil, lookup_nil] at ht
    rw [if_neg]
    intro hne
    rw [if_neg hne] at ht; cases ht
  · rename_i l h
    split at h
    · cases h
      rw [find_number _ (.inr hs), binarySlot_head' _ _ _ hbn, ht]
      by_cases h0 : (P.inplace op k).length = 0
      · rw [if_pos h0, if_neg (fun h => h h0)]; rfl
      · rw [if_neg h0, if_pos h0]; rfl
    · cases h

theorem findSome_find {α : Type} (p : Nat → Bool) (f : Nat → Option α) : ∀ (l : List Nat),
    (∀ k ∈ l, (f k).isSome = p k) → l.findSome? (fun k => (f k).map (fun y => (k, y))) = (l.find? p).bind (fun k => (f k).map (fun y => (k, y)))
  | [], _ => rfl
  | k :: l, h => by
    have hk := h k (by simp)
    rw [List.findSome?_cons, List.find?_cons]
    cases hf : f k with
    | none =>
      rw [hf] at hk
      rw [← hk]
      exact findSome_find p f l (fun j hj => h j (List.mem_cons_of_mem _ hj))
    | some y =>
      rw [hf] at hk
      rw [← hk]
      simp [hf]

/-- The slot of an object for a binary operator. -/
theorem slot_binary (P : Prog D X) (hP : P.Clean) {op : Str} {slot : String} (hs : slotOf op = some slot) (a : Val D X) :
    (nearest P (P.binary op) a = none ∧ P.slot slot a = none) ∨
    ∃ k l, nearest P (P.binary op) a = some k ∧ P.slot slot a = some (k, .cases op l) ∧ FirstOccurrences (P.binary op k) l := by
  match a with
  | .other x => exact .inl ⟨rfl, rfl⟩
  | .inst c v =>
    have key := findSome_find (fun k => decide ((P.binary op k).length ≠ 0)) (P.ownSlot slot) (P.mro c) (fun k _ => by
      obtain ⟨l, _, he⟩ := ownSlot_binary P hP hs k
      rw [he]
      by_cases h : (P.binary op k).length ≠ 0
      · rw [if_pos h]; simp [h]
      · rw [if_neg h]; simp [not_not.1 h])
    change P.slot slot (.inst c v) = (nearest P (P.binary op) (.inst c v)).bind _ at key
    cases hn : nearest P (P.binary op) (.inst c v) with
    | none => rw [hn] at key; exact .inl ⟨rfl, key⟩
    | some k =>
      rw [hn] at key
      obtain ⟨l, hl, he⟩ := ownSlot_binary P hP hs k
      have hk : (P.binary op k).length ≠ 0 := by
        have := List.find?_some hn
        simpa using this
      rw [if_pos hk] at he
      refine .inr ⟨k, l, rfl, ?_, hl⟩
      rw [key]
      simp [he]

theorem slot_inplace (P : Prog D X) (hP : P.Clean) {op : Str} {slot : String} (hs : inplaceSlotOf op = some slot) (a : Val D X) :
    (nearest P (P.inplace op) a = none ∧ P.slot slot a = none) ∨
    ∃ k, nearest P (P.inplace op) a = some k ∧ P.slot slot a = some (k, .cases op (P.inplace op k)) := by
  match a with
  | .other x => exact .inl ⟨rfl, rfl⟩
  | .inst c v =>
    have key := findSome_find (fun k => decide ((P.inplace op k).length ≠ 0)) (P.ownSlot slot) (P.mro c) (fun k _ => by
      rw [ownSlot_inplace P hP hs k]
      by_cases h : (P.inplace op k).length ≠ 0
      · rw [if_pos h]; simp [h]
      · rw [if_neg h]; simp [not_not.1 h])
    change P.slot slot (.inst c v) = (nearest P (P.inplace op) (.inst c v)).bind _ at key
    cases hn : nearest P (P.inplace op) (.inst c v) with
    | none => rw [hn] at key; exact .inl ⟨rfl, key⟩
    | some k =>
      rw [hn] at key
      have he := ownSlot_inplace P hP hs k
      have hk : (P.inplace op k).length ≠ 0 := by
        have := List.find?_some hn
        simpa using this
      rw [if_pos hk] at he
      refine .inr ⟨k, rfl, ?_⟩
      rw [key]
      simp [he]

theorem firstFit_append_left {P : Prog D X} {l m : List Case} {a b : Val D X} {c : Case} {x y : D}
    (h : FirstFit P l a b c x y) : FirstFit P (l ++ m) a b c x y := by
  obtain ⟨pre, post, rfl, h1, h2⟩ := h
  exact ⟨pre, post ++ m, by simp, h1, h2⟩

theorem firstFit_append_right {P : Prog D X} {l m : List Case} {a b : Val D X} {c : Case} {x y : D}
    (hl : NoneFits P l a b) (h : FirstFit P m a b c x y) : FirstFit P (l ++ m) a b c x y := by
  obtain ⟨pre, post, rfl, h1, h2⟩ := h
  refine ⟨l ++ pre, post, by simp, h1, fun d hd => ?_⟩
  rcases List.mem_append.1 hd with hd | hd
  · exact hl d hd
  · exact h2 d hd

theorem noneFits_append {P : Prog D X} {l m : List Case} {a b : Val D X} (hl : NoneFits P l a b) (hm : NoneFits P m a b) :
    NoneFits P (l ++ m) a b := fun d hd => by
  rcases List.mem_append.1 hd with hd | hd
  · exact hl d hd
  · exact hm d hd

/-- The outcome of trying a list of registrations. -/
def Tried (P : Prog D X) (op : Str) (h : Heap D X) (l : List Case) (a b : Val D X) (r : Heap D X × Option Nat) : Prop :=
  (∃ c x y, FirstFit P l a b c x y ∧ r = (h ++ [.inst c.result (P.op op c x y).1], some h.length)) ∨
  (NoneFits P l a b ∧ r = (h, none))

theorem tried_slot (P : Prog D X) (op : Str) (h : Heap D X) {req l : List Case} (hf : FirstOccurrences req l) (a b : Val D X) :
    Tried P op h req a b (P.callSlot h a b (.cases op l)) := by
  rcases fit_cases P a b req with ⟨c, x, y, hc⟩ | hn
  · exact .inl ⟨c, x, y, hc, callSlot_some P h a b op l c x y (firstFit_firstOccurrences hf hc)⟩
  · exact .inr ⟨hn, callSlot_none P h a b op l (noneFits_firstOccurrences hf hn)⟩

/-- First one list of registrations, then another. -/
theorem Tried.orElse {P : Prog D X} {op : Str} {h : Heap D X} {l m : List Case} {a b : Val D X} {r q : Heap D X × Option Nat}
    (hr : Tried P op h l a b r) (hq : Tried P op h m a b q) :
    Tried P op h (l ++ m) a b (orTry r q) := by
  rcases hr with ⟨c, x, y, hc, rfl⟩ | ⟨hn, rfl⟩
  · exact .inl ⟨c, x, y, firstFit_append_left hc, rfl⟩
  · rcases hq with ⟨c, x, y, hc, rfl⟩ | ⟨hm, rfl⟩
    · exact .inl ⟨c, x, y, firstFit_append_right hn hc, rfl⟩
    · exact .inr ⟨noneFits_append hn hm, rfl⟩

/-- C112, binary operators: `a op b` in Python is the C++ operator of the first registration that fits, among those of
the nearest class of `a` and the nearest class of `b` for which the operator was registered (those of `b` first if its
type is derived from that of `a`).  The result is a new object; no other object changes.  If none fits, a `TypeError`
is raised.  Partial: registrations whose right operand cannot be evaluated are excluded, and registrations hidden by
those of a nearer class are not found (see the counterexamples). -/
theorem C112_binary_partial (P : Prog D X) (hP : P.Clean) (op : Str) (slot : String) (hs : slotOf op = some slot)
    (h : Heap D X) (a b : Val D X) :
    (∃ c x y, FirstFit P (P.candidates op a b) a b c x y ∧
      P.binop h slot a b = (h ++ [.inst c.result (P.op op c x y).1], some h.length)) ∨
    (NoneFits P (P.candidates op a b) a b ∧ P.binop h slot a b = (h, none)) := by
  change Tried P op h (P.candidates op a b) a b (P.binop h slot a b)
  unfold Prog.binop Prog.candidates
  rcases slot_binary P hP hs a with ⟨na, sa⟩ | ⟨ka, la, na, sa, fa⟩ <;>
    rcases slot_binary P hP hs b with ⟨nb, sb⟩ | ⟨kb, lb, nb, sb, fb⟩
  · simp only [na, nb, sa, sb, requests]
    exact .inr ⟨nofun, rfl⟩
  · simp only [na, nb, sa, sb, requests, Option.map_some, Option.map_none]
    simp only [reduceCtorEq, if_false, List.append_nil, List.nil_append, ite_self]
    exact tried_slot P op h fb a b
  · simp only [na, nb, sa, sb, requests, Option.map_some, Option.map_none]
    simp only [reduceCtorEq, if_false, List.append_nil, List.nil_append, ite_self]
    exact tried_slot P op h fa a b
  · simp only [na, nb, sa, sb, requests, Option.map_some, Option.some.injEq]
    by_cases hk : ka = kb
    · subst hk
      simp only [if_true]
      exact tried_slot P op h fa a b
    · rw [if_neg hk, if_neg (show ¬ kb = ka from fun e => hk e.symm)]
      by_cases hb : P.below b a
      · simp only [hb, if_true]
        exact (tried_slot P op h fb a b).orElse (tried_slot P op h fa a b)
      · simp only [hb]
        exact (tried_slot P op h fa a b).orElse (tried_slot P op h fb a b)

theorem firstOccurrences_refl_fit {P : Prog D X} {op : Str} {h : Heap D X} (l : List Case) (a b : Val D X) :
    Tried P op h l a b (P.callSlot h a b (.cases op l)) := by
  rcases fit_cases P a b l with ⟨c, x, y, hc⟩ | hn
  · exact .inl ⟨c, x, y, hc, callSlot_some P h a b op l c x y hc⟩
  · exact .inr ⟨hn, callSlot_none P h a b op l hn⟩

/-- C112, augmented assignment: `x op= y` makes `x` refer to a new object, the result of the C++ operator `op=` of the
first in-place registration of the nearest class of `x` that fits, or else of the binary operator `op`.  No object
changes, and no other name.  A `TypeError` is raised, and nothing changes, if nothing fits. -/
theorem C112_inplace_partial (P : Prog D X) (hP : P.Clean) (iop op : Str) (islot slot : String)
    (hi : inplaceSlotOf iop = some islot) (hs : slotOf op = some slot) (s : State D X) (x y : Nat) (a b : Val D X)
    (ha : s.heap[s.env x]? = some a) (hb : s.heap[s.env y]? = some b) :
    let own := requests (P.inplace iop) (nearest P (P.inplace iop) a)
    (∃ c u v, FirstFit P own a b c u v ∧ P.augAssign s islot slot x y =
      some { env := fun z => if z = x then s.heap.length else s.env z
             heap := s.heap ++ [.inst c.result (P.op iop c u v).1] }) ∨
    (NoneFits P own a b ∧ ∃ c u v, FirstFit P (P.candidates op a b) a b c u v ∧ P.augAssign s islot slot x y =
      some { env := fun z => if z = x then s.heap.length else s.env z
             heap := s.heap ++ [.inst c.result (P.op op c u v).1] }) ∨
    (NoneFits P own a b ∧ NoneFits P (P.candidates op a b) a b ∧ P.augAssign s islot slot x y = none) := by
  intro own
  have hbin := C112_binary_partial P hP op slot hs s.heap a b
  unfold Prog.augAssign
  simp only [ha, hb]
  rcases slot_inplace P hP hi a with ⟨na, sa⟩ | ⟨k, na, sa⟩
  · have hown : own = [] := by show requests _ (nearest P (P.inplace iop) a) = []; rw [na]; rfl
    have hn : NoneFits P own a b := by rw [hown]; exact nofun
    have hio : P.iop s.heap islot slot a b = P.binop s.heap slot a b := by unfold Prog.iop; rw [sa]
    rw [hio]
    rcases hbin with ⟨c, u, v, hc, he⟩ | ⟨hm, he⟩
    · exact .inr (.inl ⟨hn, c, u, v, hc, by rw [he]⟩)
    · exact .inr (.inr ⟨hn, hm, by rw [he]⟩)
  · have hown : own = P.inplace iop k := by show requests _ (nearest P (P.inplace iop) a) = _; rw [na]; rfl
    rcases firstOccurrences_refl_fit (P := P) (op := iop) (h := s.heap) (P.inplace iop k) a b with ⟨c, u, v, hc, he⟩ | ⟨hn, he⟩
    · left
      refine ⟨c, u, v, hown ▸ hc, ?_⟩
      have hio : P.iop s.heap islot slot a b = (s.heap ++ [.inst c.result (P.op iop c u v).1], some s.heap.length) := by
        unfold Prog.iop; rw [sa]; simp only [he, orTry]
      rw [hio]
    · right
      have hio : P.iop s.heap islot slot a b = P.binop s.heap slot a b := by
        unfold Prog.iop; rw [sa]; simp only [he, orTry]
      rw [hio]
      rcases hbin with ⟨c, u, v, hc, he⟩ | ⟨hm, he⟩
      · exact .inl ⟨hown ▸ hn, c, u, v, hc, by rw [he]⟩
      · exact .inr ⟨hown ▸ hn, hm, by rw [he]⟩

/-! ### Unary minus -/

theorem unary_isSome_step (o : Ops) (c : Call) :
    (lookup (call o c).1.unary ['-']).isSome = ((lookup o.unary ['-']).isSome || (Call.unaryCase o.self ['-'] c).isSome) := by
  cases c with
  | comparison op' => simp only [call, addComparison, Call.unaryCase]; split <;> simp
  | inplace op' x =>
    simp only [call, addInplace, Call.unaryCase]
    split
    · simp
    · split <;> simp
  | binary op' r l x =>
    simp only [call, addBinary, Call.unaryCase]
    split
    · simp
    · split
      · simp
      · split <;> simp
  | unary op' r l =>
    simp only [call, addUnary, Call.unaryCase]
    by_cases he : op' = ['-']
    · subst he
      rw [if_neg (by simp [unaryNames])]
      split <;> simp [lookup_store]
    · simp only [he, if_false]
      split
      · simp
      · split <;> simp [lookup_store, he]

theorem unary_isSome : ∀ (cs : List Call) (o : Ops),
    (lookup (Operators.run o cs).unary ['-']).isSome =
      ((lookup o.unary ['-']).isSome || decide ((cs.filterMap (Call.unaryCase o.self ['-'])).length ≠ 0))
  | [], o => by simp [Operators.run]
  | c :: cs, o => by
    have ih := unary_isSome cs (call o c).1
    have e : Operators.run o (c :: cs) = Operators.run (call o c).1 cs := rfl
    rw [e, ih, unary_isSome_step o c, call_self, List.filterMap_cons]
    cases Call.unaryCase o.self ['-'] c <;> simp

/-- The class has a binary or in-place operator besides unary minus. -/
def HasBinary (P : Prog D X) (k : Nat) : Prop :=
  (∃ op ∈ binaryNames, (P.binary op k).length ≠ 0) ∨ ∃ op ∈ inplaceNames, (P.inplace op k).length ≠ 0

theorem hasBinary_table {P : Prog D X} (hP : P.Clean) {k : Nat} (h : HasBinary P k) :
    (P.ops k).binary ≠ [] ∨ (P.ops k).inplace ≠ [] := by
  rcases h with ⟨op, hop, h⟩ | ⟨op, hop, h⟩
  · left
    intro hn
    have := binary_isSome op hop (P.calls k) { self := k } (hP k)
    change (lookup (P.ops k).binary op).isSome = _ at this
    rw [hn] at this
    have h' : (List.filterMap (Call.binaryCase k op) (P.calls k)).length ≠ 0 := h
    simp only [lookup_nil, Option.isSome_none, Bool.false_or, h', ne_eq, not_false_eq_true, decide_true] at this
    cases this
  · right
    intro hn
    have := inplace_table op hop (P.calls k) { self := k } (hP k)
    change lookup (P.ops k).inplace op = _ at this
    rw [hn] at this
    have h' : (List.filterMap (inplaceCase k op) (P.calls k)).length ≠ 0 := h
    rw [if_neg h'] at this
    simp [lookup_nil] at this

theorem ownSlot_unary (P : Prog D X) (hP : P.Clean) (k : Nat) (hb : (P.unary k).length ≠ 0 → HasBinary P k) :
    ∃ l, FirstOccurrences (P.unary k) l ∧
      P.ownSlot "nb_negative" k = if (P.unary k).length ≠ 0 then some (.unary ['-'] l) else none := by
  refine ⟨(lookup (P.ops k).unary ['-']).getD [], (C36_cases k (P.calls k)).2 ['-'] (by simp [unaryNames]), ?_⟩
  have hsome := unary_isSome (P.calls k) { self := k }
  simp only [lookup_nil, Option.isSome_none, Bool.false_or] at hsome
  change (lookup (P.ops k).unary ['-']).isSome = decide ((P.unary k).length ≠ 0) at hsome
  unfold Prog.ownSlot tpAsNumber
  split
  · rename_i h
    rw [if_neg]
    intro hne
    rw [if_pos (hasBinary_table hP (hb hne))] at h
    cases h
  · rename_i l h
    split at h
    · cases h
      rw [find_negative, unarySlot_head]
      cases hl : lookup (P.ops k).unary ['-'] with
      | none => rw [hl] at hsome; rw [if_neg (fun hne => by simp [hne] at hsome)]; rfl
      | some l => rw [hl] at hsome; rw [if_pos (by simpa using hsome.symm)]; rfl
    · cases h

theorem firstFit1_firstOccurrences {P : Prog D X} {req cases : List (Nat × Nat)} (hf : FirstOccurrences req cases) {a : Val D X}
    {c : Nat × Nat} {x : D} (h : FirstFit1 P req a c x) : FirstFit1 P cases a c x := by
  obtain ⟨pre, post, rfl, h1, h2⟩ := h
  have hc : c ∈ cases := (hf.2.1 c).2 (by simp)
  obtain ⟨p, q, rfl⟩ := List.append_of_mem hc
  refine ⟨p, q, rfl, h1, fun d hd => ?_⟩
  have hnc : c ∉ pre := fun hc => h2 c hc x h1
  have hdr : d ∈ pre := first_before hf hd hnc
  exact h2 d hdr

theorem fit1_cases (P : Prog D X) (a : Val D X) : ∀ (l : List (Nat × Nat)),
    (∃ c x, FirstFit1 P l a c x) ∨ ∀ d ∈ l, ∀ x, ¬ Fits P (.cls d.2) a x
  | [] => .inr nofun
  | c :: l => by
    by_cases hc : ∃ x, Fits P (.cls c.2) a x
    · obtain ⟨x, h⟩ := hc
      exact .inl ⟨c, x, [], l, rfl, h, nofun⟩
    · have hc' : ∀ x, ¬ Fits P (.cls c.2) a x := fun x h => hc ⟨x, h⟩
      rcases fit1_cases P a l with ⟨d, x, pre, post, rfl, h1, h2⟩ | h
      · exact .inl ⟨d, x, c :: pre, post, rfl, h1, fun e he => by
          rcases List.mem_cons.1 he with rfl | he
          · exact hc'
          · exact h2 e he⟩
      · exact .inr fun e he => by
          rcases List.mem_cons.1 he with rfl | he
          · exact hc'
          · exact h e he

/-- C112, unary minus: `-a` is the C++ operator of the first registration of the nearest class of `a` that fits; with no
registration a `TypeError` is raised.  Partial: only for classes that have a binary or in-place operator besides unary
minus, and if registrations exist but none fits, the value is the object `NotImplemented`. -/
theorem C112_negate_partial (P : Prog D X) (hP : P.Clean) (hb : ∀ k, (P.unary k).length ≠ 0 → HasBinary P k)
    (h : Heap D X) (a : Val D X) :
    (nearest P P.unary a = none ∧ P.negate h a = (h, .typeError)) ∨
    ∃ k, nearest P P.unary a = some k ∧
      ((∃ c x, FirstFit1 P (P.unary k) a c x ∧ P.negate h a = (h ++ [.inst c.1 (P.neg c x)], .obj h.length)) ∨
        ((∀ c ∈ P.unary k, ∀ x, ¬ Fits P (.cls c.2) a x) ∧ P.negate h a = (h, .notImplemented))) := by
  match a with
  | .other x => exact .inl ⟨rfl, rfl⟩
  | .inst c v =>
    have key := findSome_find (fun k => decide ((P.unary k).length ≠ 0)) (P.ownSlot "nb_negative") (P.mro c) (fun k _ => by
      obtain ⟨l, _, he⟩ := ownSlot_unary P hP k (hb k)
      rw [he]
      by_cases h : (P.unary k).length ≠ 0
      · rw [if_pos h]; simp [h]
      · rw [if_neg h]; simp [not_not.1 h])
    change P.slot "nb_negative" (.inst c v) = (nearest P P.unary (.inst c v)).bind _ at key
    cases hn : nearest P P.unary (.inst c v) with
    | none =>
      rw [hn] at key
      refine .inl ⟨rfl, ?_⟩
      unfold Prog.negate
      rw [key]; rfl
    | some k =>
      rw [hn] at key
      obtain ⟨l, hl, he⟩ := ownSlot_unary P hP k (hb k)
      have hk : (P.unary k).length ≠ 0 := by
        have := List.find?_some hn
        simpa using this
      rw [if_pos hk] at he
      have hsl : P.slot "nb_negative" (.inst c v) = some (k, .unary ['-'] l) := by rw [key]; simp [he]
      refine .inr ⟨k, rfl, ?_⟩
      unfold Prog.negate
      rw [hsl]
      simp only
      have hd := C36_unary_dispatch (fun o x => (P.convert o x).isSome) (Val.inst (X := X) c v) l
      rcases fit1_cases P (.inst c v) (P.unary k) with ⟨d, x, hf⟩ | hnone
      · left
        refine ⟨d, x, hf, ?_⟩
        obtain ⟨pre, post, hl', h1, h2⟩ := firstFit1_firstOccurrences hl hf
        have := (hd.1 d).2 ⟨pre, post, hl', (convert_isSome ..).2 ⟨x, h1⟩, fun e he hee => by
          obtain ⟨x', hx'⟩ := (convert_isSome ..).1 hee
          exact h2 e he x' hx'⟩
        simp only [this, (convert_iff P _ _ _).2 h1]
      · right
        refine ⟨hnone, ?_⟩
        have := hd.2.1.2 (fun e he hee => by
          obtain ⟨x', hx'⟩ := (convert_isSome ..).1 hee
          exact hnone e ((hl.2.1 e).1 he) x' hx')
        simp only [this]

/-! ### Comparisons -/

theorem comparison_mem (op : Str) (hop : op ∈ comparisonNames) : ∀ (cs : List Call) (o : Ops),
    (op ∈ (Operators.run o cs).comparison ↔ op ∈ o.comparison ∨ .comparison op ∈ cs)
  | [], o => by simp [Operators.run]
  | c :: cs, o => by
    have e : Operators.run o (c :: cs) = Operators.run (call o c).1 cs := rfl
    rw [e, comparison_mem op hop cs]
    have h1 : op ∈ (call o c).1.comparison ↔ op ∈ o.comparison ∨ .comparison op = c := by
      cases c with
      | comparison op' =>
        simp only [call, addComparison, Call.comparison.injEq]
        split
        · rename_i hn
          constructor
          · exact .inl
          · rintro (h | rfl)
            · exact h
            · exact absurd hop hn
        · simp only
          split
          · rename_i hin
            constructor
            · exact .inl
            · rintro (h | rfl)
              · exact h
              · exact hin
          · simp
      | binary op' r l x =>
        simp only [call, addBinary, reduceCtorEq, or_false]
        split
        · rfl
        · split
          · rfl
          · split <;> rfl
      | inplace op' x =>
        simp only [call, addInplace, reduceCtorEq, or_false]
        split
        · rfl
        · split <;> rfl
      | unary op' r l =>
        simp only [call, addUnary, reduceCtorEq, or_false]
        split
        · rfl
        · split <;> rfl
    rw [h1, List.mem_cons]
    tauto

theorem comparison_names : ∀ (cs : List Call) (o : Ops), (∀ op ∈ o.comparison, op ∈ comparisonNames) →
    ∀ op ∈ (Operators.run o cs).comparison, op ∈ comparisonNames
  | [], o, h => h
  | c :: cs, o, h => by
    refine comparison_names cs (call o c).1 ?_
    cases c with
    | comparison op' =>
      simp only [call, addComparison]
      split
      · exact h
      · rename_i hn
        simp only
        split
        · exact h
        · intro op hop
          rcases List.mem_append.1 hop with hop | hop
          · exact h op hop
          · rw [List.mem_singleton.1 hop]; exact not_not.1 hn
    | binary op' r l x =>
      simp only [call, addBinary]
      split
      · exact h
      · split
        · exact h
        · split <;> exact h
    | inplace op' x =>
      simp only [call, addInplace]
      split
      · exact h
      · split <;> exact h
    | unary op' r l =>
      simp only [call, addUnary]
      split
      · exact h
      · split <;> exact h

theorem compares_iff (P : Prog D X) (k : Nat) : (P.ops k).comparison ≠ [] ↔ Compares P k := by
  constructor
  · intro h
    obtain ⟨op, hop⟩ := List.exists_mem_of_ne_nil _ h
    have hn := comparison_names (P.calls k) { self := k } nofun op hop
    refine ⟨op, hn, ?_⟩
    have := (comparison_mem op hn (P.calls k) { self := k }).1 hop
    simpa using this
  · rintro ⟨op, hn, h⟩ he
    have := (comparison_mem op hn (P.calls k) { self := k }).2 (.inr h)
    change op ∈ (P.ops k).comparison at this
    rw [he] at this
    cases this

theorem richSlot_iff (P : Prog D X) (a : Val D X) (k : Nat) : P.richSlot a = some k ↔ IsComparer P a k := by
  match a with
  | .other x => simp [Prog.richSlot, IsComparer]
  | .inst c v =>
    simp only [Prog.richSlot, IsComparer, List.find?_eq_some_iff_append]
    simp only [decide_eq_true_eq, compares_iff, Bool.not_eq_true', decide_eq_false_iff_not]
    constructor
    · rintro ⟨h1, pre, post, h2, h3⟩; exact ⟨pre, post, h2, h1, h3⟩
    · rintro ⟨pre, post, h2, h1, h3⟩; exact ⟨h1, pre, post, h2, h3⟩

theorem rich_iff (P : Prog D X) (a b : Val D X) (id : OpId) (r : Bool) : P.rich a b id = some r ↔ ComparesTo P a b id r := by
  unfold Prog.rich ComparesTo
  split
  · rename_i k c v d u hk
    rw [show P.ops k = Operators.run { self := k } (P.calls k) from rfl, C36_richcompare]
    constructor
    · rintro ⟨h1, ⟨x, hx, rfl⟩, rfl⟩
      have hc : k ∈ P.mro c := by
        obtain ⟨pre, post, he, _⟩ := (richSlot_iff P _ k).1 hk
        rw [he]; simp
      exact ⟨k, _, _, (richSlot_iff P _ k).1 hk, hx, .cls hc, .cls (by simpa using h1), rfl⟩
    · rintro ⟨k', x, y, hk', hx, f1, f2, rfl⟩
      have hkk := (richSlot_iff P _ k').2 hk'
      rw [hk] at hkk
      cases hkk
      cases f1 with
      | cls h1 => cases f2 with
        | cls h2 => exact ⟨by simpa using h2, ⟨_, hx, rfl⟩, rfl⟩
  · rename_i hno
    constructor
    · intro h; cases h
    · rintro ⟨k, x, y, hk, _, f1, f2, _⟩
      cases f1 with
      | cls h1 => cases f2 with
        | cls h2 => exact absurd rfl (hno k _ _ _ _ ((richSlot_iff P _ k).2 hk) rfl)

/-- C112, comparisons, exactly: Python asks `a` with the operator itself and `b` with the reflected one, `b` first if
its type is derived from that of `a` and has comparisons; the first answer counts, and if there is none `==` and `!=`
compare identities and the others raise a `TypeError`. -/
theorem C112_compare (P : Prog D X) (a b : Val D X) (same : Bool) (id : OpId) (out : Option Bool) :
    P.compare a b same id = out ↔
      let direct := ComparesTo P a b id
      let reflected := ComparesTo P b a (swap id)
      let order := if P.below b a then (reflected, direct) else (direct, reflected)
      (∃ r, order.1 r ∧ out = some r) ∨ ((∀ r, ¬ order.1 r) ∧ ∃ r, order.2 r ∧ out = some r) ∨
        ((∀ r, ¬ order.1 r) ∧ (∀ r, ¬ order.2 r) ∧ out = byIdentity same id) := by
  have e : ∀ id, (match id with | OpId.eq => some same | OpId.ne => some !same | _ => none) = byIdentity same id := by
    intro id; cases id <;> rfl
  have hnone : ∀ (a b : Val D X) (id : OpId), P.rich a b id = none ↔ ∀ r, ¬ ComparesTo P a b id r := by
    intro a b id
    rw [← not_iff_not, ← ne_eq, Option.ne_none_iff_exists']
    simp only [rich_iff, not_forall, not_not]
  have hsome := rich_iff P
  unfold Prog.compare
  simp only [e]
  by_cases hb : P.below b a = true
  · simp only [hb, Bool.true_and, if_true]
    cases hs : P.richSlot b with
    | none =>
      have hr : P.rich b a (swap id) = none := by unfold Prog.rich; rw [hs]
      have hr' := (hnone ..).1 hr
      simp only [Option.isSome_none, Bool.false_eq_true, if_false, Option.none_or, hr, Option.or_none]
      cases hd : P.rich a b id with
      | none =>
        simp only [Option.none_or]
        have hd' := (hnone ..).1 hd
        constructor
        · rintro rfl; exact .inr (.inr ⟨hr', hd', rfl⟩)
        · rintro (⟨r, h, _⟩ | ⟨_, r, h, _⟩ | ⟨_, _, h⟩)
          · exact absurd h (hr' r)
          · exact absurd h (hd' r)
          · exact h.symm
      | some q =>
        simp only [Option.some_or]
        have hq := (hsome ..).1 hd
        constructor
        · rintro rfl; exact .inr (.inl ⟨hr', q, hq, rfl⟩)
        · rintro (⟨r, h, _⟩ | ⟨_, r, h, he⟩ | ⟨_, h, _⟩)
          · exact absurd h (hr' r)
          · rw [he, ← hd]; exact (hsome ..).2 h
          · exact absurd hq (h q)
    | some k =>
      simp only [Option.isSome_some, if_true, Option.or_none]
      cases hr : P.rich b a (swap id) with
      | some q =>
        simp only [Option.some_or]
        have hq := (hsome ..).1 hr
        constructor
        · rintro rfl; exact .inl ⟨q, hq, rfl⟩
        · rintro (⟨r, h, he⟩ | ⟨h, _⟩ | ⟨h, _⟩)
          · rw [he, ← hr]; exact (hsome ..).2 h
          · exact absurd hq (h q)
          · exact absurd hq (h q)
      | none =>
        have hr' := (hnone ..).1 hr
        simp only [Option.none_or]
        cases hd : P.rich a b id with
        | none =>
          simp only [Option.none_or]
          have hd' := (hnone ..).1 hd
          constructor
          · rintro rfl; exact .inr (.inr ⟨hr', hd', rfl⟩)
          · rintro (⟨r, h, _⟩ | ⟨_, r, h, _⟩ | ⟨_, _, h⟩)
            · exact absurd h (hr' r)
            · exact absurd h (hd' r)
            · exact h.symm
        | some q =>
          simp only [Option.some_or]
          have hq := (hsome ..).1 hd
          constructor
          · rintro rfl; exact .inr (.inl ⟨hr', q, hq, rfl⟩)
          · rintro (⟨r, h, _⟩ | ⟨_, r, h, he⟩ | ⟨_, h, _⟩)
            · exact absurd h (hr' r)
            · rw [he, ← hd]; exact (hsome ..).2 h
            · exact absurd hq (h q)
  · have hb' : P.below b a = false := by simpa using hb
    simp only [hb', Bool.false_and, Bool.false_eq_true, if_false, Option.none_or]
    cases hd : P.rich a b id with
    | some q =>
      simp only [Option.some_or]
      have hq := (hsome ..).1 hd
      constructor
      · rintro rfl; exact .inl ⟨q, hq, rfl⟩
      · rintro (⟨r, h, he⟩ | ⟨h, _⟩ | ⟨h, _⟩)
        · rw [he, ← hd]; exact (hsome ..).2 h
        · exact absurd hq (h q)
        · exact absurd hq (h q)
    | none =>
      have hd' := (hnone ..).1 hd
      simp only [Option.none_or]
      cases hr : P.rich b a (swap id) with
      | none =>
        simp only [Option.none_or]
        have hr' := (hnone ..).1 hr
        constructor
        · rintro rfl; exact .inr (.inr ⟨hd', hr', rfl⟩)
        · rintro (⟨r, h, _⟩ | ⟨_, r, h, _⟩ | ⟨_, _, h⟩)
          · exact absurd h (hd' r)
          · exact absurd h (hr' r)
          · exact h.symm
      | some q =>
        simp only [Option.some_or]
        have hq := (hsome ..).1 hr
        constructor
        · rintro rfl; exact .inr (.inl ⟨hd', q, hq, rfl⟩)
        · rintro (⟨r, h, _⟩ | ⟨_, r, h, he⟩ | ⟨_, h, _⟩)
          · exact absurd h (hd' r)
          · rw [he, ← hr]; exact (hsome ..).2 h
          · exact absurd hq (h q)

/-- C112, comparisons: a registered comparison of two objects of the same type is the C++ comparison. -/
theorem C112_compare_same (P : Prog D X) (c k : Nat) (x y : D) (same : Bool) (id : OpId)
    (hk : IsComparer P (.inst c x : Val D X) k) (hr : .comparison id.symbol ∈ P.calls k) :
    P.compare (.inst c x) (.inst c y) same id = some (P.cmp k id.symbol (P.view c k x) (P.view c k y)) := by
  have hc : k ∈ P.mro c := by obtain ⟨pre, post, he, _⟩ := hk; rw [he]; simp
  rw [C112_compare]
  have hb : P.below (.inst c y : Val D X) (.inst c x) = false := by simp [Prog.below]
  simp only [hb, Bool.false_eq_true, if_false]
  exact .inl ⟨_, ⟨k, _, _, hk, hr, .cls hc, .cls hc, rfl⟩, rfl⟩

/-! ### Cases and counterexamples -/

/-- Class 1 is derived from class 0; the values of both are integers, and so are the other objects; parameter 7 is an
`int`. -/
def demo (calls0 calls1 : List Call) : Prog Int Int where
  calls k := match k with | 0 => calls0 | 1 => calls1 | _ => []
  mro k := match k with | 0 => [0] | 1 => [1, 0] | _ => [k]
  view _ _ v := v
  param id x := match id, x with | 7, .other n => some n | _, _ => none
  op o _ x y := if o = ['-'] then (x - y, x) else if o = ['+', '='] then (x + y, x + y) else (x + y, x)
  neg _ x := -x
  cmp _ o x y := if o = ['<'] then x < y else if o = ['>'] then x > y else x = y

/-- `Foo + Foo`, `Foo + int`, `Foo += Foo`, `-Foo`, `Foo < Foo`, `Foo == Foo`. -/
def foo : List Call :=
  [.binary ['+'] none none .omitted, .binary ['+'] none none (.spec "int".toList 7), .inplace ['+', '='] .omitted,
   .unary ['-'] none none, .comparison ['<'], .comparison ['=', '=']]

theorem demo_clean {l m : List Call} (hl : ∀ c ∈ l, Evaluates c) (hm : ∀ c ∈ m, Evaluates c) : (demo l m).Clean := by
  intro k c hc
  match k with
  | 0 => exact hl c hc
  | 1 => exact hm c hc
  | k + 2 => cases hc

theorem foo_evaluates : ∀ c ∈ foo, Evaluates c := by
  intro c hc
  simp only [foo, List.mem_cons, List.not_mem_nil, or_false] at hc
  rcases hc with rfl | rfl | rfl | rfl | rfl | rfl <;> simp [Evaluates]

example : (demo foo []).Clean ∧ slotOf ['+'] = some "nb_add" ∧ inplaceSlotOf ['+', '='] = some "nb_inplace_add" ∧
    FirstFit (demo foo []) ((demo foo []).candidates ['+'] (.inst 1 5) (.other 3)) (.inst 1 5) (.other 3)
      ⟨0, 0, .param 7⟩ 5 3 ∧
    (demo foo []).binop [.inst 1 5, .other 3] "nb_add" (.inst 1 5) (.other 3) =
      ([.inst 1 5, .other 3, .inst 0 8], some 2) ∧
    (demo foo []).binop [] "nb_add" (.other 3) (.inst 1 5) = ([], none) ∧
    (demo foo []).binop [] "nb_subtract" (.inst 0 4) (.inst 1 5) = ([], none) ∧
    (demo foo []).negate [] (.inst 1 5) = ([.inst 0 (-5)], .obj 0) ∧ HasBinary (demo foo []) 0 := by
  refine ⟨demo_clean foo_evaluates nofun, rfl, rfl, ?_, rfl, rfl, rfl, rfl, .inl ⟨['+'], by decide, by decide⟩⟩
  refine ⟨[⟨0, 0, .cls 0⟩], [], rfl, ⟨.cls (by decide), .param rfl⟩, ?_⟩
  intro d hd x y h
  rw [List.mem_singleton.1 hd] at h
  cases h.2

/-- `x += y` and what `x` and `y` are afterwards. -/
example :
    (((demo foo []).augAssign { env := fun z => z, heap := [.inst 0 4, .inst 1 5] } "nb_inplace_add" "nb_add" 0 1).map
      fun s => (s.env 0, s.env 1, s.heap)) = some (2, 1, [.inst 0 4, .inst 1 5, .inst 0 9]) := rfl

example : IsComparer (demo foo []) (.inst 1 5) 0 ∧ .comparison OpId.lt.symbol ∈ (demo foo []).calls 0 ∧
    (demo foo []).compare (.inst 1 5) (.inst 1 6) false .lt = some true ∧
    (demo foo []).compare (.inst 1 5) (.inst 1 6) false .gt = some false ∧
    (demo foo []).compare (.inst 1 5) (.inst 1 6) false .le = none := by
  refine ⟨⟨[1], [], rfl, ⟨['<'], by decide, by simp [demo, foo]⟩, ?_⟩, by simp [demo, foo, OpId.symbol], rfl, rfl, rfl⟩
  intro j hj
  rw [List.mem_singleton.1 hj]
  rintro ⟨op, _, h⟩
  cases h

/-- C112 fails for aliases: after `z = x; x += y`, `z` is what it was, although in C++ the object changes
(cppclass.py:2096-2100: the operator works on a copy). -/
theorem C112_alias_counterexample :
    ∃ s', (demo foo []).augAssign { env := fun z => if z = 2 then 0 else z, heap := [.inst 0 4, .inst 0 5] }
        "nb_inplace_add" "nb_add" 0 1 = some s' ∧
      s'.heap[s'.env 0]? = some (.inst 0 9) ∧ s'.heap[s'.env 2]? = some (.inst 0 4) ∧
      ((demo foo []).op ['+', '='] ⟨0, 0, .cls 0⟩ 4 5).2 = 9 := ⟨_, rfl, rfl, rfl, rfl⟩

/-- C112 fails for derived classes: `Bar += Bar`, with the operator of the base class, leaves a `Foo` in the name
(cppclass.py:916: the result class is the class of the operator). -/
theorem C112_slicing_counterexample :
    ∃ s', (demo foo []).augAssign { env := fun z => z, heap := [.inst 1 4, .inst 1 5] } "nb_inplace_add" "nb_add" 0 1 =
        some s' ∧ s'.heap[s'.env 0]? = some (.inst 0 9) := ⟨_, rfl, rfl⟩

/-- C112 fails if a derived class registers the same operator: those of its base are hidden, although the operands
fit one of them. -/
theorem C112_hidden_counterexample :
    let P := demo foo [.binary ['+'] none none (.spec "int".toList 7)]
    P.Clean ∧ P.binop [] "nb_add" (.inst 1 4) (.inst 1 5) = ([], none) ∧
      (⟨0, 0, .cls 0⟩ : Case) ∈ P.binary ['+'] 0 ∧ FitsCase P ⟨0, 0, .cls 0⟩ (.inst 1 4) (.inst 1 5) 4 5 := by
  refine ⟨demo_clean foo_evaluates ?_, rfl, by decide, ⟨.cls (by decide), .cls (by decide)⟩⟩
  intro c hc
  rw [List.mem_singleton.1 hc]
  simp [Evaluates]

/-- C112 fails after a registration that was given up: it hides the operator of the base class
(cppclass.py:857-862, 877-878). -/
theorem C112_given_up_counterexample :
    (demo foo []).binop [] "nb_add" (.inst 1 4) (.inst 0 5) = ([.inst 0 9], some 0) ∧
    (demo foo [.binary ['+'] none none (.badSpec .skipWrapper)]).binop [] "nb_add" (.inst 1 4) (.inst 1 5) = ([], none) :=
  ⟨rfl, rfl⟩

/-- C112 fails for unary minus with another operand class: the value of the expression is the object
`NotImplemented` (cppclass.py:2142-2143). -/
theorem C112_unary_counterexample :
    let P := demo [.binary ['+'] none none .omitted, .unary ['-'] none (some 1)] []
    P.negate [] (.inst 0 4) = ([], .notImplemented) := rfl

/-- C112 fails for a class with unary minus only (cppclass.py:2029). -/
theorem C112_unary_only_counterexample :
    (demo [.unary ['-'] none none] []).negate [] (.inst 0 4) = ([], .typeError) ∧
    (demo [.unary ['-'] none none] []).unary 0 = [(0, 0)] := ⟨rfl, by decide⟩

/-- With `==` only, two equal objects are also `!=`: the registered comparison replaces Python's rule that `!=` is the
opposite of `==` (cppclass.py:2604-2618). -/
theorem C112_not_equal_counterexample :
    (demo foo []).compare (.inst 0 4) (.inst 0 4) false .eq = some true ∧
    (demo foo []).compare (.inst 0 4) (.inst 0 4) false .ne = some true := ⟨rfl, rfl⟩

end Verif.Arith
