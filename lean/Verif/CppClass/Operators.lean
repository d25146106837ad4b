import Verif.Basic

/-!
# C36: operators of wrapped classes

`add_binary_comparison_operator`, `add_binary_numeric_operator`, `add_inplace_numeric_operator`,
`add_unary_numeric_operator` (pybindgen/cppclass.py:821-944), and the functions that
`_generate_number_methods` and `_generate_tp_richcompare` emit (cppclass.py:2026-2030, 2068-2157,
2588-2635), as the computation they perform when Python calls them.

Not modelled: the C text itself, the conversion functions (a converter either yields a value or sets
the Python error indicator), `PyNumberMethods` slots other than the ones listed, reference counts.
-/
namespace Verif.Operators
open Verif

/-- Operand types: a `CppClass`, or a `Parameter` object (compared by identity, as neither class
defines `__eq__`). -/
inductive Operand where
  | cls (c : Nat)
  | param (id : Nat)
  deriving DecidableEq, Repr

/-- The `right` argument.  A string or tuple specification is evaluated to a new `Parameter` object
`id`, or evaluation fails with `e` (`skipWrapper` is what a user error handler makes of it). -/
inductive RightArg where
  | omitted
  | cls (c : Nat)
  | param (id : Nat)
  | spec (text : Str) (id : Nat)
  | badSpec (e : PyErr)
  | other
  deriving DecidableEq, Repr

/-- `(result, left, right)` of a binary or inplace operator, cppclass.py:880, 916. -/
structure Case where
  result : Nat
  left : Nat
  right : Operand
  deriving DecidableEq, Repr

/-- The operator tables of a class, cppclass.py:630-638. -/
structure Ops where
  self : Nat
  comparison : List Str := []
  binary : List (Str × List Case) := []
  inplace : List (Str × List Case) := []
  unary : List (Str × List (Nat × Nat)) := []
  deriving DecidableEq, Repr

/-- `d[k]` for a dict of lists, `none` for a missing key. -/
def lookup {α : Type} (d : List (Str × List α)) (k : Str) : Option (List α) :=
  match d with
  | [] => none
  | (a, l) :: r => if a = k then some l else lookup r k

/-- `d[k] = l`. -/
def store {α : Type} (d : List (Str × List α)) (k : Str) (l : List α) : List (Str × List α) :=
  match d with
  | [] => [(k, l)]
  | (a, x) :: r => if a = k then (a, l) :: r else (a, x) :: store r k l

/-- `['==', '!=', '<', '<=', '>', '>=']`, cppclass.py:834. -/
def comparisonNames : List Str :=
  [['=', '='], ['!', '='], ['<'], ['<', '='], ['>'], ['>', '=']]

/-- `['+', '-', '*', '/']`, cppclass.py:856. -/
def binaryNames : List Str := [['+'], ['-'], ['*'], ['/']]

/-- `['+=', '-=', '*=', '/=']`, cppclass.py:899. -/
def inplaceNames : List Str := [['+', '='], ['-', '='], ['*', '='], ['/', '=']]

/-- `['-']`, cppclass.py:931. -/
def unaryNames : List Str := [['-']]

/-- `add_binary_comparison_operator`, cppclass.py:831-836; the set keeps one copy. -/
def addComparison (o : Ops) (op : Str) : Ops × Option PyErr :=
  if op ∉ comparisonNames then (o, some .valueError)
  else ({ o with comparison := if op ∈ o.comparison then o.comparison else o.comparison ++ [op] }, none)

/-- The evaluated `right` of a binary operator, cppclass.py:868-878. -/
def evalRightBinary (self : Nat) : RightArg → PyRes Operand
  | .omitted => .ok (.cls self)
  | .cls c => .ok (.cls c)
  | .param id => .ok (.param id)
  | .spec _ id => .ok (.param id)
  | .badSpec e => .error e
  | .other => .error .typeError

/-- The evaluated `right` of an inplace operator, cppclass.py:906-914: a `CppClass` is not accepted
(`utils.eval_param`, utils.py:246, 267-271). -/
def evalRightInplace (self : Nat) : RightArg → PyRes Operand
  | .omitted => .ok (.cls self)
  | .cls _ => .error .typeError
  | .param id => .ok (.param id)
  | .spec _ id => .ok (.param id)
  | .badSpec e => .error e
  | .other => .error .typeError

/-- `SkipWrapper` is caught (cppclass.py:877-878, 913-914), other exceptions propagate. -/
def escape : PyErr → Option PyErr
  | .skipWrapper => none
  | e => some e

/-- `add_binary_numeric_operator`, cppclass.py:853-882.  The table entry is created before `right`
is evaluated. -/
def addBinary (o : Ops) (op : Str) (result left : Option Nat) (right : RightArg) : Ops × Option PyErr :=
  if op ∉ binaryNames then (o, some .valueError)
  else
    let l := (lookup o.binary op).getD []
    let o1 := { o with binary := store o.binary op l }
    match evalRightBinary o.self right with
    | .error e => (o1, escape e)
    | .ok r =>
      let c : Case := ⟨result.getD o.self, left.getD o.self, r⟩
      if c ∈ l then (o1, none) else ({ o with binary := store o.binary op (l ++ [c]) }, none)

/-- `add_inplace_numeric_operator`, cppclass.py:896-916.  The membership test compares the right
operand alone with the stored triples, so it never succeeds. -/
def addInplace (o : Ops) (op : Str) (right : RightArg) : Ops × Option PyErr :=
  if op ∉ inplaceNames then (o, some .valueError)
  else
    let l := (lookup o.inplace op).getD []
    let o1 := { o with inplace := store o.inplace op l }
    match evalRightInplace o.self right with
    | .error e => (o1, escape e)
    | .ok r => ({ o with inplace := store o.inplace op (l ++ [⟨o.self, o.self, r⟩]) }, none)

/-- `add_unary_numeric_operator`, cppclass.py:928-944. -/
def addUnary (o : Ops) (op : Str) (result left : Option Nat) : Ops × Option PyErr :=
  if op ∉ unaryNames then (o, some .valueError)
  else
    let l := (lookup o.unary op).getD []
    let c := (result.getD o.self, left.getD o.self)
    if c ∈ l then ({ o with unary := store o.unary op l }, none)
    else ({ o with unary := store o.unary op (l ++ [c]) }, none)

/-- Calls on one class. -/
inductive Call where
  | comparison (op : Str)
  | binary (op : Str) (result left : Option Nat) (right : RightArg)
  | inplace (op : Str) (right : RightArg)
  | unary (op : Str) (result left : Option Nat)

/-- Effect of a call. -/
def call (o : Ops) : Call → Ops × Option PyErr
  | .comparison op => addComparison o op
  | .binary op r l x => addBinary o op r l x
  | .inplace op x => addInplace o op x
  | .unary op r l => addUnary o op r l

/-- Tables after a sequence of calls (a call that raises keeps what it changed). -/
def run (o : Ops) (cs : List Call) : Ops := cs.foldl (fun o c => (call o c).1) o

/-! ## Generated functions -/

/-- `PyErr_Clear()`. -/
def pyErrClear (_ : Bool) : Bool := false

/-- What a generated operator function does with its arguments, cppclass.py:2082-2107: for each case
in turn, convert both operands (short-circuit `&&`); on success apply the C++ operator, else clear
the error (`PyErr_Clear`).  The boolean is the Python error indicator: a failed conversion sets it. -/
def runCases {V : Type} (conv : Operand → V → Bool) (a b : V) : List Case → Bool → Option Case × Bool
  | [], err => (none, err)
  | c :: cs, err =>
    if conv (.cls c.left) a then
      if conv c.right b then (some c, err) else runCases conv a b cs (pyErrClear true)
    else runCases conv a b cs (pyErrClear true)

/-- Same for a unary operator, cppclass.py:2121-2144. -/
def runUnary {V : Type} (conv : Operand → V → Bool) (a : V) : List (Nat × Nat) → Bool → Option (Nat × Nat) × Bool
  | [], err => (none, err)
  | c :: cs, err => if conv (.cls c.2) a then (some c, err) else runUnary conv a cs (pyErrClear true)

/-- Number slots and what they call: `try_wrap_operator` and `try_wrap_unary_operator`,
cppclass.py:2068-2074, 2109-2113, 2146-2156. -/
inductive SlotImpl where
  | cases (op : Str) (l : List Case)
  | unary (op : Str) (l : List (Nat × Nat))
  deriving DecidableEq, Repr

def binarySlot (o : Ops) (op : Str) (slot : String) : List (String × SlotImpl) :=
  match lookup o.binary op with
  | some l => [(slot, .cases op l)]
  | none =>
    match lookup o.inplace op with
    | some l => [(slot, .cases op l)]
    | none => []

def unarySlot (o : Ops) (op : Str) (slot : String) : List (String × SlotImpl) :=
  match lookup o.unary op with
  | some l => [(slot, .unary op l)]
  | none => []

/-- `_generate_number_methods`, cppclass.py:2146-2156. -/
def numberMethods (o : Ops) : List (String × SlotImpl) :=
  binarySlot o ['+'] "nb_add" ++ binarySlot o ['-'] "nb_subtract" ++
  binarySlot o ['*'] "nb_multiply" ++ binarySlot o ['/'] "nb_divide" ++
  binarySlot o ['+', '='] "nb_inplace_add" ++ binarySlot o ['-', '='] "nb_inplace_subtract" ++
  binarySlot o ['*', '='] "nb_inplace_multiply" ++ binarySlot o ['/', '='] "nb_inplace_divide" ++
  unarySlot o ['-'] "nb_negative"

/-- `slots["tp_as_number"]`, cppclass.py:2029-2030. -/
def tpAsNumber (o : Ops) : Option (List (String × SlotImpl)) :=
  if o.binary ≠ [] ∨ o.inplace ≠ [] then some (numberMethods o) else none

/-- Python's rich comparison opcodes. -/
inductive OpId where
  | lt | le | eq | ne | ge | gt
  deriving DecidableEq, Repr

/-- Body of one `case`, cppclass.py:2604-2618. -/
inductive RcBody where
  | compare (op : Str)
  | notImplemented
  deriving DecidableEq, Repr

def rcCase (o : Ops) (name : Str) (id : OpId) : OpId × RcBody :=
  (id, if name ∈ o.comparison then .compare name else .notImplemented)

/-- The `switch` of the generated function, cppclass.py:2620-2625. -/
def richcompare (o : Ops) : List (OpId × RcBody) :=
  [rcCase o ['<'] .lt, rcCase o ['<', '='] .le, rcCase o ['=', '='] .eq, rcCase o ['!', '='] .ne,
   rcCase o ['>', '='] .ge, rcCase o ['>'] .gt]

/-- Running it, cppclass.py:2596-2630: `none` is `NotImplemented`; every `case` body returns.
`cmp op` is the C++ operator applied to the two objects. -/
def runSwitch (cases : List (OpId × RcBody)) (id : OpId) (cmp : Str → Bool) : Option Bool :=
  match cases with
  | [] => none
  | (i, b) :: r =>
    if i = id then
      match b with
      | .compare op => some (cmp op)
      | .notImplemented => none
    else runSwitch r id cmp

def runRichcompare (o : Ops) (isInstance : Bool) (id : OpId) (cmp : Str → Bool) : Option Bool :=
  if !isInstance then none else runSwitch (richcompare o) id cmp

/-! ## Specification -/

/-- The C++ operator that corresponds to a Python comparison. -/
def OpId.symbol : OpId → Str
  | .lt => ['<'] | .le => ['<', '='] | .eq => ['=', '='] | .ne => ['!', '='] | .ge => ['>', '='] | .gt => ['>']

/-- The operand types a successful `add_binary_numeric_operator` call asks for. -/
def Call.binaryCase (self : Nat) (op : Str) : Call → Option Case
  | .binary op' r l x =>
    if op' = op then
      match x with
      | .omitted => some ⟨r.getD self, l.getD self, .cls self⟩
      | .cls c => some ⟨r.getD self, l.getD self, .cls c⟩
      | .param id | .spec _ id => some ⟨r.getD self, l.getD self, .param id⟩
      | _ => none
    else none
  | _ => none

/-- The operand types asked for, in order. -/
def requestedBinary (self : Nat) (op : Str) (cs : List Call) : List Case :=
  cs.filterMap (Call.binaryCase self op)

def Call.unaryCase (self : Nat) (op : Str) : Call → Option (Nat × Nat)
  | .unary op' r l => if op' = op then some (r.getD self, l.getD self) else none
  | _ => none

def requestedUnary (self : Nat) (op : Str) (cs : List Call) : List (Nat × Nat) :=
  cs.filterMap (Call.unaryCase self op)

def Call.inplaceCase (op : Str) : Call → Option Operand
  | .inplace op' (.param id) | .inplace op' (.spec _ id) => if op' = op then some (.param id) else none
  | _ => none

/-- `cases` are the distinct entries of `requested`, in the order in which each was first
requested. -/
def FirstOccurrences {α : Type} [DecidableEq α] (requested cases : List α) : Prop :=
  cases.Nodup ∧ (∀ x, x ∈ cases ↔ x ∈ requested) ∧
    cases.Pairwise fun x y => requested.idxOf x < requested.idxOf y

/-! ## Tables -/

theorem lookup_store {α : Type} (d : List (Str × List α)) (k k' : Str) (l : List α) :
    lookup (store d k l) k' = if k = k' then some l else lookup d k' := by
  induction d with
  | nil => simp [store, lookup]
  | cons p r ih =>
    obtain ⟨a, x⟩ := p
    unfold store
    split
    · rename_i h; subst h; simp only [lookup]; split <;> simp_all
    · rename_i h
      simp only [lookup, ih]
      by_cases h1 : a = k'
      · subst h1
        have : k ≠ a := fun e => h e.symm
        simp [this]
      · simp [h1]

theorem store_ne_nil {α : Type} (d : List (Str × List α)) (k : Str) (l : List α) : store d k l ≠ [] := by
  cases d with
  | nil => simp [store]
  | cons p r => obtain ⟨a, x⟩ := p; unfold store; split <;> simp

private theorem first_snoc {α : Type} [DecidableEq α] (req cases : List α) (x : α)
    (h : FirstOccurrences req cases) :
    FirstOccurrences (req ++ [x]) (if x ∈ cases then cases else cases ++ [x]) := by
  obtain ⟨h1, h2, h3⟩ := h
  have hidx : ∀ a ∈ req, (req ++ [x]).idxOf a = req.idxOf a := fun a ha => List.idxOf_append_of_mem ha
  have hpw : cases.Pairwise fun a b => (req ++ [x]).idxOf a < (req ++ [x]).idxOf b := by
    apply List.Pairwise.imp_of_mem _ h3
    intro a b ha hb hab
    rw [hidx a ((h2 a).1 ha), hidx b ((h2 b).1 hb)]; exact hab
  split
  · rename_i hx
    refine ⟨h1, fun a => ?_, hpw⟩
    rw [h2, List.mem_append, List.mem_singleton]
    constructor
    · exact .inl
    · rintro (h | rfl)
      · exact h
      · exact (h2 _).1 hx
  · rename_i hx
    refine ⟨?_, fun a => ?_, ?_⟩
    · rw [List.nodup_append]
      refine ⟨h1, by simp, ?_⟩
      intro a ha b hb
      simp at hb
      subst hb
      exact fun e => hx (e ▸ ha)
    · rw [List.mem_append, h2, List.mem_append]
    · rw [List.pairwise_append]
      refine ⟨hpw, by simp, ?_⟩
      intro a ha b hb
      simp at hb
      subst hb
      have hxr : b ∉ req := fun e => hx ((h2 b).2 e)
      rw [hidx a ((h2 a).1 ha), List.idxOf_append_of_notMem hxr]
      have := List.idxOf_lt_length_of_mem ((h2 a).1 ha)
      omega

theorem call_self (o : Ops) (c : Call) : (call o c).1.self = o.self := by
  cases c with
  | comparison op => simp only [call, addComparison]; split <;> rfl
  | binary op r l x =>
    simp only [call, addBinary]
    split
    · rfl
    · split
      · rfl
      · split <;> rfl
  | inplace op x =>
    simp only [call, addInplace]
    split
    · rfl
    · split <;> rfl
  | unary op r l =>
    simp only [call, addUnary]
    split
    · rfl
    · split <;> rfl

theorem binary_step (o : Ops) (c : Call) (op : Str) (hop : op ∈ binaryNames) :
    (lookup (call o c).1.binary op).getD [] =
      match Call.binaryCase o.self op c with
      | none => (lookup o.binary op).getD []
      | some x => if x ∈ (lookup o.binary op).getD [] then (lookup o.binary op).getD []
          else (lookup o.binary op).getD [] ++ [x] := by
  cases c with
  | comparison op' => simp only [call, addComparison, Call.binaryCase]; split <;> rfl
  | inplace op' x =>
    simp only [call, addInplace, Call.binaryCase]
    split
    · rfl
    · split <;> rfl
  | unary op' r l =>
    simp only [call, addUnary, Call.binaryCase]
    split
    · rfl
    · split <;> rfl
  | binary op' r l x =>
    simp only [call, addBinary, Call.binaryCase]
    by_cases he : op' = op
    · subst he
      rw [if_neg (by simp [hop])]
      cases x <;> simp only [evalRightBinary, if_true]
      all_goals first
        | (split
           · simp only [lookup_store, if_true, Option.getD_some]
           · simp only [lookup_store, if_true, Option.getD_some])
        | simp only [lookup_store, if_true, Option.getD_some]
    · simp only [he, if_false]
      split
      · rfl
      · split
        · simp only [lookup_store, he, if_false]
        · split <;> simp only [lookup_store, he, if_false]

theorem unary_step (o : Ops) (c : Call) (op : Str) (hop : op ∈ unaryNames) :
    (lookup (call o c).1.unary op).getD [] =
      match Call.unaryCase o.self op c with
      | none => (lookup o.unary op).getD []
      | some x => if x ∈ (lookup o.unary op).getD [] then (lookup o.unary op).getD []
          else (lookup o.unary op).getD [] ++ [x] := by
  cases c with
  | comparison op' => simp only [call, addComparison, Call.unaryCase]; split <;> rfl
  | inplace op' x =>
    simp only [call, addInplace, Call.unaryCase]
    split
    · rfl
    · split <;> rfl
  | binary op' r l x =>
    simp only [call, addBinary, Call.unaryCase]
    split
    · rfl
    · split
      · rfl
      · split <;> rfl
  | unary op' r l =>
    simp only [call, addUnary, Call.unaryCase]
    by_cases he : op' = op
    · subst he
      rw [if_neg (by simp [hop])]
      simp only [if_true]
      split <;> simp only [lookup_store, if_true, Option.getD_some]
    · simp only [he, if_false]
      split
      · rfl
      · split <;> simp only [lookup_store, he, if_false]

theorem run_self (cs : List Call) (o : Ops) : (run o cs).self = o.self := by
  induction cs generalizing o with
  | nil => rfl
  | cons c cs ih => exact (ih _).trans (call_self o c)

private theorem table_first {α : Type} [DecidableEq α] (tab : Ops → List α) (req : Nat → Call → Option α)
    (hstep : ∀ o c, tab (call o c).1 = match req o.self c with
      | none => tab o
      | some x => if x ∈ tab o then tab o else tab o ++ [x])
    (cs : List Call) : ∀ (o : Ops) (pre : List α), FirstOccurrences pre (tab o) →
      FirstOccurrences (pre ++ cs.filterMap (req o.self)) (tab (run o cs)) := by
  induction cs with
  | nil => intro o pre h; simpa [run] using h
  | cons c cs ih =>
    intro o pre h
    have hs := hstep o c
    rw [List.filterMap_cons]
    have hself := call_self o c
    cases hr : req o.self c with
    | none =>
      rw [hr] at hs
      simp only at hs
      have := ih (call o c).1 pre (by rw [hs]; exact h)
      rw [hself] at this
      exact this
    | some x =>
      rw [hr] at hs
      simp only at hs
      have := ih (call o c).1 (pre ++ [x]) (by rw [hs]; exact first_snoc pre _ x h)
      rw [hself] at this
      have e : run o (c :: cs) = run (call o c).1 cs := rfl
      rw [e]
      simpa using this

/-! ## Theorems -/

/-- C36: for every sequence of calls on a class, the cases generated for a binary operator are the
distinct operand types asked for, in order of first registration; the same for unary operators. -/
theorem C36_cases (self : Nat) (cs : List Call) :
    (∀ op ∈ binaryNames, FirstOccurrences (requestedBinary self op cs)
      ((lookup (run { self := self } cs).binary op).getD [])) ∧
    (∀ op ∈ unaryNames, FirstOccurrences (requestedUnary self op cs)
      ((lookup (run { self := self } cs).unary op).getD [])) := by
  constructor
  · intro op hop
    have := table_first (fun o => (lookup o.binary op).getD []) (fun s => Call.binaryCase s op)
      (fun o c => by
        have := binary_step o c op hop
        cases h : Call.binaryCase o.self op c <;> simp only [h] at this ⊢ <;> exact this) cs { self := self } [] (by simp [FirstOccurrences, lookup])
    simpa [requestedBinary] using this
  · intro op hop
    have := table_first (fun o => (lookup o.unary op).getD []) (fun s => Call.unaryCase s op)
      (fun o c => by
        have := unary_step o c op hop
        cases h : Call.unaryCase o.self op c <;> simp only [h] at this ⊢ <;> rw [this]
        congr) cs { self := self } [] (by simp [FirstOccurrences, lookup])
    simpa [requestedUnary] using this

example : requestedBinary 5 ['+'] [.binary ['+'] none none .omitted, .binary ['+'] none none (.cls 2),
    .binary ['+'] none none (.cls 5)] = [⟨5, 5, .cls 5⟩, ⟨5, 5, .cls 2⟩, ⟨5, 5, .cls 5⟩] ∧
    lookup (run { self := 5 } [.binary ['+'] none none .omitted, .binary ['+'] none none (.cls 2),
    .binary ['+'] none none (.cls 5)]).binary ['+'] = some [⟨5, 5, .cls 5⟩, ⟨5, 5, .cls 2⟩] := by decide

/-- C36: an operator that is not supported is refused with `ValueError` and changes nothing. -/
theorem C36_rejected (o : Ops) (op : Str) (r l : Option Nat) (x : RightArg) :
    (op ∉ comparisonNames → addComparison o op = (o, some .valueError)) ∧
    (op ∉ binaryNames → addBinary o op r l x = (o, some .valueError)) ∧
    (op ∉ inplaceNames → addInplace o op x = (o, some .valueError)) ∧
    (op ∉ unaryNames → addUnary o op r l = (o, some .valueError)) := by
  refine ⟨?_, ?_, ?_, ?_⟩ <;> intro h
  · simp [addComparison, h]
  · simp [addBinary, h]
  · simp [addInplace, h]
  · simp [addUnary, h]

example : ['%'] ∉ binaryNames := by decide

/-- C36: a generated operator function applies the first case whose operands both convert, and
returns `NotImplemented` exactly when there is none; the error indicator is clear afterwards. -/
theorem C36_dispatch {V : Type} (conv : Operand → V → Bool) (a b : V) (cases : List Case) :
    (∀ c, (runCases conv a b cases false).1 = some c ↔
      ∃ pre post, cases = pre ++ c :: post ∧ conv (.cls c.left) a = true ∧ conv c.right b = true ∧
        ∀ d ∈ pre, ¬ (conv (.cls d.left) a = true ∧ conv d.right b = true)) ∧
    ((runCases conv a b cases false).1 = none ↔
      ∀ d ∈ cases, ¬ (conv (.cls d.left) a = true ∧ conv d.right b = true)) ∧
    (runCases conv a b cases false).2 = false := by
  induction cases with
  | nil => simp [runCases]
  | cons x xs ih =>
    by_cases hx : conv (.cls x.left) a = true ∧ conv x.right b = true
    · have e : runCases conv a b (x :: xs) false = (some x, false) := by simp [runCases, hx.1, hx.2]
      rw [e]
      refine ⟨fun c => ⟨?_, ?_⟩, ?_, rfl⟩
      · intro h; cases h; exact ⟨[], xs, rfl, hx.1, hx.2, by simp⟩
      · rintro ⟨pre, post, he, h1, h2, h3⟩
        cases pre with
        | nil => simp at he; rw [he.1]
        | cons y ys => simp at he; exact absurd hx (h3 x (by simp [he.1]))
      · simp only [reduceCtorEq, false_iff]
        intro h; exact h x (by simp) hx
    · have e : runCases conv a b (x :: xs) false = runCases conv a b xs false := by
        simp only [runCases]
        split
        · rename_i h1
          rw [if_neg (fun h2 => hx ⟨h1, h2⟩)]; rfl
        · rfl
      rw [e]
      refine ⟨fun c => ?_, ?_, ih.2.2⟩
      · rw [ih.1 c]
        constructor
        · rintro ⟨pre, post, rfl, h1, h2, h3⟩
          refine ⟨x :: pre, post, rfl, h1, h2, ?_⟩
          intro d hd
          rcases List.mem_cons.1 hd with rfl | hd
          · exact hx
          · exact h3 d hd
        · rintro ⟨pre, post, he, h1, h2, h3⟩
          cases pre with
          | nil => simp at he; rw [he.1] at hx; exact absurd ⟨h1, h2⟩ hx
          | cons y ys =>
            simp at he
            exact ⟨ys, post, he.2, h1, h2, fun d hd => h3 d (List.mem_cons_of_mem _ hd)⟩
      · rw [ih.2.1]; simp only [List.mem_cons, forall_eq_or_imp, hx, not_false_eq_true, true_and]

/-- C36: the same for unary operators: the operand is converted to the operand type of the case. -/
theorem C36_unary_dispatch {V : Type} (conv : Operand → V → Bool) (a : V) (cases : List (Nat × Nat)) :
    (∀ c, (runUnary conv a cases false).1 = some c ↔
      ∃ pre post, cases = pre ++ c :: post ∧ conv (.cls c.2) a = true ∧ ∀ d ∈ pre, ¬ conv (.cls d.2) a = true) ∧
    ((runUnary conv a cases false).1 = none ↔ ∀ d ∈ cases, ¬ conv (.cls d.2) a = true) ∧
    (runUnary conv a cases false).2 = false := by
  induction cases with
  | nil => simp [runUnary]
  | cons x xs ih =>
    by_cases hx : conv (.cls x.2) a = true
    · have e : runUnary conv a (x :: xs) false = (some x, false) := by simp [runUnary, hx]
      rw [e]
      refine ⟨fun c => ⟨?_, ?_⟩, ?_, rfl⟩
      · intro h; cases h; exact ⟨[], xs, rfl, hx, by simp⟩
      · rintro ⟨pre, post, he, h1, h3⟩
        cases pre with
        | nil => simp at he; rw [he.1]
        | cons y ys => simp at he; exact absurd hx (h3 x (by simp [he.1]))
      · simp only [reduceCtorEq, false_iff]
        intro h; exact h x (by simp) hx
    · have e : runUnary conv a (x :: xs) false = runUnary conv a xs false := by
        simp only [runUnary]
        rw [if_neg hx]; rfl
      rw [e]
      refine ⟨fun c => ?_, ?_, ih.2.2⟩
      · rw [ih.1 c]
        constructor
        · rintro ⟨pre, post, rfl, h1, h3⟩
          refine ⟨x :: pre, post, rfl, h1, ?_⟩
          intro d hd
          rcases List.mem_cons.1 hd with rfl | hd
          · exact hx
          · exact h3 d hd
        · rintro ⟨pre, post, he, h1, h3⟩
          cases pre with
          | nil => simp at he; rw [he.1] at hx; exact absurd h1 hx
          | cons y ys =>
            simp at he
            exact ⟨ys, post, he.2, h1, fun d hd => h3 d (List.mem_cons_of_mem _ hd)⟩
      · rw [ih.2.1]; simp only [List.mem_cons, forall_eq_or_imp]; exact ⟨fun h => ⟨hx, h⟩, fun h => h.2⟩

/-- Two values, class 1 converts from `true` only, class 2 from both. -/
example : (runCases (fun o (v : Bool) => match o with | .cls 1 => v | .cls _ => true | .param _ => false)
    false true [⟨1, 1, .cls 1⟩, ⟨2, 2, .cls 1⟩, ⟨2, 2, .cls 2⟩] false) = (some ⟨2, 2, .cls 1⟩, false) := by decide

/-- The number slot of a binary operator. -/
def slotOf (op : Str) : Option String :=
  if op = ['+'] then some "nb_add" else if op = ['-'] then some "nb_subtract"
  else if op = ['*'] then some "nb_multiply" else if op = ['/'] then some "nb_divide" else none

/-- C36: a binary operator that was registered is reachable from Python: the class has number
methods, and the slot of the operator tries exactly the registered cases. -/
theorem C36_slot (self : Nat) (cs : List Call) (op : Str) (slot : String) (hs : slotOf op = some slot)
    (l : List Case) (hl : lookup (run { self := self } cs).binary op = some l) :
    ∃ slots, tpAsNumber (run { self := self } cs) = some slots ∧ (slot, .cases op l) ∈ slots := by
  refine ⟨numberMethods (run { self := self } cs), ?_, ?_⟩
  · unfold tpAsNumber
    rw [if_pos]
    left
    intro h
    rw [h] at hl; simp [lookup] at hl
  · unfold slotOf at hs
    split at hs
    · rename_i e; subst e; cases hs; simp [numberMethods, binarySlot, hl]
    · split at hs
      · rename_i e; subst e; cases hs; simp [numberMethods, binarySlot, hl]
      · split at hs
        · rename_i e; subst e; cases hs; simp [numberMethods, binarySlot, hl]
        · split at hs
          · rename_i e; subst e; cases hs; simp [numberMethods, binarySlot, hl]
          · cases hs

/-- The number slot of an inplace operator. -/
def inplaceSlotOf (op : Str) : Option String :=
  if op = ['+', '='] then some "nb_inplace_add" else if op = ['-', '='] then some "nb_inplace_subtract"
  else if op = ['*', '='] then some "nb_inplace_multiply" else if op = ['/', '='] then some "nb_inplace_divide" else none

theorem lookup_store_ne {α : Type} (d : List (Str × List α)) (k k' : Str) (l : List α) (h : k' ≠ k) :
    lookup (store d k l) k' = lookup d k' := by
  rw [lookup_store, if_neg (fun e => h e.symm)]

theorem binary_keys (cs : List Call) (o : Ops) (op : Str) (hop : op ∉ binaryNames)
    (ho : lookup o.binary op = none) : lookup (run o cs).binary op = none := by
  induction cs generalizing o with
  | nil => exact ho
  | cons c cs ih =>
    refine ih _ ?_
    cases c with
    | comparison op' => simp only [call, addComparison]; split <;> exact ho
    | inplace op' x => simp only [call, addInplace]; split <;> [exact ho; split <;> exact ho]
    | unary op' r l => simp only [call, addUnary]; split <;> [exact ho; split <;> exact ho]
    | binary op' r l x =>
      simp only [call, addBinary]
      split
      · exact ho
      · next hn =>
        have hne : op ≠ op' := fun e => hop (e ▸ not_not.1 hn)
        split
        · exact (lookup_store_ne _ _ _ _ hne).trans ho
        · split
          · exact (lookup_store_ne _ _ _ _ hne).trans ho
          · exact (lookup_store_ne _ _ _ _ hne).trans ho

/-- C36: likewise for inplace operators; and unary minus, if the class has some binary or inplace
operator as well (see `C36_unary_only_counterexample`). -/
theorem C36_other_slots (self : Nat) (cs : List Call) :
    (∀ op slot l, inplaceSlotOf op = some slot → lookup (run { self := self } cs).inplace op = some l →
      ∃ slots, tpAsNumber (run { self := self } cs) = some slots ∧ (slot, .cases op l) ∈ slots) ∧
    (∀ slots l, tpAsNumber (run { self := self } cs) = some slots →
      lookup (run { self := self } cs).unary ['-'] = some l → ("nb_negative", .unary ['-'] l) ∈ slots) := by
  constructor
  · intro op slot l hs hl
    refine ⟨numberMethods (run { self := self } cs), ?_, ?_⟩
    · unfold tpAsNumber
      rw [if_pos]
      right
      intro h
      rw [h] at hl; simp [lookup] at hl
    · unfold inplaceSlotOf at hs
      have hb : ∀ op ∉ binaryNames, lookup (run { self := self } cs).binary op = none :=
        fun op hop => binary_keys cs _ op hop rfl
      split at hs
      · rename_i e; subst e; cases hs; simp [numberMethods, binarySlot, hl, hb ['+', '='] (by decide)]
      · split at hs
        · rename_i e; subst e; cases hs; simp [numberMethods, binarySlot, hl, hb ['-', '='] (by decide)]
        · split at hs
          · rename_i e; subst e; cases hs; simp [numberMethods, binarySlot, hl, hb ['*', '='] (by decide)]
          · split at hs
            · rename_i e; subst e; cases hs; simp [numberMethods, binarySlot, hl, hb ['/', '='] (by decide)]
            · cases hs
  · intro slots l ht hl
    unfold tpAsNumber at ht
    split at ht
    · cases ht; simp [numberMethods, unarySlot, hl]
    · cases ht

example : lookup (run { self := 0 } [.inplace ['-', '='] .omitted, .unary ['-'] none none]).inplace ['-', '='] =
    some [⟨0, 0, .cls 0⟩] ∧ (tpAsNumber (run { self := 0 } [.inplace ['-', '='] .omitted, .unary ['-'] none none])).isSome := by
  decide

/-- C36: comparisons.  A Python comparison calls the corresponding C++ operator exactly when it was
registered and the other operand is an instance of the class; otherwise `NotImplemented`. -/
theorem C36_richcompare (self : Nat) (cs : List Call) (inst : Bool) (id : OpId) (cmp : Str → Bool) (v : Bool) :
    runRichcompare (run { self := self } cs) inst id cmp = some v ↔
      (inst = true ∧ (∃ c ∈ cs, c = .comparison id.symbol) ∧ v = cmp id.symbol) := by
  have hmem : ∀ (cs : List Call) (o : Ops) (op : Str), op ∈ comparisonNames →
      (op ∈ (run o cs).comparison ↔ op ∈ o.comparison ∨ ∃ c ∈ cs, c = .comparison op) := by
    intro cs
    induction cs with
    | nil => intro o op _; simp [run]
    | cons c cs ih =>
      intro o op hop
      have : run o (c :: cs) = run (call o c).1 cs := rfl
      rw [this, ih _ op hop]
      have h1 : op ∈ (call o c).1.comparison ↔ op ∈ o.comparison ∨ c = .comparison op := by
        cases c with
        | comparison op' =>
          simp only [call, addComparison, Call.comparison.injEq]
          split
          · rename_i hn
            simp only
            constructor
            · exact .inl
            · rintro (h | rfl)
              · exact h
              · exact absurd hop hn
          · simp only
            split
            · rename_i hin
              constructor
              · exact .inl
              · rintro (h | rfl)
                · exact h
                · exact hin
            · simp only [List.mem_append, List.mem_singleton]
              constructor
              · rintro (h | h)
                · exact .inl h
                · exact .inr h.symm
              · rintro (h | h)
                · exact .inl h
                · exact .inr h.symm
        | binary op' r l x =>
          simp only [call, addBinary, reduceCtorEq, or_false]
          split
          · rfl
          · split
            · rfl
            · split <;> rfl
        | inplace op' x =>
          simp only [call, addInplace, reduceCtorEq, or_false]
          split
          · rfl
          · split <;> rfl
        | unary op' r l =>
          simp only [call, addUnary, reduceCtorEq, or_false]
          split
          · rfl
          · split <;> rfl
      rw [h1]
      simp only [List.mem_cons, exists_eq_or_imp]
      tauto
  have hid : id.symbol ∈ comparisonNames := by cases id <;> decide
  have hm := hmem cs { self := self } id.symbol hid
  simp only [List.not_mem_nil, false_or] at hm
  rw [← hm]
  generalize run { self := self } cs = o
  unfold runRichcompare
  cases inst with
  | false => simp
  | true =>
    simp only [Bool.not_true, Bool.false_eq_true, if_false, true_and]
    have hrun : runSwitch (richcompare o) id cmp =
        match (if id.symbol ∈ o.comparison then RcBody.compare id.symbol else .notImplemented) with
        | .compare op => some (cmp op)
        | .notImplemented => none := by
      cases id <;> rfl
    rw [hrun]
    by_cases hin : id.symbol ∈ o.comparison
    · simp [hin, eq_comm]
    · simp [hin]

example : runRichcompare (run { self := 0 } [.comparison ['<']]) true .lt (fun _ => true) = some true ∧
    runRichcompare (run { self := 0 } [.comparison ['<']]) true .gt (fun _ => true) = none := by decide

/-- C36 (partial, inplace operators): every registration is kept, in order, and is tried by the
inplace slot. -/
theorem C36_inplace_partial (o : Ops) (op : Str) (x : RightArg) (r : Operand) (hop : op ∈ inplaceNames)
    (hx : evalRightInplace o.self x = .ok r) :
    lookup (addInplace o op x).1.inplace op = some ((lookup o.inplace op).getD [] ++ [⟨o.self, o.self, r⟩]) := by
  simp [addInplace, hop, hx, lookup_store]

/-- C36 fails for inplace operators: registering the same one twice generates the case twice. -/
theorem C36_inplace_twice_counterexample :
    lookup (run { self := 0 } [.inplace ['+', '='] .omitted, .inplace ['+', '='] .omitted]).inplace ['+', '=']
      = some [⟨0, 0, .cls 0⟩, ⟨0, 0, .cls 0⟩] := by decide

/-- C36 fails when the right operand is given as a type name: each registration creates its own
parameter object, so equal requests are not recognised. -/
theorem C36_spec_twice_counterexample :
    lookup (run { self := 0 } [.binary ['+'] none none (.spec ['i', 'n', 't'] 1),
      .binary ['+'] none none (.spec ['i', 'n', 't'] 2)]).binary ['+']
      = some [⟨0, 0, .param 1⟩, ⟨0, 0, .param 2⟩] := by decide

/-- The documented `CppClass` right operand of an inplace operator is refused. -/
theorem C36_inplace_class_counterexample (o : Ops) (c : Nat) :
    (addInplace o ['+', '='] (.cls c)).2 = some .typeError := by
  simp [addInplace, inplaceNames, evalRightInplace, escape]

/-- C36 fails for a class with a unary operator only: it has no number methods, so the operator is
not available from Python. -/
theorem C36_unary_only_counterexample :
    lookup (run { self := 0 } [.unary ['-'] none none]).unary ['-'] = some [(0, 0)] ∧
    tpAsNumber (run { self := 0 } [.unary ['-'] none none]) = none := by decide

/-- An operator whose right operand could not be evaluated leaves an empty table entry: the slot
exists and always returns `NotImplemented`. -/
theorem C36_failed_operand_counterexample :
    tpAsNumber (run { self := 0 } [.binary ['+'] none none .other]) = some [("nb_add", .cases ['+'] [])] := by
  decide

end Verif.Operators
