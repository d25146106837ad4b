import Verif.Basic

/-!
# C67: the sequence protocol of wrapped classes at run time

What the C functions written from `PySequenceMethods.FUNCTION_TEMPLATES` (pytypeobject.py:285-536)
do when Python calls them: they build an argument tuple, call the wrapper of the method that
implements the operation, and convert its result.

Simplifications.  The wrapper of the method is an arbitrary function from the argument tuple (or
`NULL`) to a new object or an exception; that it keeps this protocol is C42.  Only references held
by the slot function are counted.  Building the argument tuple does not run out of memory.
Passing a `Py_ssize_t` where `Py_BuildValue` reads an `int` (format `i`) delivers the low 32 bits, as
it does on the usual 64-bit ABIs (formally it is undefined).
-/
namespace Verif.Seq
open Verif

/-- Python exceptions. -/
inductive PyExc where
  | runtimeError | indexError | stopIteration | typeError | overflowError | systemError
  | other (n : Nat)
  deriving DecidableEq, Repr

/-- Items of an argument tuple: a new Python integer, or an object passed on. -/
inductive Arg (V : Type) where
  | int (n : Int)
  | obj (v : V)
  deriving DecidableEq, Repr

/-- Outcome of calling the wrapper of a method. -/
inductive MRes (V : Type) where
  | ret (v : V)
  | raise (e : PyExc)
  deriving DecidableEq, Repr

/-- What a slot function knows: references to the argument tuple and to the result that it holds,
and the exception set. -/
structure St where
  args : Int := 0
  result : Int := 0
  exc : Option PyExc := none
  deriving DecidableEq, Repr

/-- C code: `none` is a crash. -/
abbrev C (α : Type) := St → Option (α × St)

def C.pure {α : Type} (a : α) : C α := fun s => some (a, s)

def C.bind {α β : Type} (x : C α) (f : α → C β) : C β := fun s =>
  match x s with
  | none => none
  | some (a, s') => f a s'

instance : Monad C where
  pure := C.pure
  bind := C.bind

/-- `PyErr_SetString` replaces whatever exception is set. -/
def setExc (e : PyExc) : C Unit := fun s => some ((), { s with exc := some e })

/-- Low 32 bits, as a signed number. -/
def low32 (n : Int) : Int := (n + 2147483648) % 4294967296 - 2147483648

/-- An argument of `Py_BuildValue`. -/
inductive BArg (V : Type) where
  /-- format `i` -/
  | i (n : Int)
  /-- format `O` -/
  | O (v : Option V)

/-- Items of `Py_BuildValue`; a `NULL` object makes it fail. -/
def buildItems {V : Type} : List (BArg V) → Option (List (Arg V))
  | [] => some []
  | .i n :: r => (buildItems r).map (.int (low32 n) :: ·)
  | .O (some v) :: r => (buildItems r).map (.obj v :: ·)
  | .O none :: _ => none

/-- `args = Py_BuildValue("(...)", ...)`: on failure `SystemError` is set and `args` is `NULL`. -/
def buildArgs {V : Type} (l : List (BArg V)) : C (Option (List (Arg V))) := fun s =>
  match buildItems l with
  | some as => some (some as, { s with args := s.args + 1 })
  | none => some (none, { s with exc := some (s.exc.getD .systemError) })

/-- Calling the wrapper of the method: the caller gets a new reference, or `NULL` and an
exception. -/
def callMethod {V : Type} (m : Option (List (Arg V)) → MRes V) (args : Option (List (Arg V))) :
    C (Option V) := fun s =>
  match m args with
  | .ret v => some (some v, { s with result := s.result + 1 })
  | .raise e => some (none, { s with exc := some e })

/-- `Py_DECREF(args)`: crashes on `NULL`. -/
def decrefArgs {V : Type} (args : Option (List (Arg V))) : C Unit := fun s =>
  match args with
  | none => none
  | some _ => some ((), { s with args := s.args - 1 })

/-- `Py_DECREF(result)`. -/
def decref {V : Type} (r : Option V) : C Unit := fun s =>
  match r with
  | none => none
  | some _ => some ((), { s with result := s.result - 1 })

/-- `Py_XDECREF(result)`. -/
def xdecref {V : Type} (r : Option V) : C Unit := fun s =>
  match r with
  | none => some ((), s)
  | some _ => some ((), { s with result := s.result - 1 })

/-- `PyErr_ExceptionMatches(e)`: false when no exception is set. -/
def excMatches (e : PyExc) : C Bool := fun s => some (decide (s.exc = some e), s)

/-- Value of an `int` or `bool` object, `none` for other objects. -/
abbrev AsLong (V : Type) := V → Option Int

/-- `PyLong_AsSsize_t`, `PyLong_AsLong` on a 64-bit platform: `-1` and an exception for objects that
are not integers or too large. -/
def asSsize {V : Type} (I : AsLong V) (r : V) : C Int := fun s =>
  match I r with
  | none => some (-1, { s with exc := some .typeError })
  | some n =>
    if -9223372036854775808 ≤ n ∧ n ≤ 9223372036854775807 then some (n, s)
    else some (-1, { s with exc := some .overflowError })

variable {V : Type}

/-- `sq_length`, pytypeobject.py:287-305. -/
def sqLength (I : AsLong V) (m : Option (List (Arg V)) → MRes V) : C Int := do
  let r ← callMethod m none
  match r with
  | none => do
    setExc .runtimeError
    xdecref (V := V) none
    pure (-1)
  | some v => do
    let n ← asSsize I v
    decref (some v)
    pure n

/-- `sq_length_ARGS`, pytypeobject.py:310-331. -/
def sqLengthArgs (I : AsLong V) (m : Option (List (Arg V)) → MRes V) : C Int := do
  let args ← buildArgs (V := V) []
  let r ← callMethod m args
  decrefArgs args
  match r with
  | none => do
    setExc .runtimeError
    xdecref (V := V) none
    pure (-1)
  | some v => do
    let n ← asSsize I v
    decref (some v)
    pure n

/-- `sq_concat` and `sq_inplace_concat`, pytypeobject.py:334-347, 505-518; `sq_repeat` and
`sq_inplace_repeat`, 350-363, 521-534: they differ in the arguments only. -/
def sqPass (items : List (BArg V)) (m : Option (List (Arg V)) → MRes V) : C (Option V) := do
  let args ← buildArgs items
  let r ← callMethod m args
  decrefArgs args
  pure r

/-- `sq_item`, pytypeobject.py:366-386, and `sq_slice` (Python 2), 389-409. -/
def sqItem (items : List (BArg V)) (m : Option (List (Arg V)) → MRes V) : C (Option V) := do
  let args ← buildArgs items
  let r ← callMethod m args
  decrefArgs args
  let a ← excMatches .indexError
  let b ← excMatches .stopIteration
  if a || b then do
    xdecref r
    pure none
  else pure r

/-- `sq_ass_item`, pytypeobject.py:412-443, and `sq_ass_slice` (Python 2), 446-470, which differ in
the arguments and the exception set. -/
def sqAssItem (I : AsLong V) (e : PyExc) (items : List (BArg V)) (m : Option (List (Arg V)) → MRes V) :
    C Int := do
  let args ← buildArgs items
  let r ← callMethod m args
  decrefArgs args
  match r with
  | none => do
    setExc e
    pure (-1)
  | some v =>
    match I v with
    | none => do
      setExc e
      pure (-1)
    | some _ => do
      let n ← asSsize I v
      decref (some v)
      pure (low32 n)

/-- `sq_contains`, pytypeobject.py:473-502. -/
def sqContains (I : AsLong V) (val : Option V) (m : Option (List (Arg V)) → MRes V) : C Int := do
  let args ← buildArgs [.O val]
  let r ← callMethod m args
  decrefArgs args
  match r with
  | none => do
    setExc .runtimeError
    xdecref (V := V) none
    pure (-1)
  | some v =>
    match I v with
    | none => do
      setExc .runtimeError
      xdecref (some v)
      pure (-1)
    | some _ => do
      let n ← asSsize I v
      decref (some v)
      pure (low32 n)

/-! ## Specification -/

/-- Calling a slot function with no exception set. -/
def run {α : Type} (c : C α) : Option (α × St) := c {}

/-- A function returning an object obeys the protocol of CPython: it hands out one reference and no
exception is set, or returns `NULL` with an exception; and it keeps no reference. -/
def ObjectProtocol (o : Option (Option V × St)) : Prop :=
  (∃ v, o = some (some v, { args := 0, result := 1, exc := none })) ∨
  (∃ e, o = some (none, { args := 0, result := 0, exc := some e }))

/-- A function returning a number obeys the protocol: not negative and no exception, or `-1` and an
exception; and it keeps no reference. -/
def IntProtocol (o : Option (Int × St)) : Prop :=
  (∃ n, 0 ≤ n ∧ o = some (n, { args := 0, result := 0, exc := none })) ∨
  (∃ e, o = some (-1, { args := 0, result := 0, exc := some e }))

/-- Numbers that fit into a C `int`. -/
def FitsInt (n : Int) : Prop := -2147483648 ≤ n ∧ n ≤ 2147483647

theorem low32_of_fits {n : Int} (h : FitsInt n) : low32 n = n := by
  unfold low32; unfold FitsInt at h; omega

/-! ## Proofs -/

/-- **C67, concatenation, repetition and element access.**  With arguments that are not `NULL` the
method gets exactly the arguments of the operation, in order; what it returns is returned and what
it raises is raised; nothing is leaked. -/
theorem C67_objects (items : List (BArg V)) (as : List (Arg V)) (h : buildItems items = some as)
    (m : Option (List (Arg V)) → MRes V) (slot : List (BArg V) → (Option (List (Arg V)) → MRes V) → C (Option V))
    (hs : slot = sqPass ∨ slot = sqItem) :
    run (slot items m) = (match m (some as) with
      | .ret v => some (some v, { args := 0, result := 1, exc := none })
      | .raise e => some (none, { args := 0, result := 0, exc := some e })) ∧
    ObjectProtocol (run (slot items m)) := by
  have key : run (slot items m) = (match m (some as) with
      | .ret v => some (some v, { args := 0, result := 1, exc := none })
      | .raise e => some (none, { args := 0, result := 0, exc := some e })) := by
    rcases hs with rfl | rfl
    · unfold run sqPass
      simp only [bind, C.bind, pure, C.pure, buildArgs, h, callMethod]
      cases m (some as) <;> rfl
    · unfold run sqItem
      simp only [bind, C.bind, pure, C.pure, buildArgs, h, callMethod]
      cases hm : m (some as) with
      | ret v => rfl
      | raise e =>
        simp only [decrefArgs, excMatches, xdecref]
        by_cases h1 : e = .indexError
        · subst h1; rfl
        · by_cases h2 : e = .stopIteration
          · subst h2; rfl
          · simp [h1, h2, C.pure]
  refine ⟨key, ?_⟩
  rw [key]
  cases m (some as) with
  | ret v => exact Or.inl ⟨v, rfl⟩
  | raise e => exact Or.inr ⟨e, rfl⟩

/-- C67: the arguments of the object-returning operations: an index reaches the method unchanged if
it fits a C `int`. -/
theorem C67_arguments_partial (v : V) (i j : Int) :
    (buildItems [.O (some v)] = some [.obj v]) ∧
    (FitsInt i → buildItems (V := V) [.i i] = some [.int i]) ∧
    (FitsInt i → FitsInt j → buildItems (V := V) [.i i, .i j] = some [.int i, .int j]) ∧
    (FitsInt i → buildItems [.i i, .O (some v)] = some [.int i, .obj v]) := by
  refine ⟨rfl, fun h => ?_, fun h h' => ?_, fun h => ?_⟩
  · simp [buildItems, low32_of_fits h]
  · simp [buildItems, low32_of_fits h, low32_of_fits h']
  · simp [buildItems, low32_of_fits h]

/-- An index that needs more than 32 bits reaches the method as another index. -/
theorem C67_index_counterexample (m : Option (List (Arg V)) → MRes V) :
    run (sqItem [.i 4294967296] m) = run (sqItem [.i 0] m) ∧
    buildItems (V := V) [.i 4294967296] = some [.int 0] := by
  constructor <;> rfl

/-- **C67, length.**  The length is the integer the method returned; the wrapper without argument
tuple behaves alike. -/
theorem C67_length (I : AsLong V) (m : Option (List (Arg V)) → MRes V) :
    run (sqLength I m) = (match m none with
      | .ret v => match I v with
        | none => some (-1, { exc := some .typeError })
        | some n => if -9223372036854775808 ≤ n ∧ n ≤ 9223372036854775807 then some (n, {})
          else some (-1, { exc := some .overflowError })
      | .raise _ => some (-1, { exc := some .runtimeError })) ∧
    run (sqLengthArgs I m) = run (sqLength I (fun _ => m (some []))) := by
  constructor
  · unfold run sqLength
    simp only [bind, C.bind, pure, C.pure, callMethod]
    cases m none with
    | raise e => rfl
    | ret v =>
      cases hi : I v with
      | none => simp only [C.bind, asSsize, hi]; rfl
      | some n =>
        simp only [C.bind, asSsize, hi]
        by_cases h : -9223372036854775808 ≤ n ∧ n ≤ 9223372036854775807
        · rw [if_pos h, if_pos h]; rfl
        · rw [if_neg h, if_neg h]; rfl
  · unfold run sqLength sqLengthArgs
    simp only [bind, C.bind, pure, C.pure, callMethod, buildArgs, buildItems]
    cases m (some []) with
    | raise e => rfl
    | ret v =>
      cases hi : I v with
      | none => simp only [C.bind, asSsize, hi, decrefArgs]; rfl
      | some n =>
        simp only [C.bind, asSsize, hi, decrefArgs]
        by_cases h : -9223372036854775808 ≤ n ∧ n ≤ 9223372036854775807
        · rw [if_pos h, if_pos h]; rfl
        · rw [if_neg h, if_neg h]; rfl

/-- C67, length: the protocol is kept if the method never returns a negative number. -/
theorem C67_length_protocol_partial (I : AsLong V) (m : Option (List (Arg V)) → MRes V)
    (h : ∀ v n, m none = .ret v → I v = some n → 0 ≤ n) : IntProtocol (run (sqLength I m)) := by
  rw [(C67_length I m).1]
  cases hm : m none with
  | raise e => exact Or.inr ⟨_, rfl⟩
  | ret v =>
    dsimp only
    cases hi : I v with
    | none => exact Or.inr ⟨_, rfl⟩
    | some n =>
      dsimp only
      split
      · exact Or.inl ⟨n, h v n hm hi, rfl⟩
      · exact Or.inr ⟨_, rfl⟩

/-- A negative length is reported as failure without an exception. -/
theorem C67_negative_length_counterexample : run (sqLength (V := Int) some (fun _ => .ret (-5))) = some (-5, {}) := by
  decide

/-- An exception raised by `__len__` is replaced. -/
theorem C67_length_masks_counterexample : run (sqLength (V := Int) some (fun _ => .raise (.other 3))) =
    some (-1, { exc := some .runtimeError }) := by
  decide

/-- **C67, membership (partial: the method returns a Python integer 0 or 1 as `bool` results do, or
raises).** -/
theorem C67_contains_partial (I : AsLong V) (val : V) (m : Option (List (Arg V)) → MRes V) :
    (∀ v n, m (some [.obj val]) = .ret v → I v = some n → FitsInt n →
      run (sqContains I (some val) m) = some (n, {})) ∧
    (∀ v, m (some [.obj val]) = .ret v → I v = none →
      run (sqContains I (some val) m) = some (-1, { exc := some .runtimeError })) ∧
    (∀ e, m (some [.obj val]) = .raise e →
      run (sqContains I (some val) m) = some (-1, { exc := some .runtimeError })) := by
  refine ⟨fun v n hm hi hn => ?_, fun v hm hi => ?_, fun e hm => ?_⟩
  · unfold run sqContains
    have h64 : -9223372036854775808 ≤ n ∧ n ≤ 9223372036854775807 := by unfold FitsInt at hn; omega
    simp only [bind, C.bind, pure, C.pure, callMethod, buildArgs, buildItems, Option.map_some, hm,
      decrefArgs, hi, asSsize, if_pos h64, decref, low32_of_fits hn]
    rfl
  · unfold run sqContains
    simp only [bind, C.bind, pure, C.pure, callMethod, buildArgs, buildItems, Option.map_some, hm,
      decrefArgs, hi, setExc, xdecref]
    rfl
  · unfold run sqContains
    simp only [bind, C.bind, pure, C.pure, callMethod, buildArgs, buildItems, Option.map_some, hm,
      decrefArgs, setExc, xdecref]
    rfl

/-- C67, membership: the protocol is kept if no negative number is returned, and only then. -/
theorem C67_contains_protocol_partial (I : AsLong V) (val : V) (m : Option (List (Arg V)) → MRes V)
    (h : ∀ v n, m (some [.obj val]) = .ret v → I v = some n → 0 ≤ n ∧ FitsInt n) :
    IntProtocol (run (sqContains I (some val) m)) := by
  obtain ⟨h1, h2, h3⟩ := C67_contains_partial I val m
  cases hm : m (some [.obj val]) with
  | raise e => exact Or.inr ⟨_, h3 e hm⟩
  | ret v =>
    cases hi : I v with
    | none => exact Or.inr ⟨_, h2 v hm hi⟩
    | some n => exact Or.inl ⟨n, (h v n hm hi).1, h1 v n hm hi (h v n hm hi).2⟩

/-- A status that needs more than 32 bits: a true answer becomes false, and a method result beyond
64 bits is reported as `-1` with `OverflowError`. -/
theorem C67_contains_counterexample : run (sqContains (V := Int) some (some 7) (fun _ => .ret 4294967296)) =
    some (0, {}) := by
  decide

/-- **C67, assignment.**  With a value that is not `NULL` and an index that fits a C `int`, the method
gets the index and the value; the assignment succeeds exactly when the method returns zero (modulo
2^32); an exception of the method is replaced. -/
theorem C67_assign_partial (I : AsLong V) (i : Int) (hi : FitsInt i) (val : V)
    (m : Option (List (Arg V)) → MRes V) (e : PyExc) :
    (∀ v n, m (some [.int i, .obj val]) = .ret v → I v = some n → FitsInt n →
      run (sqAssItem I e [.i i, .O (some val)] m) = some (n, {})) ∧
    (∀ x, m (some [.int i, .obj val]) = .raise x →
      run (sqAssItem I e [.i i, .O (some val)] m) = some (-1, { exc := some e })) := by
  have hb : buildItems [.i i, .O (some val)] = some [.int i, .obj val] := (C67_arguments_partial val i i).2.2.2 hi
  refine ⟨fun v n hm hv hn => ?_, fun x hm => ?_⟩
  · have h64 : -9223372036854775808 ≤ n ∧ n ≤ 9223372036854775807 := by unfold FitsInt at hn; omega
    unfold run sqAssItem
    simp only [bind, C.bind, pure, C.pure, callMethod, buildArgs, hb, hm, decrefArgs, hv, asSsize,
      if_pos h64, decref, low32_of_fits hn]
    rfl
  · unfold run sqAssItem
    simp only [bind, C.bind, pure, C.pure, callMethod, buildArgs, hb, hm, decrefArgs, setExc]
    rfl

/-- Assignment with a method that returns something else than an integer leaks what it returned,
although it was called and may have stored the value. -/
theorem C67_assign_leak_counterexample (I : AsLong V) (i : Int) (val v : V) (hv : I v = none)
    (m : Option (List (Arg V)) → MRes V) (hm : m (some [.int (low32 i), .obj val]) = .ret v) :
    run (sqAssItem I .indexError [.i i, .O (some val)] m) =
      some (-1, { args := 0, result := 1, exc := some .indexError }) := by
  unfold run sqAssItem
  simp only [bind, C.bind, pure, C.pure, callMethod, buildArgs, buildItems, Option.map_some, hm, decrefArgs, hv, setExc]
  rfl

/-- A status other than zero is a failure without an exception. -/
theorem C67_assign_status_counterexample :
    run (sqAssItem (V := Int) some .indexError [.i 0, .O (some 5)] (fun _ => .ret (-1))) = some (-1, {}) ∧
    ¬ IntProtocol (run (sqAssItem (V := Int) some .indexError [.i 0, .O (some 5)] (fun _ => .ret (-1)))) := by
  have h : run (sqAssItem (V := Int) some .indexError [.i 0, .O (some 5)] (fun _ => .ret (-1))) = some (-1, {}) := by
    decide
  refine ⟨h, ?_⟩
  rw [h]
  rintro (⟨n, hn, he⟩ | ⟨e, he⟩)
  · simp only [Option.some.injEq, Prod.mk.injEq] at he; omega
  · simp at he

/-- **`del obj[i]` crashes**, whatever the method does: CPython passes `NULL` as the value. -/
theorem C67_delete_counterexample (I : AsLong V) (e : PyExc) (i : Int) (m : Option (List (Arg V)) → MRes V) :
    run (sqAssItem I e [.i i, .O none] m) = none := by
  unfold run sqAssItem
  simp only [bind, C.bind, callMethod, buildArgs, buildItems, Option.map_none]
  cases m none <;> rfl

/-! Non-vacuity: a class with three elements 10, 20, 30. -/

/-- `__getitem__` of the example. -/
def exampleGet : Option (List (Arg Int)) → MRes Int
  | some [.int n] => if n = 0 then .ret 10 else if n = 1 then .ret 20 else if n = 2 then .ret 30 else .raise .indexError
  | _ => .raise .typeError

example : run (sqItem [.i 1] exampleGet) = some (some 20, { result := 1 }) ∧
    run (sqItem [.i 3] exampleGet) = some (none, { exc := some .indexError }) := by decide

example : run (sqAssItem (V := Int) some .indexError [.i 1, .O (some 5)]
    (fun a => if a = some [.int 1, .obj 5] then .ret 0 else .raise .typeError)) = some (0, {}) := by decide

example : run (sqLength (V := Int) some (fun _ => .ret 3)) = some (3, {}) := by decide

end Verif.Seq
