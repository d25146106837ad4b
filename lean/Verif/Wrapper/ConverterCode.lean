import Verif.Wrapper.Converter

/-!
# The code of converter functions, statement by statement
-/
namespace Verif.Convert
open Verif Verif.Flow Verif.Params Verif.DeclScope Verif.Wrap Verif.IntRange

variable {T D : Type}

def call (E : Env T D) (t : VT) (x : PyV T D) (old : Option (CE T D)) : Option (Seen T D) := seen (callPyToC E t x old)

/-! ## Running the code -/

/-- The state when the function is entered. -/
def start (old : Option (CE T D)) : St T D := { vars := fun v => if v = "*address".toList then old else none }

/-- The state when the object has been packed. -/
def packed (x : PyV T D) (old : Option (CE T D)) : St T D := { start old with tuple := some x, held := 1 }

/-- The functions have the same shape: the object is packed and parsed; `tail` follows. -/
def shape (C : Ctx T D) (fmt : Str) (texts vars : List Str) (old : Option (CE T D)) (tail : List Stmt) : End T D :=
  match C.E.test (intVar C.t C.decls) (otherVar C.t C.decls) (packed C.x old) (.parse fmt texts vars) with
  | none => .undefined
  | some (true, s) => C.acts [.clean 0 1 "Py_DECREF(py_retval);".toList, .ret "return 0;".toList] s
  | some (false, s) => C.exec tail s

def parsed (C : Ctx T D) (fmt : Str) (texts vars : List Str) : Parsed T D :=
  C.E.parseUnit (intVar C.t C.decls) (otherVar C.t C.decls) fmt texts vars C.x

/-- What is seen. -/
def outcome (C : Ctx T D) (old : Option (CE T D)) (tail : List Stmt) : Parsed T D → Option (Seen T D)
  | .undefined => none
  | .refused => some ⟨false, old, 0, 0, true⟩
  | .stored l b => seen (.ok (C.exec tail { l.foldl (fun s p => s.set p.1 p.2) (packed C.x old) with buffers := 0 + b }))

theorem unpack_meaning (t : VT) : stmtOf t "Py_DECREF(py_retval);".toList = some .unpack := by
  cases t with
  | plain t => exact (by decide +kernel : stmtTable.lookup "Py_DECREF(py_retval);".toList = some .unpack)
  | cls c =>
    have h : "Py_DECREF(py_retval);".toList ≠ "*address = *".toList ++ ("tmp_".toList ++ c.name) ++ "->obj;".toList := by
      intro h
      have h2 : some 'P' = some '*' := congrArg List.head? h
      revert h2
      decide
    rw [stmtOf, if_neg h]
    exact (by decide +kernel : stmtTable.lookup "Py_DECREF(py_retval);".toList = some .unpack)

theorem seen_shape (C : Ctx T D) (fmt : Str) (texts vars : List Str) (old : Option (CE T D)) (tail : List Stmt) :
    seen (.ok (shape C fmt texts vars old tail)) = outcome C old tail (parsed C fmt texts vars) := by
  unfold shape parsed Env.test
  dsimp only [packed]
  cases C.E.parseUnit (intVar C.t C.decls) (otherVar C.t C.decls) fmt texts vars C.x with
  | undefined => rfl
  | refused =>
    dsimp only [Ctx.acts, Ctx.act]
    rw [unpack_meaning]
    rfl
  | stored l b => rfl

/-- The code written for a type: declarations, what is parsed, and what follows. -/
structure Code where
  decls : List String := []
  fmt : String
  texts : List Str := []
  vars : List String := ["*address"]
  tail : List Stmt := []

def assignStmt (s : String) : Stmt := .act (.code s.toList)

/-- A range check. -/
def rangeStmt (c : String) : Stmt :=
  .exit c.toList [.code "PyErr_SetString(PyExc_ValueError, \"Out of range\");".toList,
    .clean 0 1 "Py_DECREF(py_retval);".toList, .ret "return 0;".toList]

def codeOf : Plain → Code
  | .int .int => { fmt := "i" }
  | .int .uint => { fmt := "I" }
  | .int .int16 => { fmt := "i", decls := ["int tmp;"], vars := ["tmp"], tail := [rangeStmt "tmp > 32767 || tmp < -32768", assignStmt "*address = tmp;"] }
  | .int .uint16 => { fmt := "i", decls := ["int tmp;"], vars := ["tmp"], tail := [rangeStmt "tmp > 0xffff", assignStmt "*address = tmp;"] }
  | .int .int8 => { fmt := "i", decls := ["int tmp;"], vars := ["tmp"], tail := [rangeStmt "tmp > 128 || tmp < -127", assignStmt "*address = tmp;"] }
  | .int .uint8 => { fmt := "i", decls := ["int tmp;"], vars := ["tmp"], tail := [rangeStmt "tmp > 0xff", assignStmt "*address = tmp;"] }
  | .int .long => { fmt := "l" }
  | .int .ulong => { fmt := "k" }
  | .int .longlong => { fmt := "L" }
  | .int .ulonglong => { fmt := "K" }
  | .int .size => { fmt := "K", decls := ["unsigned PY_LONG_LONG retval_tmp;"], vars := ["retval_tmp"], tail := [assignStmt "*address = retval_tmp;"] }
  | .bool => { fmt := "O", decls := ["PyObject *py_boolretval;"], vars := ["py_boolretval"], tail := [assignStmt "*address = PyObject_IsTrue(py_boolretval);"] }
  | .double => { fmt := "d" }
  | .float => { fmt := "f" }
  | .char => { fmt := "c" }
  | .cstring _ => { fmt := "s" }
  | .std => { fmt := "s#", decls := ["const char *retval_ptr;", "Py_ssize_t retval_len;"], vars := ["retval_ptr", "retval_len"], tail := [assignStmt "*address = std::string(retval_ptr, retval_len);"] }
  | .glib => { fmt := "et", texts := ["\"utf-8\"".toList], decls := ["const char *retval_ptr;"], vars := ["retval_ptr"], tail := [assignStmt "*address = Glib::ustring(retval_ptr);"] }
  | .pyobject true => { fmt := "O", tail := [assignStmt "Py_INCREF((PyObject*) *address);"] }
  | .pyobject false => { fmt := "O" }

def Code.ctx (c : Code) (E : Env T D) (t : VT) (x : PyV T D) : Ctx T D :=
  ⟨E, t, "PyObject *py_retval;".toList :: c.decls.map String.toList, x⟩

/-- `tail`, the cleanup and `return 1;`. -/
def Code.rest (c : Code) : List Stmt :=
  c.tail ++ [.act (.clean 0 1 "Py_DECREF(py_retval);".toList), .act (.ret "return 1;".toList)]

/-- The text of the condition that parses. -/
def Code.cond (c : Code) : Str :=
  callText "!PyArg_ParseTuple" ("py_retval".toList :: castFirst (("\"".toList ++ c.fmt.toList ++ "\"".toList) ::
    (c.texts ++ c.vars.map (fun v => '&' :: v.toList))))

def packText : Str := "py_retval = Py_BuildValue((char *) \"(O)\", value);".toList
def decText : Str := "Py_DECREF(py_retval);".toList
def ret0 : Str := "return 0;".toList

/-- The whole body. -/
def Code.body (c : Code) : List Stmt :=
  .act (.code packText) :: .acq 0 1 decText :: .exit c.cond [.clean 0 1 decText, .ret ret0] :: c.rest

/-- What is generated: declarations and body. -/
def generated (t : VT) : Option (List Str × List Stmt) :=
  (pyToC t {}).toOption.map (fun w => (declLines w, ((Gen.fresh (fun _ => "return 0;".toList)).run w.ops).body 2))

theorem generated_plain (t : Plain) :
    generated (.plain t) = some ("PyObject *py_retval;".toList :: (codeOf t).decls.map String.toList, (codeOf t).body) := by
  cases t with
  | int i => cases i <;> decide +kernel
  | pyobject own => cases own <;> decide +kernel
  | cstring f => cases f <;> decide +kernel
  | _ => decide +kernel

set_option maxHeartbeats 1000000 in
theorem cond_plain (t : Plain) : testTable.lookup (codeOf t).cond =
    some (.parse (codeOf t).fmt.toList (codeOf t).texts ((codeOf t).vars.map String.toList)) := by
  cases t with
  | int i => cases i <;> decide +kernel
  | pyobject own => cases own <;> decide +kernel
  | cstring f => cases f <;> decide +kernel
  | _ => decide +kernel

theorem pack_meaning (t : VT) : stmtOf t packText = some .pack := by
  cases t with
  | plain t => exact (by decide +kernel : stmtTable.lookup packText = some .pack)
  | cls c =>
    have h : packText ≠ "*address = *".toList ++ ("tmp_".toList ++ c.name) ++ "->obj;".toList := by
      intro h
      have h2 : some 'p' = some '*' := congrArg List.head? h
      revert h2
      decide
    rw [stmtOf, if_neg h]
    exact (by decide +kernel : stmtTable.lookup packText = some .pack)

theorem exec_shape (C : Ctx T D) (c : Str) (fmt : Str) (texts vars : List Str) (old : Option (CE T D)) (tail : List Stmt)
    (hc : testOf C.t c = some (.parse fmt texts vars)) :
    C.exec (.act (.code packText) :: .acq 0 1 decText :: .exit c [.clean 0 1 decText, .ret ret0] :: tail) (start old) =
      shape C fmt texts vars old tail := by
  unfold Ctx.exec
  unfold Ctx.act
  rw [pack_meaning]
  dsimp only [Env.act]
  unfold Ctx.exec
  unfold Ctx.exec
  unfold Ctx.test
  rw [hc]
  rfl

theorem call_of_generated (E : Env T D) (t : VT) (x : PyV T D) (old : Option (CE T D)) {decls : List Str} {body : List Stmt}
    (h : generated t = some (decls, body)) :
    call E t x old = seen (.ok (Ctx.exec ⟨E, t, decls, x⟩ body (start old))) := by
  unfold generated at h
  unfold call callPyToC
  cases hw : pyToC t {} with
  | error e => rw [hw] at h; cases h
  | ok w =>
    rw [hw] at h
    have h := Option.some.inj h
    cases h
    rfl

theorem call_plain (E : Env T D) (t : Plain) (x : PyV T D) (old : Option (CE T D)) :
    call E (.plain t) x old = outcome ((codeOf t).ctx E (.plain t) x) old (codeOf t).rest
      (parsed ((codeOf t).ctx E (.plain t) x) (codeOf t).fmt.toList (codeOf t).texts ((codeOf t).vars.map String.toList)) := by
  rw [call_of_generated E _ x old (generated_plain t), ← seen_shape]
  exact congrArg (fun e => seen (.ok e)) (exec_shape ((codeOf t).ctx E (.plain t) x) _ _ _ _ old _ (cond_plain t))

end Verif.Convert
