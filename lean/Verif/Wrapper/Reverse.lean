import Verif.Wrapper.Forward

/-!
# Reverse wrappers (C++ calls Python)

`ReverseWrapperBase` (pybindgen/typehandlers/base.py:546-685), virtual method proxies
(pybindgen/cppmethod.py:1026-1127) and the reverse direction of the scalar type handlers.  Code
blocks: `before_call` is 0, `after_call` is 1.
-/
namespace Verif.Wrap
open Verif Verif.Flow Verif.Params Verif.DeclScope

/-- base.py:593. -/
def ensureText (v : Str) : Str :=
  v ++ " = (PyEval_ThreadsInitialized() ? PyGILState_Ensure() : (PyGILState_STATE) 0);".toList

/-- base.py:595-596. -/
def releaseText (v : Str) : Str :=
  "if (PyEval_ThreadsInitialized())\n    PyGILState_Release(".toList ++ v ++ ");".toList

/-- `_generate_gil_code`, base.py:588-596. -/
def gilCode (noGil : Bool) : Gen1 := fun w =>
  if noGil then .ok w
  else do
    let (w, v) ← w.declare "PyGILState_STATE".toList "__py_gil_state".toList none none
    pure ((w.op (.write 0 (ensureText v))).op (.add 0 (releaseText v)))

/-- A reverse wrapper. -/
structure RConfig where
  /-- `NO_GIL_LOCKING` -/
  noGil : Bool := false
  /-- what a subclass writes before calling the inherited `generate` -/
  prologue : Gen1 := .ok
  /-- the type `retval` is declared with, if it is (base.py:621-624) -/
  retDecl : Option Str := none
  /-- `convert_c_to_python` of the parameters -/
  params : List Gen1 := []
  /-- `generate_python_call` -/
  pycall : Gen1
  /-- `convert_python_to_c` of the return value -/
  ret : Gen1
  isVoid : Bool := true

/-- One generation step after another, exceptions passing through. -/
def runAll : List Gen1 → Gen1
  | [], w => .ok w
  | p :: ps, w => do runAll ps (← p w)

/-- `py_retval`, base.py:617-619: the variable must get its own name. -/
def declRetval : Gen1 := fun w => do
  let (w, v) ← w.declare "PyObject*".toList "py_retval".toList none none
  if v = "py_retval".toList then pure w else .error .assertionError

/-- base.py:621-624. -/
def declCRetval (t : Option Str) : Gen1 := fun w =>
  match t with
  | some t => do pure (← w.declare t "retval".toList none none).1
  | none => .ok w

/-- Parsing what Python returned, base.py:637-653. -/
def revParse : Gen1 := fun w => do
  let ps ← getParameters w.parse
  if ps = ["\"\"".toList] then
    pure (w.op (.check 0 "py_retval != Py_None".toList
      (some "PyErr_SetString(PyExc_TypeError, \"function/method should return None\");".toList)))
  else
    let w := w.op (.write 0 "py_retval = Py_BuildValue((char*) \"(N)\", py_retval);".toList)
    pure (w.op (.check 0 (callText "!PyArg_ParseTuple" ("py_retval".toList :: castFirst ps))
      (some "PyErr_Print();".toList)))

/-- base.py:655-660. -/
def revFinish (isVoid : Bool) (w : W) : W :=
  (w.op (.cleanup 1)).op (.ret 1 (if isVoid then "return;".toList else "return retval;".toList))

/-- Construction (or reset) of a reverse wrapper followed by `generate`, base.py:573/586 and
605-660. -/
def reverseGenerate (c : RConfig) : Gen1 := fun w => do
  let w ← gilCode c.noGil w
  let w ← c.prologue w
  let w ← declRetval w
  let w ← declCRetval c.retDecl w
  let w ← runAll c.params w
  let w ← c.pycall w
  let w ← c.ret w
  let w ← revParse w
  pure (revFinish c.isVoid w)

/-! ## Virtual method proxies -/

/-- What a proxy needs to know of its method. -/
structure Proxy where
  cls : Str
  pystruct : Str
  method : Str
  /-- C++ names of the parameters -/
  params : List Str
  isVoid : Bool
  /-- the parent implementation cannot be called: pure virtual or private (cppmethod.py:1082, 1090) -/
  noParent : Bool
  /-- the return value is a class with a trivial constructor (cppmethod.py:1092-1094) -/
  trivialRet : Bool := false
  isConst : Bool := false
  /-- `settings._get_deprecated_virtuals()` -/
  oldNames : Bool := false
  /-- `return_value.get_c_error_return()` -/
  errorReturn : Str

/-- Name the Python method is looked up by, cppmethod.py:1029-1031, 1071-1076. -/
def Proxy.pyName (p : Proxy) : Str := if p.oldNames then '_' :: p.method else p.method

/-- The call of the parent implementation, cppmethod.py:1083, 1101. -/
def Proxy.parentCall (p : Proxy) : Str :=
  callText (String.ofList (p.cls ++ "::".toList ++ p.method)) p.params ++ ";".toList

/-- The fatal error, cppmethod.py:1096-1099. -/
def fatalText : Str :=
  ("\nPyErr_Print();\nPy_FatalError(\"Error detected, but parent virtual is pure virtual or private virtual, \"\n" ++
   "              \"and return is a class without trival constructor\");").toList

/-- `error_return` when the body is generated, cppmethod.py:1081-1102. -/
def Proxy.newError (p : Proxy) : Option Str :=
  if p.isVoid then none
  else if p.noParent then (if p.trivialRet then none else some fatalText)
  else some ("return ".toList ++ p.parentCall)

/-- `CppVirtualMethodProxy.generate` up to the call of the inherited method, cppmethod.py:1067-1122. -/
def Proxy.prologue (p : Proxy) : Gen1 := fun w => do
  let (w, m) ← w.declare "PyObject*".toList "py_method".toList none none
  let w := w.op (.write 0 (m ++ " = PyObject_GetAttrString(m_pyself, (char *) \"".toList ++ p.pyName ++
    "\"); PyErr_Clear();".toList))
  let w := w.op (.add 0 ("Py_XDECREF(".toList ++ m ++ ");".toList))
  let w := match p.newError with
    | some e => (w.op (.setErr 0 e)).op (.setErr 1 e)
    | none => w
  let w := w.op (.branch 0 ("if (".toList ++ m ++ " == NULL || Py_TYPE(".toList ++ m ++
      ") == &PyCFunction_Type)".toList)
    (if p.isVoid ∧ !p.noParent then [p.parentCall] else []) []
    (if p.isVoid then "return;".toList else p.newError.getD p.errorReturn))
  let (w, o) ← w.declare (p.cls ++ "*".toList) "self_obj_before".toList none none
  let obj := "reinterpret_cast< ".toList ++ p.pystruct ++ "* >(m_pyself)->obj".toList
  let w := w.op (.write 0 (o ++ " = ".toList ++ obj ++ ";".toList))
  let w := w.op (.write 0 (obj ++ " = ".toList ++
    (if p.isConst then "const_cast< ".toList ++ p.cls ++ "* >((const ".toList ++ p.cls ++ "*) this)".toList
     else "(".toList ++ p.cls ++ "*) this".toList) ++ ";".toList))
  pure (w.op (.add 0 (obj ++ " = ".toList ++ o ++ ";".toList)))

/-- `CppVirtualMethodProxy.generate_python_call`, cppmethod.py:1026-1039. -/
def Proxy.pycall (p : Proxy) : Gen1 := fun w =>
  let w := w.op (.write 0 ("py_retval = ".toList ++ callText "PyObject_CallMethod"
    ("m_pyself".toList :: ("(char *) \"".toList ++ p.pyName ++ "\"".toList) ::
      castFirst (buildParameters w.build false)) ++ ";".toList))
  let w := w.op (.check 0 "py_retval == NULL".toList (some "PyErr_Print();".toList))
  .ok (w.op (.add 0 "Py_DECREF(py_retval);".toList))

/-- The proxy of a virtual method with the given type handlers. -/
def Proxy.config (p : Proxy) (retDecl : Option Str) (params : List Gen1) (ret : Gen1) : RConfig :=
  { prologue := p.prologue, retDecl, params, pycall := p.pycall, ret, isVoid := p.isVoid }

/-! ## Type handlers in the reverse direction -/

/-- `convert_c_to_python` of the scalar parameter handlers: by-value classes pass `in` values
(inttype.py:18-20, 34-36, 292-294, 331-333, 370-372, 427-429, 488-490, 528-530, 567-569, 626-628,
646-648; doubletype.py:12-14; floattype.py:14-16), reference and pointer classes also parse `out`
values into `target` (inttype.py:58-63, 163-167, 211-215, 232-236, 309-314, 349-354, 387-392,
444-449, 694-698, 723-727, 750-755; doubletype.py:44-48, 67-71; floattype.py:53-57, 112-116). -/
structure RScalar where
  name : Str
  fmt : Str
  /-- expression passed to Python -/
  source : Str
  isIn : Bool := true
  isOut : Bool := false
  /-- expression handed to `PyArg_ParseTuple` -/
  target : Str := []

def RScalar.convert (s : RScalar) : Gen1 := fun w =>
  let w := if s.isIn then w.addBuild ⟨s.fmt, [s.source], none⟩ false else w
  .ok (if s.isOut then w.addParse ⟨s.fmt, [s.target], some s.name, false⟩ false else w)

/-- A reference parameter `T &name`: the value itself is used both ways. -/
def rRef (fmt name : Str) (isIn isOut : Bool) : RScalar :=
  { name, fmt, source := name, isIn, isOut, target := name }

/-- A pointer parameter `T *name`. -/
def rPtr (fmt name : Str) (isIn isOut : Bool) : RScalar :=
  { name, fmt, source := '*' :: name, isIn, isOut, target := name }

/-- `BoolPtrParam`/`BoolRefParam.convert_c_to_python`, booltype.py:55-65, 87-97; `lhs` is `*name`
or `name`. -/
def rBool (name lhs : Str) (isIn isOut : Bool) : Gen1 := fun w => do
  let w := if isIn then w.addBuild ⟨"N".toList, ["PyBool_FromLong(".toList ++ lhs ++ ")".toList], none⟩ false
    else w
  whenG isOut (fun w => do
    let (w, v) ← w.declare "PyObject *".toList ("py_".toList ++ name) none none
    let w := w.addParse ⟨"O".toList, ['&' :: v], some name, false⟩ false
    pure (w.op (.write 1 (lhs ++ " = PyObject_IsTrue(".toList ++ v ++ ");".toList)))) w

/-- Return values parsed in place: `IntReturn`, `UnsignedIntReturn`, `long`, `long long`,
`DoubleReturn`, `FloatReturn` (inttype.py:122-123, 136-137, 513-514, 553-554, 592-593, 672-673;
doubletype.py:31-32; floattype.py:32-33). -/
def rReturn (fmt : Str) : Gen1 := fun w =>
  .ok (w.addParse ⟨fmt, ["&retval".toList], none, false⟩ true)

/-- Return values parsed through a variable: the 8 and 16 bit classes with a range check
(inttype.py:256-262, 275-281, 411-417, 466-472), `SizeTReturn`, `BoolReturn` without
(inttype.py:606-612; booltype.py:39-43). `chk` and `conv` are the texts around the variable. -/
def rReturnVia (type base fmt : Str) (chk : Option (Str → Str)) (conv : Str → Str) : Gen1 := fun w => do
  let (w, v) ← w.declare type base none none
  let w := w.addParse ⟨fmt, ['&' :: v], none, false⟩ true
  let w := match chk with
    | some f => w.op (.check 1 (f v) (some "PyErr_SetString(PyExc_ValueError, \"Out of range\");".toList))
    | none => w
  pure (w.op (.write 1 ("retval = ".toList ++ conv v ++ ";".toList)))

end Verif.Wrap
