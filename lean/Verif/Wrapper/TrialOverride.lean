import Verif.Wrapper.Trial

/-!
# Trial generations of overrides  (pybindgen/typehandlers/base.py:548-685, cppmethod.py:999-1127)

The override of a virtual method in the helper class (the code that calls Python) is tried out when the
helper class is written (cppclass.py:450-461) and generated later (512-518).  The fields are those of
`Core` without `before_parse`, call parameters and flags (they stay empty); `before_call` has no
predecessor (base.py:568), which is the same as an empty one.
-/
namespace Verif.Trial
open Verif Verif.CodeBlock Verif.DeclScope Verif.Params

/-- An override as it is set up. -/
structure Override where
  /-- `convert_c_to_python` of the parameters -/
  params : List Stage
  /-- `convert_python_to_c` of the return value -/
  ret : Stage
  isVoid : Bool
  /-- whether `retval` is declared, base.py:623-625 -/
  retvalDecl : Bool := true
  retType : Str
  /-- the name looked up in Python, cppmethod.py:1028-1031, 1071-1076 -/
  method : Str
  /-- `get_c_error_return`, base.py:565 -/
  error : Str
  /-- what is done where Python does not override the method: for void methods the parent's call
  (cppmethod.py:1082-1084, none for pure and private methods), otherwise the new error return (1090-1102, none
  if a value of a trivially constructible class can be returned) -/
  leave : Option Str
  /-- the class and its C structure, 1110-1122 -/
  className : Str
  pystruct : Str
  this : Str
  noGil : Bool := false

/-- `_generate_gil_code`, base.py:588-596 (the type is a literal: no exception). -/
def gilCode (w : Override) (c : Core) : Core :=
  if w.noGil then c
  else
    let r := c.declare "PyGILState_STATE".toList "__py_gil_state".toList
    let v := match r.2 with | .ok v => v | .error _ => []
    (r.1.blocks [.writeCode 1 (v ++ " = (PyEval_ThreadsInitialized() ? PyGILState_Ensure() : (PyGILState_STATE) 0);".toList),
      .add 1 ("if (PyEval_ThreadsInitialized())\n    PyGILState_Release(".toList ++ v ++ ");".toList)]).1

/-- A new override whose blocks have the error return `e`, base.py:564-573. -/
def freshOverride (w : Override) (e : Str) : Core :=
  gilCode w { parseB := {}, callB := { errorReturn := e }, afterB := { errorReturn := e }, requires := false }

/-- `reset_code_generation_state`, base.py:580-586 (the error return is not reset; the fields an override
does not have are held empty). -/
def resetOverride (w : Override) (s : St) : St :=
  { s with core := gilCode w { s.core with
      counts := (Family.clear ⟨s.core.counts, fun _ => s.core.decls⟩ 0).counts
      decls := (Family.clear ⟨s.core.counts, fun _ => s.core.decls⟩ 0).sinks 0
      callB := s.core.callB.clear
      afterB := s.core.afterB.clear
      parseB := {}
      build := []
      parse := []
      call := []
      flags := [] } }

/-- `set_error_return`, base.py:575-578. -/
def Core.withError (c : Core) (e : Str) : Core :=
  { c with callB := { c.callB with errorReturn := e }, afterB := { c.afterB with errorReturn := e } }

/-- Asking Python for the method, cppmethod.py:1070-1080. -/
def askPython (w : Override) (c : Core) : Core × Option PyErr :=
  match c.declare "PyObject*".toList "py_method".toList with
  | (c1, .error e) => (c1, some e)
  | (c1, .ok v) => c1.blocks [
      .writeCode 1 (v ++ " = PyObject_GetAttrString(m_pyself, (char *) \"".toList ++ w.method ++
        "\"); PyErr_Clear();".toList),
      .add 1 ("Py_XDECREF(".toList ++ v ++ ");".toList),
      .writeCode 1 ("if (".toList ++ v ++ " == NULL || Py_TYPE(".toList ++ v ++ ") == &PyCFunction_Type) {".toList)]

/-- The new error return, cppmethod.py:1089-1102. -/
def setError (w : Override) (c : Core) : Core × Option PyErr :=
  (match w.isVoid, w.leave with | false, some e => c.withError e | _, _ => c, none)

/-- Leaving the override when Python has none, cppmethod.py:1081-1107; then the object's `obj` is set,
1109-1122. -/
def leaveOverride (w : Override) (c : Core) : Core × Option PyErr :=
  let ops := if w.isVoid then
      (match w.leave with | some x => [Op.writeCode 1 ("    ".toList ++ x)] | none => []) ++
        [.indent 1 4, .writeCleanup 1, .writeCode 1 "return;".toList, .unindent 1]
    else [.indent 1 4, .writeCleanup 1, .writeCode 1 c.callB.errorReturn, .unindent 1]
  match c.blocks (ops ++ [.writeCode 1 ['}']]) with
  | (c1, some e) => (c1, some e)
  | (c1, none) =>
    match c1.declare (w.className ++ ['*']) "self_obj_before".toList with
    | (c2, .error e) => (c2, some e)
    | (c2, .ok v) => c2.blocks [
        .writeCode 1 (v ++ " = reinterpret_cast< ".toList ++ w.pystruct ++ "* >(m_pyself)->obj;".toList),
        .writeCode 1 ("reinterpret_cast< ".toList ++ w.pystruct ++ "* >(m_pyself)->obj = ".toList ++ w.this ++ [';']),
        .add 1 ("reinterpret_cast< ".toList ++ w.pystruct ++ "* >(m_pyself)->obj = ".toList ++ v ++ [';'])]

/-- `py_retval` and `retval`, base.py:619-626. -/
def declareResults (w : Override) (c : Core) : Core × Option PyErr :=
  match c.declare "PyObject*".toList "py_retval".toList with
  | (c1, .error e) => (c1, some e)
  | (c1, .ok v) =>
    if v ≠ "py_retval".toList then (c1, some .assertionError)
    else if w.isVoid = false ∧ w.retvalDecl = true then
      match c1.declare w.retType "retval".toList with
      | (c2, .error e) => (c2, some e)
      | (c2, .ok _) => (c2, none)
    else (c1, none)

/-- The call into Python, cppmethod.py:1026-1039. -/
def callPython (w : Override) (c : Core) : Core × Option PyErr :=
  let ps := buildParameters c.build false
  c.blocks [
    .writeCode 1 ("py_retval = PyObject_CallMethod(".toList ++ pyJoin ", ".toList
      (["m_pyself".toList, "(char *) \"".toList ++ w.method ++ ['"'], "(char *) ".toList ++ ps.headD []] ++ ps.tail) ++
      ");".toList),
    .errorCheck 1 "py_retval == NULL".toList (some "PyErr_Print();".toList),
    .add 1 "Py_DECREF(py_retval);".toList]

/-- The result of the call, base.py:639-661. -/
def parseResult (w : Override) (c : Core) : Core × Option PyErr :=
  match getParameters c.parse with
  | .error e => (c, some e)
  | .ok ps => c.blocks ((if ps = [['"', '"']] then
        [.errorCheck 1 "py_retval != Py_None".toList
          (some "PyErr_SetString(PyExc_TypeError, \"function/method should return None\");".toList)]
      else
        [.writeCode 1 "py_retval = Py_BuildValue((char*) \"(N)\", py_retval);".toList,
         .errorCheck 1 ("!PyArg_ParseTuple(".toList ++ pyJoin ", ".toList
            (["py_retval".toList, "(char *) ".toList ++ ps.headD []] ++ ps.tail) ++ ")".toList)
          (some "PyErr_Print();".toList)]) ++
      [.writeCleanup 2, .writeCode 2 (if w.isVoid then "return;".toList else "return retval;".toList)])

/-- One conversion after the other, base.py:629-630. -/
def allStages : List Stage → Stage
  | [] => lift (fun c => (c, none))
  | g :: gs => g.andThen (allStages gs)

/-- The rest of the collecting phase, cppmethod.py:1103-1127 and base.py:619-661. -/
def restOverride (w : Override) : Stage :=
  (lift (leaveOverride w)).andThen <| (lift (declareResults w)).andThen <| (allStages w.params).andThen <|
    (lift (callPython w)).andThen <| w.ret.andThen (lift (parseResult w))

/-- The collecting phase of the override. -/
def bodyOverride (w : Override) : Stage :=
  (lift (askPython w)).andThen <| (lift (setError w)).andThen (restOverride w)

/-- `generate`, base.py:606-685: the lines of the body. -/
def generateOverride (w : Override) (s : St) : St × PyRes (List Str) :=
  match bodyOverride w s with
  | (s1, some e) => (s1, .error e)
  | (s1, none) => ({ s1 with core := s1.core.flushed },
      .ok ((s1.core.decls.lines ++ [[]] ++ s1.core.callB.sink.lines ++ s1.core.afterB.sink.lines).map rstrip))

/-- Trying it out, cppclass.py:450-461: a reset before and, whatever happens, after. -/
def tryOverride (w : Override) (s : St) : St × PyRes (List Str) :=
  let r := generateOverride w (resetOverride w s)
  (resetOverride w r.1, r.2)

/-- A new override. -/
def startOverride (w : Override) : St := { core := freshOverride w w.error }

/-- The state after `n` trials. -/
def afterTrials (w : Override) : Nat → St
  | 0 => startOverride w
  | n + 1 => (tryOverride w (afterTrials w n)).1

/-- `IntParam.convert_c_to_python`, inttype.py:18-20. -/
def intArgument (name : Str) : Stage := lift fun c =>
  ({ c with build := addBuild c.build ⟨['i'], [name], none⟩ false }, none)

/-- `IntReturn.convert_python_to_c`, inttype.py:122-123. -/
def intResult : Stage := lift fun c =>
  ({ c with parse := (addParam c.parse ⟨['i'], ["&retval".toList], none, false⟩ true).1 }, none)

end Verif.Trial
