import Verif.Wrapper.Flow
import Verif.Params.Model
import Verif.DeclScope.Model

/-!
# Forward wrappers (Python calls C++)

`ForwardWrapperBase` (pybindgen/typehandlers/base.py:689-985), the call generators of functions,
methods and constructors, custodian hooks, and a family of type handlers.

Type handlers, hooks and `generate_call` are arbitrary state transformers in the model of
`generate_body`; theorems then quantify over all of them, or over those obeying a stated contract.
-/
namespace Verif.Wrap
open Verif Verif.Flow Verif.Params Verif.DeclScope

/-- The state of a wrapper under generation: base.py:765-779 (forward), 567-572 (reverse).
`vars` keeps the declarations in structured form next to the text kept by `decls`; `ops` is the
sequence of calls made on the code blocks, which are numbered in chain order (forward:
`before_parse` 0, `before_call` 1, `after_call` 2; reverse: `before_call` 0, `after_call` 1).
`indent`/`unindent` calls are left out. -/
structure W where
  decls : Family := {}
  vars : List (Str × Option Str) := []
  ops : List Op := []
  parse : List PItem := []
  build : List BItem := []
  call : List Str := []
  flags : List Str := []

/-- A piece of the generator working on a wrapper. -/
abbrev Gen1 := W → PyRes W

/-- `declarations.declare_variable`, base.py:462-488. -/
def W.declare (w : W) (type name : Str) (init arr : Option Str) : PyRes (W × Str) :=
  match (w.decls.declare 0 type name init arr).2 with
  | .error e => .error e
  | .ok v => .ok ({ w with decls := (w.decls.declare 0 type name init arr).1
                           vars := w.vars ++ [(v, init)] }, v)

/-- `declarations.reserve_variable`, base.py:490-506. -/
def W.reserve (w : W) (name : Str) : W := { w with decls := (w.decls.reserve name).1 }

/-- A call on a code block. -/
def W.op (w : W) (o : Op) : W := { w with ops := w.ops ++ [o] }

/-- `parse_params.add_parameter`, base.py:280-301. -/
def W.addParse (w : W) (it : PItem) (prepend : Bool) : W :=
  { w with parse := (addParam w.parse it prepend).1 }

/-- `build_params.add_parameter`, base.py:372-391. -/
def W.addBuild (w : W) (it : BItem) (prepend : Bool) : W :=
  { w with build := Params.addBuild w.build it prepend }

/-- `call_params.append`. -/
def W.addCall (w : W) (e : Str) : W := { w with call := w.call ++ [e] }

/-- The two values of `force_parse` besides `None`, base.py:737-738. -/
inductive ParseKind where
  | tuple | keywords
  deriving DecidableEq, Repr

/-- `_init_code_generation_state`, base.py:789-799: `hasRet` is
`return_value is not None or HAVE_RETURN_VALUE`, `retDecl` the type `retval` is declared with, if
it is. -/
def initState (hasRet : Bool) (retDecl : Option Str) : Gen1 := fun w => do
  let w ← if hasRet then do pure (← w.declare "PyObject*".toList "py_retval".toList none none).1
    else pure w
  let w ← match retDecl with
    | some t => do pure (← w.declare t "retval".toList none none).1
    | none => pure w
  pure ((w.reserve "args".toList).reserve "kwargs".toList)

/-- `'%s' % (', '.join(l),)` in call position. -/
def callText (f : String) (l : List Str) : Str := f.toList ++ "(".toList ++ pyJoin ", ".toList l ++ ")".toList

/-- The text restoring the thread state, base.py:867-869. -/
def restoreText (v : Str) : Str :=
  "\nif (".toList ++ v ++ ")\n     PyEval_RestoreThread(".toList ++ v ++ ");\n".toList

/-- The text giving up the GIL, base.py:890-893. -/
def saveText (v : Str) : Str :=
  "\nif (PyEval_ThreadsInitialized ())\n     ".toList ++ v ++ " = PyEval_SaveThread();\n".toList

/-- The deprecation check, base.py:885. -/
def deprecatedText (msg : Str) : Str :=
  "PyErr_Warn(PyExc_DeprecationWarning, (char *) \"".toList ++ msg ++ "\")".toList

/-- `params[0] = '(char *) ' + params[0]`, base.py:900. -/
def castFirst : List Str → List Str
  | [] => []
  | p :: ps => ("(char *) ".toList ++ p) :: ps

/-- The keyword array initializer, base.py:915. -/
def kwInit (kw : List Str) : Str :=
  "{".toList ++ pyJoin ", ".toList (kw.map (fun k => "\"".toList ++ k ++ "\"".toList) ++ ["NULL".toList])
    ++ "}".toList

/-- What a wrapper consists of. -/
structure Config where
  unblock : Bool := false
  params : List Gen1 := []
  /-- message of the deprecation warning, if the wrapper is deprecated (base.py:880-884) -/
  deprecated : Option Str := none
  pre : Gen1 := .ok
  call : Gen1
  force : Option ParseKind := none
  /-- `convert_c_to_python` of the return value, if there is one -/
  ret : Option Gen1 := none
  haveRet : Bool := false
  post : Gen1 := .ok

/-- `NotImplementedError` becomes `CodeGenerationError`, base.py:873-878 and 935-940. -/
def guardNI (r : PyRes W) : PyRes W :=
  match r with
  | .error .notImplementedError => .error .codeGenerationError
  | r => r

/-- Conversion of the parameters, base.py:871-878. -/
def convertParams : List Gen1 → Gen1
  | [], w => .ok w
  | p :: ps, w => do convertParams ps (← guardNI (p w))

/-- Parsing code and method flags, base.py:897-922. -/
def parseStep (force : Option ParseKind) : Gen1 := fun w => do
  let params ← getParameters w.parse
  let keywords ← getKeywords w.parse
  if params ≠ ["\"\"".toList] ∨ force ≠ none then
    let w := { w with flags := w.flags ++ ["METH_VARARGS".toList] }
    if keywords = none ∧ force ≠ some .keywords then
      pure (w.op (.check 0 (callText "!PyArg_ParseTuple" ("args".toList :: castFirst params)) none))
    else
      let (w, v) ← w.declare "const char *".toList "keywords".toList
        (some (kwInit (keywords.getD []))) (some "[]".toList)
      let params := castFirst params
      let w := w.op (.check 0 (callText "!PyArg_ParseTupleAndKeywords"
        (["args".toList, "kwargs".toList] ++ params.take 1 ++
          ("(char **) ".toList ++ v) :: params.drop 1)) none)
      pure { w with flags := w.flags ++ ["METH_KEYWORDS".toList] }
  else
    pure { w with flags := w.flags ++ ["METH_NOARGS".toList] }

/-- Building the result, base.py:944-957. -/
def resultStep (w : W) : W :=
  let params := buildParameters w.build false
  let w :=
    if params = ["\"\"".toList] then
      (w.op (.write 2 "Py_INCREF(Py_None);".toList)).op (.write 2 "py_retval = Py_None;".toList)
    else w.op (.write 2 ("py_retval = ".toList ++ callText "Py_BuildValue" (castFirst params) ++ ";".toList))
  (w.op (.cleanup 2)).op (.ret 2 "return py_retval;".toList)

/-- First step with `unblock_threads`, base.py:865-869. -/
def startStep (unblock : Bool) (w : W) : PyRes (W × Str) :=
  if unblock then do
    let (w, v) ← w.declare "PyThreadState*".toList "py_thread_state".toList (some "NULL".toList) none
    pure (w.op (.write 2 (restoreText v)), v)
  else pure (w, [])

/-- The deprecation warning, base.py:880-885. -/
def depStep (deprecated : Option Str) (w : W) : W :=
  match deprecated with
  | some msg => w.op (.check 1 (deprecatedText msg) none)
  | none => w

/-- Giving up the GIL, base.py:889-893. -/
def saveStep (unblock : Bool) (ts : Str) (w : W) : W :=
  if unblock then w.op (.write 1 (saveText ts)) else w

/-- Conversion of the return value, base.py:925-940; the assertion is 927-928. -/
def retStep (c : Config) : Gen1 := fun w =>
  match c.ret with
  | some r => guardNI (r w)
  | none =>
    if !c.haveRet ∧ buildParameters w.build false ≠ ["\"\"".toList] then .error .assertionError
    else .ok w

/-- The end of the body, base.py:930 or 944-957. -/
def finishStep (c : Config) (w : W) : W :=
  if c.ret.isNone ∧ !c.haveRet then w.op (.cleanup 2) else resultStep w

/-- `ForwardWrapperBase.generate_body`, base.py:860-957 (the flushing of the blocks, 959-964, is
`Gen.body` of the flow model). -/
def generateBody (c : Config) : Gen1 := fun w => do
  let (w, ts) ← startStep c.unblock w
  let w ← convertParams c.params w
  let w ← c.pre (depStep c.deprecated w)
  let w ← c.call (saveStep c.unblock ts w)
  let w ← parseStep c.force w
  let w ← retStep c w
  let w ← c.post w
  pure (finishStep c w)

/-! ## Call generators -/

/-- One catch clause: `write_cleanup`, the conversion of the exception, the error return
(function.py:212-219, cppmethod.py:300-306, 695-701). `conv` is the text of
`write_convert_to_python` (cppexception.py:47-61). -/
def catchClause (er : Str) (exc : Str × Str) : Op :=
  .branch 1 ("catch (".toList ++ exc.1 ++ " const &exc)".toList) [] [exc.2] er

/-- The call of a function or method, function.py:193-221, cppmethod.py:268-308: `assign` is the
text before the call, `callee` the expression called.  The call itself is one statement; an
exception leaves it through one of the catch clauses, so these follow it as exits. -/
def genCall (assign callee : Str) (excs : List (Str × Str)) (er : Str) : Gen1 := fun w =>
  let w := if excs = [] then w else w.op (.write 1 "try\n{".toList)
  let w := w.op (.write 1 (assign ++ callText (String.ofList callee) w.call ++ ";".toList))
  .ok { w with ops := w.ops ++ excs.map (catchClause er) }

/-- `CppVirtualMethodParentCaller.generate_call`, cppmethod.py:937-962; `assign` as in `genCall`. -/
def parentCall (helperName method cls assign : Str) : Gen1 := fun w => do
  let (w, h) ← w.declare (helperName ++ "*".toList) "helper".toList
    (some ("dynamic_cast< ".toList ++ helperName ++ "* >(self->obj)".toList)) none
  let w := w.op (.check 1 (h ++ " == NULL".toList)
    (some ("PyErr_SetString(PyExc_TypeError, \"Method ".toList ++ method ++ " of class ".toList ++ cls ++
      " is protected and can only be called by a subclass\");".toList)))
  pure (w.op (.write 1 (assign ++ callText (String.ofList (h ++ "->".toList ++ method ++
    "__parent_caller".toList)) w.call ++ ";".toList)))

/-- `CppConstructor.generate_call` for a class with a helper class that cannot itself be
constructed, cppmethod.py:661-692, without `throw` and post-creation code: instances of Python
subclasses get a helper object, for others an exception is set and the function left by a plain
`return -1`. The two branches of the `if` are an exit and the continuation. -/
def helperCtorCall (pytype helper cls : Str) : Gen1 := fun w =>
  let w := w.op (.bare 1 ("!(Py_TYPE(self) != &".toList ++ pytype ++ ")".toList)
    ["PyErr_SetString(PyExc_TypeError, \"class '".toList ++ cls ++ "' cannot be constructed\");".toList]
    "return -1;".toList)
  let w := w.op (.write 1 ("self->obj = new ".toList ++ callText (String.ofList helper) w.call ++ ";".toList))
  let w := w.op (.write 1 "self->flags = PYBINDGEN_WRAPPER_FLAG_NONE;".toList)
  .ok (w.op (.write 1 ("((".toList ++ helper ++ "*) self->obj)->set_pyobj((PyObject *)self);".toList)))

/-- `_add_ward`, cppclass.py:3876-3891, on block `i`. -/
def addWard (i : Nat) (custodian ward : Str) : Gen1 := fun w => do
  let (w, wards) ← w.declare "PyObject*".toList "wards".toList none none
  let w := w.op (.write i (wards ++ " = PyObject_GetAttrString(".toList ++ custodian ++
    ", (char *) \"__wards__\");".toList))
  let w := w.op (.write i ("if (".toList ++ wards ++ " == NULL) {\n    PyErr_Clear();\n    ".toList ++
    wards ++ " = PyList_New(0);\n    PyObject_SetAttrString(".toList ++ custodian ++
    ", (char *) \"__wards__\", ".toList ++ wards ++ ");\n}".toList))
  let w := w.op (.write i ("if (".toList ++ ward ++ " && !PySequence_Contains(".toList ++ wards ++
    ", ".toList ++ ward ++ "))\n    PyList_Append(".toList ++ wards ++ ", ".toList ++ ward ++
    ");".toList))
  pure (w.op (.add i ("Py_DECREF(".toList ++ wards ++ ");".toList)))

/-- `implement_parameter_custodians_precall`/`postcall`, cppclass.py:3905-3918: the pairs (already
looked up by `_get_custodian_or_ward`) of the given kind, on block `i`. -/
def addWards (i : Nat) : List (Str × Str) → Gen1
  | [], w => .ok w
  | (c, d) :: rest, w => do addWards i rest (← addWard i c d w)

/-! ## Type handlers -/

/-- A scalar parameter handler in a forward wrapper; see the table below for the classes covered.
Fields: the format unit, the type the variable is declared with, the parameter name, a suffix added
to the variable's base name, the initializer, the direction, whether the call takes the variable's
address, whether the argument may be left out, the text of the range check after the variable. -/
structure Scalar where
  fmt : Str
  ctype : Str
  name : Str
  suffix : Str := []
  init : Option Str := none
  isIn : Bool := true
  isOut : Bool := false
  byPtr : Bool := false
  optional : Bool := false
  check : Option Str := none
  deriving DecidableEq, Repr

/-- `convert_python_to_c` of the scalar handlers.  The order in which the classes call
`call_params.append`, `parse_params.add_parameter` and `write_error_check` differs, but these
act on different objects. -/
def Scalar.convert (s : Scalar) : Gen1 := fun w => do
  let (w, v) ← w.declare s.ctype (s.name ++ s.suffix) s.init none
  let w := if s.isIn then w.addParse ⟨s.fmt, ['&' :: v], some s.name, s.optional⟩ false else w
  let w := match s.check with
    | some c => w.op (.check 1 (v ++ c)
        (some "PyErr_SetString(PyExc_ValueError, \"Out of range\");".toList))
    | none => w
  let w := w.addCall (if s.byPtr then '&' :: v else v)
  pure (if s.isOut then w.addBuild ⟨s.fmt, [v], none⟩ false else w)

/-- `bool(self.default_value)` for `None` or a string. -/
def truthy : Option Str → Bool
  | some (_ :: _) => true
  | _ => false

/-- A by-value handler: `IntParam`, `UnsignedIntParam`, `UnsignedLongLongParam`,
`UnsignedLongParam`, `LongParam`, `SizeTParam`, `LongLongParam` and the reference variants derived
from them, `DoubleParam` (inttype.py:22-26, 38-42, 492-496, 532-536, 571-575, 630-634, 650-654;
doubletype.py:16-21). -/
def byValue (fmt ctype name : Str) (dflt : Option Str) : Scalar :=
  { fmt, ctype, name, init := dflt, optional := truthy dflt }

/-- A by-value handler with a range check: `UInt16Param`, `Int16Param`, `UInt8Param`, `Int8Param`
(inttype.py:296-302, 335-341, 374-380, 431-437). -/
def byValueChecked (bound name : Str) (dflt : Option Str) : Scalar :=
  { fmt := "i".toList, ctype := "int".toList, name, init := dflt, optional := truthy dflt
    check := some (" > ".toList ++ bound) }

/-- `FloatParam`, floattype.py:18-22: a default value is ignored. -/
def floatParam (ctype name : Str) : Scalar := { fmt := "f".toList, ctype, name }

/-- A reference handler: `IntRefParam`, `UnsignedIntRefParam`, `UInt16RefParam`, `Int16RefParam`,
`UInt8RefParam`, `Int8RefParam`, `DoubleRefParam`, `FloatRefParam` (inttype.py:217-224, 238-245,
316-322, 356-362, 394-400, 451-457; doubletype.py:73-80; floattype.py:118-125). -/
def byRef (fmt ctype name : Str) (isIn isOut : Bool) : Scalar := { fmt, ctype, name, isIn, isOut }

/-- A pointer handler without array length: `IntPtrParam` (not optional), `UnsignedIntPtrParam`,
`Int8PtrParam`, `UInt8PtrParam`, `FloatPtrParam`, and with a suffix `DoublePtrParam`
(inttype.py:196-201, 66-72, 700-706, 729-735; floattype.py:59-65; doubletype.py:50-57). -/
def byPointer (fmt ctype name suffix : Str) (isIn isOut : Bool) : Scalar :=
  { fmt, ctype, name, suffix, isIn, isOut, byPtr := true }

/-- `BoolParam.convert_python_to_c`, booltype.py:17-29. -/
def boolParam (ctype name : Str) (dflt : Option Str) : Gen1 := fun w => do
  let (w, v) ← w.declare ctype name none none
  let (w, p) ← w.declare "PyObject *".toList ("py_".toList ++ name)
    (match dflt with | none => none | some _ => some "NULL".toList) none
  let w := w.addParse ⟨"O".toList, ['&' :: p], some name, dflt.isSome⟩ false
  let w := w.op (.write 1 (match truthy dflt with
    | true => v ++ " = ".toList ++ p ++ "? (bool) PyObject_IsTrue(".toList ++ p ++ ") : ".toList ++
        dflt.getD [] ++ ";".toList
    | false => v ++ " = (bool) PyObject_IsTrue(".toList ++ p ++ ");".toList))
  pure (w.addCall v)

/-- `if b: f()`. -/
def whenG (b : Bool) (f : Gen1) : Gen1 := fun w => if b then f w else .ok w

/-- `BoolRefParam`/`BoolPtrParam.convert_python_to_c`, booltype.py:99-110, 67-79. -/
def boolRef (ctype name : Str) (isIn isOut byPtr : Bool) : Gen1 := fun w => do
  let (w, v) ← w.declare ctype name none none
  let w := w.addCall (if byPtr then '&' :: v else v)
  let w ← whenG isIn (fun w => do
      let (w, p) ← w.declare "PyObject*".toList ("py_".toList ++ name) none none
      let w := w.addParse ⟨"O".toList, ['&' :: p], some name, false⟩ false
      pure (w.op (.write 1 (v ++ " = PyObject_IsTrue(".toList ++ p ++ ");".toList)))) w
  pure (if isOut then
      w.addBuild ⟨"N".toList, ["PyBool_FromLong(".toList ++ v ++ ")".toList], none⟩ false
    else w)

/-- The array path of `UnsignedIntPtrParam` and `FloatPtrParam`, inttype.py:74-113,
floattype.py:66-103: `elemCheck`, `get`, `mk` are the condition, the element conversion and the
Python constructor. -/
def arrayParam (ctype name : Str) (len : Nat) (isIn isOut : Bool) (elemCheck get mk : Str → Str) :
    Gen1 := fun w => do
  let (w, v) ← w.declare ctype name none (some ("[".toList ++ natStr len ++ "]".toList))
  let (w, l) ← w.declare "PyObject*".toList "py_list".toList none none
  let (w, idx) ← w.declare "int".toList "idx".toList none none
  let w := w.addCall v
  let forText := "for (".toList ++ idx ++ " = 0; ".toList ++ idx ++ " < ".toList ++ natStr len ++
    "; ".toList ++ idx ++ "++) {".toList
  let w ← whenG isIn (fun w => do
      let (w, e) ← w.declare "PyObject*".toList "element".toList none none
      let w := w.addParse ⟨"O!".toList, ["&PyList_Type".toList, '&' :: l], some name, false⟩ false
      let w := w.op (.check 1 ("PyList_Size(".toList ++ l ++ ") != ".toList ++ natStr len)
        (some "PyErr_SetString(PyExc_TypeError, ...);".toList))
      let w := w.op (.write 1 forText)
      let w := w.op (.write 1 (e ++ " = PyList_GET_ITEM(".toList ++ l ++ ", ".toList ++ idx ++ ");".toList))
      let w := w.op (.check 1 (elemCheck e) (some "PyErr_SetString(PyExc_TypeError, ...);".toList))
      let w := w.op (.write 1 (v ++ "[".toList ++ idx ++ "] = ".toList ++ get e ++ ";".toList))
      pure (w.op (.write 1 "}".toList))) w
  pure (if isOut then
      let w := w.op (.write 2 (l ++ " = PyList_New(".toList ++ natStr len ++ ");".toList))
      let w := w.op (.write 2 forText)
      let w := w.op (.write 2 ("PyList_SET_ITEM(".toList ++ l ++ ", ".toList ++ idx ++ ", ".toList ++
        mk (v ++ "[".toList ++ idx ++ "]".toList) ++ ");".toList))
      let w := w.op (.write 2 "}".toList)
      w.addBuild ⟨"N".toList, [l], none⟩ false
    else w)

/-- `convert_c_to_python` of the return handlers that prepend one value: `IntReturn`,
`UnsignedIntReturn`, 8/16 bit, `long`, `long long`, `size_t`, `BoolReturn`, `DoubleReturn`,
`FloatReturn` (inttype.py:125-126, 139-140, 264-265, 283-284, 419-420, 474-475, 516-517, 556-557,
595-596, 614-615, 675-676; booltype.py:45-47; doubletype.py:34-35; floattype.py:35-36). -/
def scalarReturn (fmt value : Str) : Gen1 := fun w => .ok (w.addBuild ⟨fmt, [value], none⟩ true)

/-- `VoidReturn.convert_c_to_python`, voidtype.py:17-18. -/
def voidReturn : Gen1 := .ok

end Verif.Wrap
