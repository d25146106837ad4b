import Verif.Wrapper.Flags
import Verif.CodeBlock.Props
import Verif.DeclScope.Model
import Verif.Params.Model

/-!
# Trial generations  (pybindgen/typehandlers/base.py:744-985, function.py:233-303)

A forward wrapper collects its code in fields of its own: declarations, three code blocks, the parse,
build and call parameters, the method flags.  The generator runs this collecting phase several times:
to learn the method flags (base.py:966-985), to write a forward declaration (function.py:275-284), to
see whether a wrapper can be generated at all (cppclass.py:425-434), and finally for the definition.
This file models the fields, the collecting phase and these uses.  The type handlers are arbitrary
state transformers, so that the theorems speak about every handler, also those of the user.
-/
namespace Verif.Trial
open Verif Verif.CodeBlock Verif.DeclScope Verif.Params

/-- What a wrapper has collected, base.py:765-775, and `REQUIRES_ASSIGNMENT_CONSTRUCTOR` of its return
handler.  `counts` and `decls` are the declarations' scope (420-456). -/
structure Core where
  counts : Str → Nat := fun _ => 0
  decls : CodeSink.Mem := {}
  parseB : Block
  callB : Block
  afterB : Block
  parse : List PItem := []
  build : List BItem := []
  call : List Str := []
  flags : List Str := []
  requires : Bool

/-- The wrapper's fields and `py_name` of its type handlers (number 0 is the return handler; cppclass.py:
2912, 2928), which no reset clears. -/
structure St where
  core : Core
  names : Nat → Option Str := fun _ => none

/-- A step of the collecting phase; an exception leaves what was collected so far. -/
abbrev Stage := St → St × Option PyErr

/-- One step after the other, unless the first raises. -/
def Stage.andThen (g h : Stage) : Stage := fun s =>
  match g s with
  | (s1, some e) => (s1, some e)
  | (s1, none) => h s1

/-- A step that only looks at the wrapper's own fields. -/
def lift (f : Core → Core × Option PyErr) : Stage := fun s =>
  ({ s with core := (f s.core).1 }, (f s.core).2)

/-- `DeclarationsScope.declare_variable`, base.py:462-488. -/
def Core.declare (c : Core) (type name : Str) (init arr : Option Str := none) : Core × PyRes Str :=
  let r := Family.declare ⟨c.counts, fun _ => c.decls⟩ 0 type name init arr
  ({ c with counts := r.1.counts, decls := r.1.sinks 0 }, r.2)

/-- `DeclarationsScope.reserve_variable`, base.py:490-506. -/
def Core.reserve (c : Core) (name : Str) : Core :=
  { c with counts := (Family.reserve ⟨c.counts, fun _ => c.decls⟩ name).1.counts }

/-- The three code blocks as a chain, base.py:766-770. -/
def Core.chain (c : Core) : Chain := fun
  | 0 => c.parseB
  | 1 => c.callB
  | _ => c.afterB

/-- A call on one of the code blocks (0: `before_parse`, 1: `before_call`, 2: `after_call`). -/
def Core.block (c : Core) (o : Op) : Core × Option PyErr :=
  match c.chain.step o with
  | .ok d => ({ c with parseB := d 0, callB := d 1, afterB := d 2 }, none)
  | .error e => (c, some e)

/-- A wrapper as it is set up: its settings and its handlers. -/
structure Wrapper where
  /-- `convert_python_to_c` of the parameters -/
  params : List Stage
  /-- `generate_call` -/
  callStage : Stage
  /-- `_before_call_hook` -/
  hookBefore : Stage
  /-- `_before_return_hook` -/
  hookReturn : Stage
  /-- `convert_c_to_python` of the return value (`none`: no return handler) -/
  ret : Option Stage
  /-- `HAVE_RETURN_VALUE` -/
  haveReturn : Bool := false
  /-- whether `retval` is to be declared, apart from `REQUIRES_ASSIGNMENT_CONSTRUCTOR` -/
  retvalDecl : Bool := true
  /-- `type_traits.ctype_no_const_no_ref` of the return value -/
  retType : Str
  unblock : Bool := false
  /-- the message of `deprecated`, if set -/
  deprecated : Option Str := none
  /-- `force_parse`: not set, `PARSE_TUPLE`, `PARSE_TUPLE_AND_KEYWORDS` -/
  forceParse : Option Bool := none
  /-- whether `throw` is not empty -/
  throws : Bool := false
  /-- `REQUIRES_ASSIGNMENT_CONSTRUCTOR` of the return handler at the start -/
  requires : Bool := false
  parseError : Str
  errorReturn : Str
  /-- what a subclass declares when the state is reset (container.py:41-44) -/
  extra : List (Str × Str) := []
  /-- the C parameters for given flags (function.py:253-268, cppmethod.py:333-374) -/
  signature : List Str → PyRes (List Str)

/-- Whether there is a return value, base.py:790, 925. -/
def Wrapper.returns (w : Wrapper) : Bool := w.ret.isSome || w.haveReturn

/-- `_init_code_generation_state`, base.py:789-799, and the declarations of a subclass. -/
def Core.init (w : Wrapper) (c : Core) : Core :=
  let c := if w.returns then (c.declare "PyObject*".toList "py_retval".toList).1 else c
  let c := if w.returns && w.retvalDecl && !c.requires then (c.declare w.retType "retval".toList).1 else c
  let c := (c.reserve "args".toList).reserve "kwargs".toList
  w.extra.foldl (fun c d => (c.declare d.1 d.2).1) c

/-- `reset_code_generation_state`, base.py:801-811: each field is cleared (`DeclarationsScope.clear` 458,
`CodeBlock.clear` 157, 277, 369), then the initial declarations are made. -/
def Core.reset (w : Wrapper) (c : Core) : Core :=
  Core.init w
    { c with
      counts := (Family.clear ⟨c.counts, fun _ => c.decls⟩ 0).counts
      decls := (Family.clear ⟨c.counts, fun _ => c.decls⟩ 0).sinks 0
      parseB := c.parseB.clear
      callB := c.callB.clear
      afterB := c.afterB.clear
      build := []
      parse := []
      call := []
      flags := [] }

def reset (w : Wrapper) (s : St) : St := { s with core := s.core.reset w }

/-- The fields of a new wrapper (`__init__`, base.py:744-787), its return handler having
`REQUIRES_ASSIGNMENT_CONSTRUCTOR = r`. -/
def startCore (w : Wrapper) (r : Bool) : Core :=
  Core.init w { parseB := { errorReturn := w.parseError }, callB := { errorReturn := w.parseError },
                afterB := { errorReturn := w.errorReturn }, requires := r }

/-- A new wrapper. -/
def start (w : Wrapper) : St := { core := startCore w w.requires }

/-- `except NotImplementedError: raise CodeGenerationError`, base.py:873-878, 935-940. -/
def implemented (g : Stage) : Stage := fun s =>
  match g s with
  | (s1, some .notImplementedError) => (s1, some .codeGenerationError)
  | r => r

/-- The first lines of `generate_body`, base.py:865-869: the thread state variable. -/
def openThreads (w : Wrapper) (c : Core) : Core × PyRes Str :=
  if w.unblock then
    match c.declare "PyThreadState*".toList "py_thread_state".toList (some "NULL".toList) with
    | (c1, .error e) => (c1, .error e)
    | (c1, .ok v) =>
      match c1.block (.writeCode 2 ("\nif (".toList ++ v ++ ")\n     PyEval_RestoreThread(".toList ++ v ++
          ");\n".toList)) with
      | (c2, some e) => (c2, .error e)
      | (c2, none) => (c2, .ok v)
  else (c, .ok [])

/-- The deprecation warning, base.py:880-885. -/
def warn (w : Wrapper) (c : Core) : Core × Option PyErr :=
  match w.deprecated with
  | none => (c, none)
  | some m => c.block (.errorCheck 1
      ("PyErr_Warn(PyExc_DeprecationWarning, (char *) \"".toList ++ m ++ "\")".toList) none)

/-- Releasing the interpreter lock, base.py:889-893. -/
def saveThread (w : Wrapper) (v : Str) (c : Core) : Core × Option PyErr :=
  if w.unblock then
    c.block (.writeCode 1 ("\nif (PyEval_ThreadsInitialized ())\n     ".toList ++ v ++
      " = PyEval_SaveThread();\n".toList))
  else (c, none)

/-- `self.meth_flags.append`. -/
def Core.flag (c : Core) (f : Str) : Core := { c with flags := c.flags ++ [f] }

/-- The keywords array, base.py:911-916, and the parsing call, 917-919. -/
def parseKeywords (first : Str) (rest : List Str) (kw : List Str) (c : Core) : Core × Option PyErr :=
  match c.declare "const char *".toList "keywords".toList
      (some (['{'] ++ pyJoin ", ".toList (kw.map (fun k => '"' :: k ++ ['"']) ++ ["NULL".toList]) ++ ['}']))
      (some "[]".toList) with
  | (c1, .error e) => (c1, some e)
  | (c1, .ok v) =>
    match c1.block (.errorCheck 0 ("!PyArg_ParseTupleAndKeywords(".toList ++ pyJoin ", ".toList
        (["args".toList, "kwargs".toList, "(char *) ".toList ++ first, "(char **) ".toList ++ v] ++ rest) ++
        ")".toList) none) with
    | (c2, some e) => (c2, some e)
    | (c2, none) => (c2.flag "METH_KEYWORDS".toList, none)

/-- The parsing of the arguments and the method flags, base.py:897-922. -/
def parseCall (w : Wrapper) (c : Core) : Core × Option PyErr :=
  match getParameters c.parse with
  | .error e => (c, some e)
  | .ok ps =>
    match getKeywords c.parse with
    | .error e => (c, some e)
    | .ok kw =>
      if ps ≠ [['"', '"']] ∨ w.forceParse ≠ none then
        if kw = none ∧ w.forceParse ≠ some true then
          (c.flag "METH_VARARGS".toList).block (.errorCheck 0 ("!PyArg_ParseTuple(".toList ++
            pyJoin ", ".toList (["args".toList, "(char *) ".toList ++ ps.headD []] ++ ps.tail) ++
            ")".toList) none)
        else parseKeywords (ps.headD []) ps.tail (kw.getD []) (c.flag "METH_VARARGS".toList)
      else (c.flag "METH_NOARGS".toList, none)

/-- A wrapper without return value must not build one, base.py:927-928. -/
def noBuild (c : Core) : Core × Option PyErr :=
  if buildParameters c.build false = [['"', '"']] then (c, none) else (c, some .assertionError)

/-- Two or three statements in a block. -/
def Core.blocks (c : Core) : List Op → Core × Option PyErr
  | [] => (c, none)
  | o :: os =>
    match c.block o with
    | (c1, some e) => (c1, some e)
    | (c1, none) => c1.blocks os

/-- The Python result, base.py:944-957. -/
def buildReturn (c : Core) : Core × Option PyErr :=
  let ps := buildParameters c.build false
  c.blocks ((if ps = [['"', '"']] then
      [.writeCode 2 "Py_INCREF(Py_None);".toList, .writeCode 2 "py_retval = Py_None;".toList]
    else
      [.writeCode 2 ("py_retval = Py_BuildValue(".toList ++
        pyJoin ", ".toList (("(char *) ".toList ++ ps.headD []) :: ps.tail) ++ ");".toList)]) ++
    [.writeCleanup 2, .writeCode 2 "return py_retval;".toList])

/-- The end of the collecting phase, base.py:924-957. -/
def finish (w : Wrapper) : Stage :=
  if w.returns then
    (match w.ret with
      | some g => implemented g
      | none => lift (fun c => (c, none))).andThen (w.hookReturn.andThen (lift buildReturn))
  else
    (lift noBuild).andThen (w.hookReturn.andThen (lift (fun c => c.block (.writeCleanup 2))))

/-- The conversions of the parameters, base.py:872-878. -/
def convertAll : List Stage → Stage
  | [] => lift (fun c => (c, none))
  | g :: gs => (implemented g).andThen (convertAll gs)

/-- The collecting phase after the thread state variable, base.py:871-957. -/
def rest (w : Wrapper) (v : Str) : Stage :=
  (convertAll w.params).andThen <| (lift (warn w)).andThen <| w.hookBefore.andThen <|
    (lift (saveThread w v)).andThen <| w.callStage.andThen <| (lift (parseCall w)).andThen (finish w)

/-- The collecting phase of `generate_body`, base.py:860-957. -/
def body (w : Wrapper) : Stage := fun s =>
  match openThreads w s.core with
  | (c, .error e) => ({ s with core := c }, some e)
  | (c, .ok v) => rest w v { s with core := c }

/-- The text written, base.py:959-964: the lines of the four sinks (C02 is about `flush_to`). -/
def text (c : Core) : List Str :=
  (c.decls.lines ++ [[]] ++ c.parseB.sink.lines ++ c.callB.sink.lines ++ c.afterB.sink.lines).map rstrip

/-- The sinks are emptied by it, codesink.py:116-123. -/
def Core.flushed (c : Core) : Core :=
  { c with
    decls := { c.decls with lines := [] }
    parseB := { c.parseB with sink := { c.parseB.sink with lines := [] } }
    callB := { c.callB with sink := { c.callB.sink with lines := [] } }
    afterB := { c.afterB with sink := { c.afterB.sink with lines := [] } } }

/-- `get_py_method_def_flags`, base.py:966-985: remembered flags, or a trial that is always followed by a
reset.  (The flags are a set; here they are in the order added.) -/
def getFlags (w : Wrapper) (s : St) : St × PyRes (List Str) :=
  if s.core.flags ≠ [] then (s, .ok s.core.flags)
  else
    match body w s with
    | (s1, some e) => (reset w s1, .error e)
    | (s1, none) => (reset w s1, .ok s1.core.flags)

/-- The C parameters for the flags asked for, function.py:252-268 (cppmethod.py:334, 348-374). -/
def withSignature (w : Wrapper) (s : St) (t : List Str) : St × PyRes (List Str × List Str) :=
  match getFlags w s with
  | (s1, .error e) => (s1, .error e)
  | (s1, .ok fl) =>
    match w.signature fl with
    | .error e => (s1, .error e)
    | .ok args => (s1, .ok (args, t))

/-- `generate`, function.py:233-272, cppmethod.py:378-406: a wrapper that catches exceptions first changes
its return handler and is reset (241-243, 388-390); the result is the C parameters and the body. -/
def generate (w : Wrapper) (s : St) : St × PyRes (List Str × List Str) :=
  let s := if w.throws then reset w { s with core := { s.core with requires := false } } else s
  match body w s with
  | (s1, some e) => (s1, .error e)
  | (s1, none) => withSignature w { s1 with core := s1.core.flushed } (text s1.core)

/-- `generate_declaration`, function.py:275-284 (cppmethod.py:897-918): the C parameters. -/
def declare (w : Wrapper) (s : St) : St × PyRes (List Str) :=
  match generate w (reset w s) with
  | (s1, .error e) => (s1, .error e)
  | (s1, .ok (args, _)) => (reset w s1, .ok args)

/-- What the generator does with a wrapper. -/
inductive Event where
  /-- it asks for the method flags (method table, overload sets) -/
  | flags
  /-- it writes a forward declaration -/
  | declare
  /-- it writes the definition -/
  | define
  /-- it starts afresh -/
  | reset
  deriving DecidableEq, Repr

/-- What it gets. -/
inductive Answer where
  | flags (fl : List Str)
  | declared (args : List Str)
  | defined (args body : List Str)
  | failed (e : PyErr)
  | done
  deriving DecidableEq, Repr

/-- One event. -/
def step (w : Wrapper) (s : St) : Event → St × Answer
  | .flags =>
    match getFlags w s with
    | (s1, .ok fl) => (s1, .flags fl)
    | (s1, .error e) => (s1, .failed e)
  | .declare =>
    match Trial.declare w s with
    | (s1, .ok args) => (s1, .declared args)
    | (s1, .error e) => (s1, .failed e)
  | .define =>
    match generate w s with
    | (s1, .ok (args, t)) => (s1, .defined args t)
    | (s1, .error e) => (s1, .failed e)
  | .reset => (Trial.reset w s, .done)

/-- The answers to a history of events. -/
def answers (w : Wrapper) (s : St) : List Event → List (Event × Answer)
  | [] => []
  | e :: es => (e, (step w s e).2) :: answers w (step w s e).1 es

/-! ## Handlers of the code base -/

/-- `IntParam.convert_python_to_c`, inttype.py:22-26 (no default value). -/
def intParam (name : Str) : Stage := lift fun c =>
  match c.declare "int".toList name with
  | (c1, .error e) => (c1, some e)
  | (c1, .ok v) =>
    ({ c1 with parse := (addParam c1.parse ⟨['i'], ['&' :: v], some name, false⟩ false).1,
               call := c1.call ++ [v] }, none)

/-- `CppClassParameter.convert_python_to_c` without conversions and default, cppclass.py:2960-2965: the
handler (number `k`) remembers its variable. -/
def classParam (k : Nat) (pystruct pytype name : Str) : Stage := fun s =>
  match s.core.declare (pystruct ++ ['*']) name with
  | (c1, .error e) => ({ s with core := c1 }, some e)
  | (c1, .ok v) =>
    ({ core := { c1 with
         parse := (addParam c1.parse ⟨"O!".toList, ['&' :: pytype, '&' :: v], some name, false⟩ false).1,
         call := c1.call ++ ["*((".toList ++ pystruct ++ " *) ".toList ++ v ++ ")->obj".toList] },
       names := fun j => if j = k then some v else s.names j }, none)

/-- `generate_call` of a function, function.py:197-210 (not void, no template, no exceptions). -/
def callFunction (fn type : Str) : Stage := lift fun c =>
  c.block (.writeCode 1 ((if c.requires then type ++ " ".toList else []) ++ "retval = ".toList ++ fn ++
    ['('] ++ pyJoin ", ".toList c.call ++ ");".toList))

/-- `IntReturn.convert_c_to_python`. -/
def intReturn : Stage := lift fun c =>
  ({ c with build := addBuild c.build ⟨['i'], ["retval".toList], none⟩ true }, none)

/-- `_before_return_hook` with one ward (parameters `i`, `j`), cppclass.py:3876-3918. -/
def wardHook (i j : Nat) : Stage := fun s =>
  match s.names i, s.names j with
  | some a, some b =>
    match s.core.declare "PyObject*".toList "wards".toList with
    | (c1, .error e) => ({ s with core := c1 }, some e)
    | (c1, .ok v) =>
      let cust := "((PyObject *) ".toList ++ a ++ [')']
      let ward := "((PyObject *) ".toList ++ b ++ [')']
      let r := c1.blocks [
        .writeCode 2 (v ++ " = PyObject_GetAttrString(".toList ++ cust ++ ", (char *) \"__wards__\");".toList),
        .writeCode 2 ("if (".toList ++ v ++ " == NULL) {\n    PyErr_Clear();\n    ".toList ++ v ++
          " = PyList_New(0);\n    PyObject_SetAttrString(".toList ++ cust ++
          ", (char *) \"__wards__\", ".toList ++ v ++ ");\n}".toList),
        .writeCode 2 ("if (".toList ++ ward ++ " && !PySequence_Contains(".toList ++ v ++ ", ".toList ++ ward ++
          "))\n    PyList_Append(".toList ++ v ++ ", ".toList ++ ward ++ ");".toList),
        .add 2 ("Py_DECREF(".toList ++ v ++ ");".toList)]
      ({ s with core := r.1 }, r.2)
  | _, _ => (s, some .assertionError)

/-- A hook that does nothing, base.py:824-841. -/
def noHook : Stage := lift fun c => (c, none)

end Verif.Trial
