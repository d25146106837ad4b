import Verif.Wrapper.Contract

/-!
# Parameter handlers as data

Every `convert_python_to_c` of the package does the same kinds of things in a fixed pattern: it
declares variables, adds at most one parsing unit, writes statements to `before_call` and
`after_call`, appends one call expression, and adds at most one value to the result.  A `Desc` is such
a handler written down as data, with holes for the names `declare_variable` will return.
-/
namespace Verif.Wrap
open Verif Verif.Flow Verif.Params Verif.DeclScope

/-- A piece of text, or the name of one of the handler's own variables. -/
inductive Piece where
  | text (s : Str)
  | var (i : Nat)
  deriving DecidableEq, Repr

/-- Text with holes (`'... %s ...' % name`). -/
abbrev Tmpl := List Piece

def Piece.render (vs : List Str) : Piece → Str
  | .text s => s
  | .var i => vs.getD i []

def render (vs : List Str) (t : Tmpl) : Str := (t.map (Piece.render vs)).flatten

/-- A variable: type, base name, initializer, array suffix (`declare_variable`, base.py:462-488). -/
structure DVar where
  ctype : Str
  base : Str
  init : Option Str := none
  arr : Option Str := none
  deriving DecidableEq, Repr

/-- An argument handed to `PyArg_ParseTuple`: the address of a variable or something else. -/
inductive PArg where
  | text (s : Str)
  | addr (i : Nat)
  deriving DecidableEq, Repr

def PArg.render (vs : List Str) : PArg → Str
  | .text s => s
  | .addr i => '&' :: vs.getD i []

/-- A parsing unit (`parse_params.add_parameter`, base.py:280-301). -/
structure PUnit where
  fmt : Str
  args : List PArg
  optional : Bool := false
  deriving DecidableEq, Repr

/-- A call made on `before_call`. -/
inductive TOp where
  | write (t : Tmpl)
  /-- `write_error_check(cond, failure)` -/
  | check (cond : Tmpl) (err : Option Tmpl)
  deriving DecidableEq, Repr

def TOp.op (vs : List Str) : TOp → Op
  | .write t => .write 1 (Wrap.render vs t)
  | .check c e => .check 1 (Wrap.render vs c) (e.map (Wrap.render vs))

/-- A statement written before the call: the calls that write it, and the variable it assigns to (or
whose pointee it changes), if any. -/
structure BStmt where
  ops : List TOp
  target : Option Nat := none
  deriving DecidableEq, Repr

/-- A statement written after the call. -/
structure AStmt where
  texts : List Tmpl
  target : Option Nat := none
  deriving DecidableEq, Repr

/-- A parameter handler of forward wrappers. -/
structure Desc where
  name : Str
  vars : List DVar
  unit : Option PUnit := none
  before : List BStmt := []
  arg : Tmpl
  /-- the variable the function called can change through the call expression -/
  place : Option Nat := none
  after : List AStmt := []
  /-- what is added to the result: format unit and expressions -/
  out : Option (Str × List Tmpl) := none
  deriving DecidableEq, Repr

/-- Declaring variables, in order. -/
def declareAll : List DVar → W → PyRes (W × List Str)
  | [], w => .ok (w, [])
  | d :: ds, w => do
    let (w, v) ← w.declare d.ctype d.base d.init d.arr
    let (w, vs) ← declareAll ds w
    pure (w, v :: vs)

/-- The item added to the parser's list. -/
def Desc.items (d : Desc) (vs : List Str) : List PItem :=
  d.unit.toList.map (fun u => ⟨u.fmt, u.args.map (PArg.render vs), some d.name, u.optional⟩)

/-- The calls made on the code blocks. -/
def Desc.opsAt (d : Desc) (vs : List Str) : List Op :=
  d.before.flatMap (fun s => s.ops.map (TOp.op vs)) ++
    d.after.flatMap (fun s => s.texts.map (fun t => .write 2 (render vs t)))

/-- The item added to the result. -/
def Desc.builds (d : Desc) (vs : List Str) : List BItem :=
  d.out.toList.map (fun o => ⟨o.1, o.2.map (render vs), none⟩)

/-- `convert_python_to_c`.  The handlers interleave these steps differently, but they act on different
objects: declarations, parser, the blocks, call parameters, result. -/
def Desc.convert (d : Desc) : Gen1 := fun w => do
  let (w, vs) ← declareAll d.vars w
  pure { w with parse := w.parse ++ d.items vs, ops := w.ops ++ d.opsAt vs,
                call := w.call ++ [render vs d.arg], build := w.build ++ d.builds vs }

/-! ## The package's handlers -/

/-- Literal text. -/
def tx (s : String) : Piece := .text s.toList

/-- A scalar, see `Scalar`. -/
def Scalar.desc (s : Scalar) : Desc :=
  { name := s.name
    vars := [{ ctype := s.ctype, base := s.name ++ s.suffix, init := s.init }]
    unit := if s.isIn then some ⟨s.fmt, [.addr 0], s.optional⟩ else none
    before := match s.check with
      | some c => [{ ops := [.check [.var 0, .text c]
          (some [tx "PyErr_SetString(PyExc_ValueError, \"Out of range\");"])] }]
      | none => []
    arg := if s.byPtr then [tx "&", .var 0] else [.var 0]
    place := some 0
    out := if s.isOut then some (s.fmt, [[.var 0]]) else none }

/-- `BoolParam.convert_python_to_c`, booltype.py:17-29. -/
def boolDesc (ctype name : Str) (dflt : Option Str) : Desc :=
  { name
    vars := [{ ctype, base := name },
      { ctype := "PyObject *".toList, base := "py_".toList ++ name,
        init := match dflt with | none => none | some _ => some "NULL".toList }]
    unit := some ⟨"O".toList, [.addr 1], dflt.isSome⟩
    before := [{ target := some 0, ops := [.write (match truthy dflt with
      | true => [.var 0, tx " = ", .var 1, tx "? (bool) PyObject_IsTrue(", .var 1, tx ") : ",
          .text (dflt.getD []), tx ";"]
      | false => [.var 0, tx " = (bool) PyObject_IsTrue(", .var 1, tx ");"])] }]
    arg := [.var 0] }

/-- `BoolRefParam`/`BoolPtrParam.convert_python_to_c`, booltype.py:99-110, 67-79. -/
def boolRefDesc (ctype name : Str) (isIn isOut byPtr : Bool) : Desc :=
  { name
    vars := { ctype, base := name } ::
      if isIn then [{ ctype := "PyObject*".toList, base := "py_".toList ++ name }] else []
    unit := if isIn then some ⟨"O".toList, [.addr 1], false⟩ else none
    before := if isIn then
        [{ target := some 0, ops := [.write [.var 0, tx " = PyObject_IsTrue(", .var 1, tx ");"]] }]
      else []
    arg := if byPtr then [tx "&", .var 0] else [.var 0]
    place := some 0
    out := if isOut then some ("N".toList, [[tx "PyBool_FromLong(", .var 0, tx ")"]]) else none }

/-- `CStringParam.convert_python_to_c`, stringtype.py:20-29. -/
def cstringDesc (ctype name : Str) (dflt : Option Str) : Desc :=
  { name, vars := [{ ctype, base := name, init := dflt }]
    unit := some ⟨"s".toList, [.addr 0], dflt.isSome⟩, arg := [.var 0] }

/-- `CharParam.convert_python_to_c`, stringtype.py:41-48. -/
def charDesc (ctype name : Str) (dflt : Option Str) : Desc :=
  { name, vars := [{ ctype, base := name, init := dflt }]
    unit := some ⟨"c".toList, [.addr 0], dflt.isSome⟩, arg := [.var 0] }

/-- The two variables of the `std::string` handlers and their unit. -/
def strVars (name : Str) (init : Option Str) : List DVar :=
  [{ ctype := "const char *".toList, base := name, init },
   { ctype := "Py_ssize_t".toList, base := name ++ "_len".toList }]

def strUnit (optional : Bool) : PUnit := ⟨"s#".toList, [.addr 0, .addr 1], optional⟩

/-- `std::string(name, name_len)`. -/
def mkString : Tmpl := [tx "std::string(", .var 0, tx ", ", .var 1, tx ")"]

/-- `StdStringParam.convert_python_to_c`, stringtype.py:66-78. -/
def stdStringDesc (name : Str) (dflt : Option Str) : Desc :=
  { name, vars := strVars name (dflt.map (fun _ => "NULL".toList)), unit := some (strUnit dflt.isSome)
    arg := match dflt with
      | none => mkString
      | some d => tx "(" :: .var 0 :: tx " ? " :: mkString ++ [tx " : ", .text d, tx ")"] }

/-- What `std::string` output parameters add to the result, stringtype.py:138 and 191. -/
def strOut (value : Tmpl) (size : String) : Str × List Tmpl :=
  ("s#".toList, [tx "(" :: value ++ [tx ").c_str()"], tx "(" :: value ++ [tx (")." ++ size ++ "()")]])

/-- `StdStringRefParam.convert_python_to_c`, stringtype.py:111-138. -/
def stdStringRefDesc (name : Str) (isIn isOut : Bool) (dflt : Option Str) : Desc :=
  { name
    vars := strVars name (some "NULL".toList) ++
      [{ ctype := "std::string".toList, base := name ++ "_std".toList }]
    unit := if isIn then some (strUnit dflt.isSome) else none
    before := if isIn then
        [{ target := some 2, ops := [.write (match dflt with
          | none => .var 2 :: tx " = " :: mkString ++ [tx ";"]
          | some d => tx "if (" :: .var 0 :: tx ")\n    " :: .var 2 :: tx " = " :: mkString ++
              [tx ";\nelse\n    ", .var 2, tx " = ", .text d, tx ";"])] }]
      else []
    arg := [.var 2], place := some 2
    out := if isOut then some (strOut [.var 2] "size") else none }

/-- `StdStringPtrParam.convert_python_to_c`, stringtype.py:171-191, without default value (with one the
method fails an assertion). -/
def stdStringPtrDesc (name : Str) (isIn isOut transfer : Bool) : Desc :=
  { name
    vars := strVars name none ++
      [if transfer then { ctype := "std::string*".toList, base := name ++ "_std".toList,
                          init := some "new std::string".toList }
       else { ctype := "std::string".toList, base := name ++ "_std".toList }]
    unit := if isIn then some (strUnit false) else none
    before := if isIn then
        [{ target := some 2, ops := [.write ((if transfer then [tx "*", .var 2] else [.var 2]) ++
          tx " = " :: mkString ++ [tx ";"])] }]
      else []
    arg := if transfer then [.var 2] else [tx "&", .var 2], place := some 2
    out := if isOut then some (strOut (if transfer then [tx "*", .var 2] else [.var 2]) "size") else none }

/-- The unit of the `Glib::ustring` handlers. -/
def glibUnit (optional : Bool) : PUnit := ⟨"et".toList, [.text "\"utf-8\"".toList, .addr 0], optional⟩

def mkGlib : Tmpl := [tx "Glib::ustring(", .var 0, tx ")"]

/-- `GlibStringParam.convert_python_to_c`, stringtype.py:280-290. -/
def glibDesc (name : Str) (dflt : Option Str) : Desc :=
  { name
    vars := [{ ctype := "const char *".toList, base := name, init := dflt.map (fun _ => "NULL".toList) }]
    unit := some (glibUnit dflt.isSome)
    arg := match dflt with
      | none => mkGlib
      | some d => tx "(" :: .var 0 :: tx " ? " :: mkGlib ++ [tx " : ", .text d, tx ")"] }

/-- `GlibStringRefParam.convert_python_to_c`, stringtype.py:320-332. -/
def glibRefDesc (name : Str) (isIn isOut : Bool) : Desc :=
  { name
    vars := [{ ctype := "const char *".toList, base := name },
      { ctype := "Glib::ustring".toList, base := name ++ "_std".toList }]
    unit := if isIn then some (glibUnit false) else none
    before := if isIn then
        [{ target := some 1, ops := [.write (.var 1 :: tx " = " :: mkGlib ++ [tx ";"])] }] else []
    arg := [.var 1], place := some 1
    out := if isOut then some (strOut [.var 1] "bytes") else none }

/-- `GlibStringPtrParam.convert_python_to_c`, stringtype.py:364-383, without default value. -/
def glibPtrDesc (name : Str) (isIn isOut transfer : Bool) : Desc :=
  { name
    vars := [{ ctype := "const char *".toList, base := name },
      if transfer then { ctype := "Glib::ustring*".toList, base := name ++ "_std".toList,
                         init := some "new Glib::ustring".toList }
      else { ctype := "Glib::ustring".toList, base := name ++ "_std".toList }]
    unit := if isIn then some (glibUnit false) else none
    before := if isIn then
        [{ target := some 1, ops := [.write ((if transfer then [tx "*", .var 1] else [.var 1]) ++
          tx " = " :: mkGlib ++ [tx ";"])] }]
      else []
    arg := if transfer then [.var 1] else [tx "&", .var 1], place := some 1
    out := if isOut then some (strOut (if transfer then [tx "*", .var 1] else [.var 1]) "bytes") else none }

/-- `PyObjectParam.convert_python_to_c`, pyobjecttype.py:32-38. -/
def pyObjectDesc (ctype name : Str) (transfer : Bool) : Desc :=
  { name, vars := [{ ctype, base := name }], unit := some ⟨"O".toList, [.addr 0], false⟩
    before := if transfer then [{ ops := [.write [tx "Py_INCREF((PyObject*) ", .var 0, tx ");"]] }] else []
    arg := [.var 0] }

/-- `ContainerParameter.convert_python_to_c`, container.py:676-688 (without default value), and
`ContainerRefParameter.convert_python_to_c`, container.py:712-737: `full`, `conv`, `pystruct`,
`pytype`, `short` are `full_name`, `python_to_c_converter`, `pystruct`, `pytypestruct` and `name` of
the container. -/
def containerDesc (full conv pystruct pytype short name : Str) (isIn isOut : Bool) (dflt : Option Str) :
    Desc :=
  { name
    vars := { ctype := full, base := name ++ "_value".toList, init := dflt } ::
      if isOut then [{ ctype := pystruct ++ "*".toList, base := "py_".toList ++ short }] else []
    unit := if isIn then some ⟨"O&".toList, [.text conv, .addr 0], dflt.isSome⟩ else none
    arg := [.var 0], place := some 0
    after := if isOut then
        [{ target := some 1, texts :=
            [[.var 1, tx " = PyObject_New(", .text pystruct, tx ", &", .text pytype, tx ");"],
             [.var 1, tx "->obj = new ", .text full, tx "(", .var 0, tx ");"]] }]
      else []
    out := if isOut then some ("N".toList, [[.var 1]]) else none }

/-- The array path of `UnsignedIntPtrParam` and `FloatPtrParam`, inttype.py:74-113,
floattype.py:66-103. -/
def arrayDesc (ctype name : Str) (len : Nat) (isIn isOut : Bool) (elemCheck get mk : Tmpl → Tmpl) : Desc :=
  let forText : Tmpl := [tx "for (", .var 2, tx " = 0; ", .var 2, tx " < ", .text (natStr len), tx "; ",
    .var 2, tx "++) {"]
  { name
    vars := [{ ctype, base := name, arr := some ("[".toList ++ natStr len ++ "]".toList) },
      { ctype := "PyObject*".toList, base := "py_list".toList },
      { ctype := "int".toList, base := "idx".toList }] ++
      if isIn then [{ ctype := "PyObject*".toList, base := "element".toList }] else []
    unit := if isIn then some ⟨"O!".toList, [.text "&PyList_Type".toList, .addr 1], false⟩ else none
    before := if isIn then
        [{ target := some 0, ops :=
          [.check [tx "PyList_Size(", .var 1, tx ") != ", .text (natStr len)]
            (some [tx "PyErr_SetString(PyExc_TypeError, ...);"]),
           .write forText,
           .write [.var 3, tx " = PyList_GET_ITEM(", .var 1, tx ", ", .var 2, tx ");"],
           .check (elemCheck [.var 3]) (some [tx "PyErr_SetString(PyExc_TypeError, ...);"]),
           .write (.var 0 :: tx "[" :: .var 2 :: tx "] = " :: get [.var 3] ++ [tx ";"]),
           .write [tx "}"]] }]
      else []
    arg := [.var 0], place := some 0
    after := if isOut then
        [{ target := some 1, texts :=
            [[.var 1, tx " = PyList_New(", .text (natStr len), tx ");"], forText,
             tx "PyList_SET_ITEM(" :: .var 1 :: tx ", " :: .var 2 :: tx ", " ::
               mk [.var 0, tx "[", .var 2, tx "]"] ++ [tx ");"],
             [tx "}"]] }]
      else []
    out := if isOut then some ("N".toList, [[.var 1]]) else none }

/-- A class reference parameter with direction out, cppclass.py:3127-3148: the wrapper of a new object
is made before the call; `alloc`, `create`, `register`, `post` are the texts written by
`write_allocate_pystruct`, `write_create_instance`, `write_register_new_wrapper` and
`write_post_instance_creation_code` around the variable, `dict` whether the class allows
subclassing. -/
def refOutDesc (pystruct name : Str) (alloc : List Tmpl) (create : Tmpl) (register post : List Tmpl)
    (dict : Bool) : Desc :=
  { name, vars := [{ ctype := pystruct ++ "*".toList, base := name }]
    before := [{ target := some 0, ops := (alloc ++ create :: register ++ post).map TOp.write }]
    arg := [tx "*", .var 0, tx "->obj"], place := some 0
    after := [{ texts := (if dict then [[.var 0, tx "->inst_dict = NULL;"]] else []) ++
      [[.var 0, tx "->flags = PYBINDGEN_WRAPPER_FLAG_NONE;"]] }]
    out := some ("N".toList, [[.var 0]]) }

/-- `ContainerPtrParameter.convert_python_to_c`, container.py:776-808, direction in. -/
def containerPtrInDesc (full conv name : Str) (transfer : Bool) : Desc :=
  { name, vars := [{ ctype := full, base := name ++ "_value".toList }]
    unit := some ⟨"O&".toList, [.text conv, .addr 0], false⟩
    arg := if transfer then [tx "new ", .text full, tx "(", .var 0, tx ")"] else [tx "&", .var 0]
    place := if transfer then none else some 0 }

/-- The same, direction out. -/
def containerPtrOutDesc (full pystruct pytype short name : Str) : Desc :=
  { name
    vars := [{ ctype := full ++ "*".toList, base := name ++ "_value".toList, init := some ("new ".toList ++ full) },
      { ctype := pystruct ++ "*".toList, base := "py_".toList ++ short }]
    arg := [.var 0], place := some 0
    after := [{ target := some 1, texts :=
      [[.var 1, tx " = PyObject_New(", .text pystruct, tx ", &", .text pytype, tx ");"],
       [.var 1, tx "->obj = ", .var 0, tx ";"]] }]
    out := some ("N".toList, [[.var 1]]) }

/-! ## Return values -/

/-- A call made on `after_call` by a return value handler. -/
inductive ROp where
  | write (t : Tmpl)
  /-- `add_cleanup_code` -/
  | add (t : Tmpl)
  deriving DecidableEq, Repr

def ROp.op (vs : List Str) : ROp → Op
  | .write t => .write 2 (Wrap.render vs t)
  | .add t => .add 2 (Wrap.render vs t)

/-- A return value handler of forward wrappers. -/
structure RDesc where
  vars : List DVar := []
  /-- the handler asserts that its first variable gets its base name -/
  pinned : Bool := false
  ops : List ROp := []
  out : Option (Str × List Tmpl) := none
  prepend : Bool := true
  deriving DecidableEq, Repr

def RDesc.builds (d : RDesc) (vs : List Str) : List BItem :=
  d.out.toList.map (fun o => ⟨o.1, o.2.map (render vs), none⟩)

/-- `convert_c_to_python`. -/
def RDesc.convert (d : RDesc) : Gen1 := fun w => do
  let (w, vs) ← declareAll d.vars w
  if d.pinned && vs.head? != d.vars.head?.map (·.base) then .error .assertionError
  else
    pure { w with ops := w.ops ++ d.ops.map (ROp.op vs)
                  build := if d.prepend then d.builds vs ++ w.build else w.build ++ d.builds vs }

/-- One value, one unit: see `scalarReturn`. -/
def scalarRet (fmt value : Str) : RDesc := { out := some (fmt, [[.text value]]) }

/-- `VoidReturn`. -/
def voidRet : RDesc := {}

/-- `CharReturn.convert_c_to_python`, stringtype.py:204-205. -/
def charRet (value : Str) : RDesc := { out := some ("c".toList, [[tx "(int) ", .text value]]), prepend := false }

/-- `CStringReturn.convert_c_to_python`, stringtype.py:222-226. -/
def cstringRet (value ctype function : Str) (freeAfterCopy : Bool) : RDesc :=
  { out := some ("s".toList, [[.text value]]), prepend := false
    ops := if freeAfterCopy then
        [.add [tx "free(retval);"],
         .add [tx "// free_after_copy for ", .text ctype, tx " ", .text function, tx "()"]]
      else [] }

/-- `StdStringReturn`, `StdStringRefReturn` and (with `bytes`) `GlibStringReturn.convert_c_to_python`,
stringtype.py:243-246, 259-262, 399-402. -/
def stringRet (value : Str) (size : String) : RDesc := { out := some (strOut [.text value] size) }

/-- `PyObjectReturnValue.convert_c_to_python`, pyobjecttype.py:62-65. -/
def pyObjectRet (value : Str) (owned : Bool) : RDesc :=
  { out := some (if owned then "N".toList else "O".toList, [[.text value]]) }

/-- `ContainerReturnValue.convert_c_to_python`, container.py:844-861; `ctype` is
`_get_noref_ctype()`. -/
def containerRet (ctype full pystruct pytype short : Str) : RDesc :=
  { vars := [{ ctype, base := "retval".toList },
      { ctype := pystruct ++ "*".toList, base := "py_".toList ++ short }]
    pinned := true
    ops := [.write [.var 1, tx " = PyObject_New(", .text pystruct, tx ", &", .text pytype, tx ");"],
      .write [.var 1, tx "->obj = new ", .text full, tx "(retval);"]]
    out := some ("N".toList, [[.var 1]]) }

/-- `CppClassReturnValue.convert_c_to_python`, cppclass.py:3251-3274, for a class with a copy
constructor; `alloc`, `create`, `register`, `post` as in `refOutDesc`. -/
def classRet (pystruct short : Str) (alloc : List Tmpl) (dict : Bool) (create : Tmpl) (register post : List Tmpl) :
    RDesc :=
  { vars := [{ ctype := pystruct ++ "*".toList, base := "py_".toList ++ short }]
    ops := (alloc ++ (if dict then [[.var 0, tx "->inst_dict = NULL;"]] else []) ++
      [.var 0, tx "->flags = PYBINDGEN_WRAPPER_FLAG_NONE;"] :: create :: register ++ post).map ROp.write
    out := some ("N".toList, [[.var 0]]) }

end Verif.Wrap
