import Verif.Wrapper.Values
import Verif.Wrapper.Reverse
import Verif.Wrapper.IntRange
import Verif.Utils.Model

/-!
# Converter functions (pybindgen/converter_functions.py, pybindgen/module.py:931-1006)

`PythonToCConverter` generates `int _wrap_convert_py2c__T(PyObject *value, T *address)`, used for the
items of containers and the operands of operators; `CToPythonConverter` generates
`PyObject* _wrap_convert_c2py__T(T *cvalue)`.  Both ask the return value handler of the type for the
code, with `self.value` set to `*address` or `*cvalue`.

The code generated is closed text (but for names of classes), so it is run here as it stands: every
statement and condition is looked up in a table that gives it the meaning it has in C++ and CPython; a
text that is not in the table has no meaning, and running it is an error.

Trusted: the tables, and what they say of CPython's format units (see also `Wrapper/Values.lean` and
`Wrapper/IntRange.lean`).  Python objects without `__index__` or `__float__` are the only ones besides
`int`, `bool` and `float`.  Memory allocation does not fail.  Classes are modelled in the direction from
Python to C++ only (see `Handlers/Returns.lean` for the code that wraps C++ objects).
-/
namespace Verif.Convert
open Verif Verif.Flow Verif.Params Verif.DeclScope Verif.Wrap Verif.IntRange

/-- The integer types with a return value handler of their own, typehandlers/inttype.py. -/
inductive IntT where
  | int | uint | int16 | uint16 | int8 | uint8 | long | ulong | longlong | ulonglong | size
  deriving DecidableEq, Repr

/-- Types that are not classes. -/
inductive Plain where
  | int (t : IntT)
  | bool
  | double
  | float
  | char
  /-- `free` is `free_after_copy` -/
  | cstring (free : Bool)
  | std
  | glib
  /-- `own` is `caller_owns_return` -/
  | pyobject (own : Bool)
  deriving DecidableEq, Repr

/-- Names of a wrapped class: `full_name`, `name`, `pystruct`, `pytypestruct`. -/
structure Names where
  full : Str
  name : Str
  pystruct : Str
  pytype : Str
  deriving DecidableEq, Repr

inductive VT where
  | plain (t : Plain)
  | cls (c : Names)
  deriving DecidableEq, Repr

/-! ## Python to C++ -/

/-- `parse_params.add_parameter(fmt, ["&"+self.value])` -/
def inPlace (fmt : String) (value : Str) (prepend : Bool) : Gen1 := fun w =>
  .ok (w.addParse ⟨fmt.toList, ['&' :: value], none, false⟩ prepend)

/-- Parsing into a variable, an error check, and the assignment. -/
def viaVar (type base fmt : String) (chk : Option (Str → Str)) (value : Str) (conv : Str → Str) : Gen1 := fun w => do
  let (w, v) ← w.declare type.toList base.toList none none
  let w := w.addParse ⟨fmt.toList, ['&' :: v], none, false⟩ true
  let w := match chk with
    | some f => w.op (.check 1 (f v) (some "PyErr_SetString(PyExc_ValueError, \"Out of range\");".toList))
    | none => w
  pure (w.op (.write 1 (value ++ " = ".toList ++ conv v ++ ";".toList)))

/-- `convert_python_to_c` of the integer return handlers, inttype.py:122-123, 136-137, 275-281, 256-262,
466-472, 411-417, 592-593, 553-554, 672-673, 513-514, 606-612. -/
def IntT.p2c (value : Str) : IntT → Gen1
  | .int => inPlace "i" value true
  | .uint => inPlace "I" value true
  | .int16 => viaVar "int" "tmp" "i"
      (some (fun v => v ++ " > 32767 || ".toList ++ v ++ " < -32768".toList)) value id
  | .uint16 => viaVar "int" "tmp" "i" (some (fun v => v ++ " > 0xffff".toList)) value id
  | .int8 => viaVar "int" "tmp" "i"
      (some (fun v => v ++ " > 128 || ".toList ++ v ++ " < -127".toList)) value id
  | .uint8 => viaVar "int" "tmp" "i" (some (fun v => v ++ " > 0xff".toList)) value id
  | .long => inPlace "l" value true
  | .ulong => inPlace "k" value true
  | .longlong => inPlace "L" value true
  | .ulonglong => inPlace "K" value true
  | .size => viaVar "unsigned PY_LONG_LONG" "retval_tmp" "K" none value id

/-- `StdStringReturn.convert_python_to_c`, stringtype.py:236-241. -/
def stdP2c (value : Str) : Gen1 := fun w => do
  let (w, p) ← w.declare "const char *".toList "retval_ptr".toList none none
  let (w, n) ← w.declare "Py_ssize_t".toList "retval_len".toList none none
  let w := w.addParse ⟨"s#".toList, ['&' :: p, '&' :: n], none, false⟩ false
  pure (w.op (.write 1 (value ++ " = std::string(".toList ++ p ++ ", ".toList ++ n ++ ");".toList)))

/-- `GlibStringReturn.convert_python_to_c`, stringtype.py:393-397. -/
def glibP2c (value : Str) : Gen1 := fun w => do
  let (w, p) ← w.declare "const char *".toList "retval_ptr".toList none none
  let w := w.addParse ⟨"et".toList, ["\"utf-8\"".toList, '&' :: p], none, false⟩ false
  pure (w.op (.write 1 (value ++ " = Glib::ustring(".toList ++ p ++ ");".toList)))

/-- `PyObjectReturnValue.convert_python_to_c`, pyobjecttype.py:57-60. -/
def objP2c (own : Bool) (value : Str) : Gen1 := fun w =>
  let w := w.addParse ⟨"O".toList, ['&' :: value], none, false⟩ true
  .ok (if own then w.op (.write 1 ("Py_INCREF((PyObject*) ".toList ++ value ++ ");".toList)) else w)

/-- `CppClassReturnValue.convert_python_to_c`, cppclass.py:3276-3288; `ctor` is
`REQUIRES_ASSIGNMENT_CONSTRUCTOR`, the type is not a reference. -/
def clsP2c (c : Names) (value : Str) (ctor : Bool) : Gen1 := fun w => do
  let (w, v) ← w.declare (c.pystruct ++ "*".toList) ("tmp_".toList ++ c.name) none none
  let w := w.addParse ⟨"O!".toList, ['&' :: c.pytype, '&' :: v], none, false⟩ false
  pure (w.op (.write 1 ((if ctor then c.full ++ " ".toList else []) ++ value ++ " = *".toList ++ v ++ "->obj;".toList)))

/-- `convert_python_to_c` of the handlers, with `self.value` and `REQUIRES_ASSIGNMENT_CONSTRUCTOR`:
booltype.py:39-43, doubletype.py:31-32, floattype.py:32-33, stringtype.py:201-202, 219-220. -/
def VT.p2c (value : Str) (ctor : Bool) : VT → Gen1
  | .plain (.int t) => t.p2c value
  | .plain .bool => viaVar "PyObject *" "py_boolretval" "O" none value
      (fun v => "PyObject_IsTrue(".toList ++ v ++ ")".toList)
  | .plain .double => inPlace "d" value true
  | .plain .float => inPlace "f" value true
  | .plain .char => inPlace "c" value true
  | .plain (.cstring _) => inPlace "s" value false
  | .plain .std => stdP2c value
  | .plain .glib => glibP2c value
  | .plain (.pyobject own) => objP2c own value
  | .cls c => clsP2c c value ctor

/-- `PythonToCConverter.generate`, converter_functions.py:43-68; blocks: `before_call` 0, `after_call` 1. -/
def pyToC (t : VT) : Gen1 := fun w => do
  let (w, _) ← w.declare "PyObject*".toList "py_retval".toList none none
  let w := w.op (.write 0 "py_retval = Py_BuildValue((char *) \"(O)\", value);".toList)
  let w := w.op (.add 0 "Py_DECREF(py_retval);".toList)
  let w ← t.p2c "*address".toList false w
  let ps ← getParameters w.parse
  let w := w.op (.check 0 (callText "!PyArg_ParseTuple" ("py_retval".toList :: castFirst ps)) none)
  pure ((w.op (.cleanup 1)).op (.ret 1 "return 1;".toList))

/-! ## C++ to Python -/

/-- `build_params.add_parameter`. -/
def give (fmt expr : Str) (prepend : Bool) : Gen1 := fun w => .ok (w.addBuild ⟨fmt, [expr], none⟩ prepend)

/-- `convert_c_to_python` of the handlers: inttype.py:125-126, 139-140, 264-265, 283-284, 419-420, 474-475,
516-517, 556-557, 595-596, 614-615, 675-676; booltype.py:45-47, doubletype.py:34-35, floattype.py:35-36,
stringtype.py:204-205, 222-226, 243-246, 399-402, pyobjecttype.py:62-65.  `wrapper.function_name`
(stringtype.py:226) is not an attribute of converters. -/
def Plain.c2p (value : Str) : Plain → Gen1
  | .int .int | .int .int16 | .int .uint16 | .int .int8 => give "i".toList value true
  | .int .uint => give "N".toList ("PyLong_FromUnsignedLong(".toList ++ value ++ ")".toList) true
  | .int .uint8 => give "i".toList ("(int)".toList ++ value) true
  | .int .long => give "l".toList value true
  | .int .ulong => give "k".toList value true
  | .int .longlong => give "L".toList value true
  | .int .ulonglong => give "K".toList value true
  | .int .size => give "K".toList ("((unsigned PY_LONG_LONG) ".toList ++ value ++ ")".toList) true
  | .bool => give "N".toList ("PyBool_FromLong(".toList ++ value ++ ")".toList) true
  | .double => give "d".toList value true
  | .float => give "f".toList value true
  | .char => give "c".toList ("(int) ".toList ++ value) false
  | .cstring free => fun w => if free then .error .attributeError else give "s".toList value false w
  | .std => fun w => .ok (w.addBuild ⟨"s#".toList, ["(".toList ++ value ++ ").c_str()".toList,
      "(".toList ++ value ++ ").size()".toList], none⟩ true)
  | .glib => fun w => .ok (w.addBuild ⟨"s#".toList, ["(".toList ++ value ++ ").c_str()".toList,
      "(".toList ++ value ++ ").bytes()".toList], none⟩ true)
  | .pyobject own => give (if own then "N".toList else "O".toList) value true

/-- `CToPythonConverter.generate`, converter_functions.py:108-133, after `__init__`; blocks as in forward
wrappers. -/
def cToPy (t : Plain) : Gen1 := fun w => do
  let w ← initState true none w
  let w ← t.c2p "*cvalue".toList w
  let ps := buildParameters w.build false
  let w := if ps = ["\"\"".toList] then
      (w.op (.write 2 "Py_INCREF(Py_None);".toList)).op (.write 2 "py_retval = Py_None;".toList)
    else w.op (.write 2 ("py_retval = ".toList ++ callText "Py_BuildValue" (castFirst ps) ++ ";".toList))
  pure ((w.op (.cleanup 2)).op (.ret 2 "return py_retval;".toList))

/-! ## Running the code -/

variable {T D : Type}

/-- C++ values. -/
inductive CE (T D : Type) where
  | num (n : Int)
  | bool (b : Bool)
  | real (x : D)
  | char (c : UInt8)
  /-- a `char *`: null or zero-terminated bytes, owned by someone else -/
  | chars (b : Option Bytes)
  | size (n : Nat)
  | str (b : Bytes)
  | ustr (b : Bytes)
  | obj (x : PyV T D)
  /-- an object of the wrapped class, by its content -/
  | inst (k : Nat)

/-- What the code depends on. -/
structure Env (T D : Type) extends Lib T D where
  /-- conversion of a Python integer to `double`; `none`: `OverflowError` -/
  ofInt : Int → Option D
  /-- instances of the wrapped class: `none` for other objects, `some none` for a wrapper without C++
  object, `some (some k)` for a wrapper of an object with content `k` -/
  instOf : PyV T D → Option (Option Nat)

/-- What happens during a call. -/
structure St (T D : Type) where
  /-- variables and `*address`; `none` means uninitialized -/
  vars : Str → Option (CE T D)
  /-- the item of the tuple `py_retval` refers to -/
  tuple : Option (PyV T D) := none
  /-- references to `value` that have been taken and not given back -/
  held : Int := 0
  /-- buffers allocated by `PyArg_ParseTuple` and not freed -/
  buffers : Nat := 0
  /-- an exception is set -/
  err : Bool := false

inductive Expr where
  | var (v : Str)
  | isTrue (v : Str)
  | mkStd (p n : Str)
  | mkGlib (p : Str)
  | objOf (v : Str)
  deriving DecidableEq, Repr

inductive Meaning where
  /-- `Py_BuildValue("(O)", value)` -/
  | pack
  /-- `Py_DECREF(py_retval)` -/
  | unpack
  | assign (v : Str) (e : Expr)
  | incref (v : Str)
  | raise
  deriving DecidableEq, Repr

inductive Test where
  /-- `!PyArg_ParseTuple(py_retval, fmt, texts..., &vars...)` -/
  | parse (fmt : Str) (texts vars : List Str)
  /-- a comparison of a variable with constants -/
  | num (v : Str) (c : IntRange.Cond)
  deriving DecidableEq, Repr

/-- Statements that do not depend on names of classes. -/
def stmtTable : List (Str × Meaning) :=
  [("py_retval = Py_BuildValue((char *) \"(O)\", value);".toList, .pack),
   ("Py_DECREF(py_retval);".toList, .unpack),
   ("*address = tmp;".toList, .assign "*address".toList (.var "tmp".toList)),
   ("*address = retval_tmp;".toList, .assign "*address".toList (.var "retval_tmp".toList)),
   ("*address = PyObject_IsTrue(py_boolretval);".toList, .assign "*address".toList (.isTrue "py_boolretval".toList)),
   ("*address = std::string(retval_ptr, retval_len);".toList,
     .assign "*address".toList (.mkStd "retval_ptr".toList "retval_len".toList)),
   ("*address = Glib::ustring(retval_ptr);".toList, .assign "*address".toList (.mkGlib "retval_ptr".toList)),
   ("Py_INCREF((PyObject*) *address);".toList, .incref "*address".toList),
   ("PyErr_SetString(PyExc_ValueError, \"Out of range\");".toList, .raise)]

/-- Format units that store to one variable. -/
def units : List String := ["i", "I", "l", "k", "L", "K", "d", "f", "c", "s", "O"]

/-- Conditions that do not depend on names of classes. -/
def testTable : List (Str × Test) :=
  [("tmp > 0xffff".toList, .num "tmp".toList (.gt 0xffff)),
   ("tmp > 0xff".toList, .num "tmp".toList (.gt 0xff)),
   ("tmp > 32767 || tmp < -32768".toList, .num "tmp".toList (.gtOrLt 32767 (-32768))),
   ("tmp > 128 || tmp < -127".toList, .num "tmp".toList (.gtOrLt 128 (-127))),
   ("!PyArg_ParseTuple(py_retval, (char *) \"s#\", &retval_ptr, &retval_len)".toList,
     .parse "s#".toList [] ["retval_ptr".toList, "retval_len".toList]),
   ("!PyArg_ParseTuple(py_retval, (char *) \"et\", \"utf-8\", &retval_ptr)".toList,
     .parse "et".toList ["\"utf-8\"".toList] ["retval_ptr".toList])] ++
  units.flatMap (fun f => ["*address", "tmp", "retval_tmp", "py_boolretval"].map (fun v =>
    ("!PyArg_ParseTuple(py_retval, (char *) \"".toList ++ f.toList ++ "\", &".toList ++ v.toList ++ ")".toList,
      Test.parse f.toList [] [v.toList])))

/-- The meaning of a statement. -/
def stmtOf : VT → Str → Option Meaning
  | .cls c, s =>
    if s = "*address = *".toList ++ ("tmp_".toList ++ c.name) ++ "->obj;".toList then
      some (.assign "*address".toList (.objOf ("tmp_".toList ++ c.name)))
    else stmtTable.lookup s
  | .plain _, s => stmtTable.lookup s

/-- The meaning of a condition. -/
def testOf : VT → Str → Option Test
  | .cls c, s =>
    if s = callText "!PyArg_ParseTuple" ["py_retval".toList, "(char *) \"O!\"".toList, '&' :: c.pytype,
        '&' :: ("tmp_".toList ++ c.name)] then
      some (.parse "O!".toList ['&' :: c.pytype] ["tmp_".toList ++ c.name])
    else testTable.lookup s
  | .plain _, s => testTable.lookup s

/-- The C++ type an integer type is. -/
def IntT.ctype : IntT → CInt
  | .int => s32 | .uint => u32 | .int16 => s16 | .uint16 => u16 | .int8 => s8 | .uint8 => u8
  | .long => s64 | .ulong => u64 | .longlong => s64 | .ulonglong => u64 | .size => u64

/-- The integer type of a variable, given the declarations. -/
def intVar (t : VT) (decls : List Str) (v : Str) : Option CInt :=
  if v = "*address".toList then
    match t with
    | .plain (.int i) => some i.ctype
    | _ => none
  else if v = "tmp".toList ∧ "int tmp;".toList ∈ decls then some s32
  else if v = "retval_tmp".toList ∧ "unsigned PY_LONG_LONG retval_tmp;".toList ∈ decls then some u64
  else none

/-- The type of a variable that is not an integer. -/
inductive Other where
  | bool | double | float | char | chars | size | str | ustr | obj | wrapper | inst
  deriving DecidableEq, Repr

/-- The same for the other types. -/
def otherVar (t : VT) (decls : List Str) (v : Str) : Option Other :=
  if v = "*address".toList then
    match t with
    | .plain .bool => some .bool
    | .plain .double => some .double
    | .plain .float => some .float
    | .plain .char => some .char
    | .plain (.cstring _) => some .chars
    | .plain .std => some .str
    | .plain .glib => some .ustr
    | .plain (.pyobject _) => some .obj
    | .plain (.int _) => none
    | .cls _ => some .inst
  else if v = "py_boolretval".toList ∧ "PyObject *py_boolretval;".toList ∈ decls then some .obj
  else if v = "retval_ptr".toList ∧ "const char *retval_ptr;".toList ∈ decls then some .chars
  else if v = "retval_len".toList ∧ "Py_ssize_t retval_len;".toList ∈ decls then some .size
  else match t with
    | .cls c => if v = "tmp_".toList ++ c.name ∧ (c.pystruct ++ " *".toList ++ v ++ ";".toList) ∈ decls then some .wrapper
      else none
    | _ => none

/-- The integer an object is. -/
def asInt : PyV T D → Option Int
  | .int n => some n
  | .bool b => some (if b then 1 else 0)
  | _ => none

/-- The number an object is. -/
def Env.asReal (E : Env T D) : PyV T D → Option D
  | .float x => some x
  | .int n => E.ofInt n
  | .bool b => E.ofInt (if b then 1 else 0)
  | _ => none

/-- The format unit of an integer. -/
def fmtOf : Str → Option Fmt := fun s =>
  [("i".toList, Fmt.i), ("I".toList, .I), ("l".toList, .l), ("k".toList, .k), ("L".toList, .L), ("K".toList, .K)].lookup s

/-- Outcome of parsing: a type error in the C++ program, an exception, or the values stored. -/
inductive Parsed (T D : Type) where
  | undefined
  | refused
  | stored (l : List (Str × CE T D)) (buffers : Nat)

/-- `PyArg_ParseTuple` with one unit on the object `x`; `ivar` and `ovar` are the types of variables. -/
def Env.parseUnit (E : Env T D) (ivar : Str → Option CInt) (ovar : Str → Option Other) (fmt : Str) (texts : List Str)
    (vars : List Str) (x : PyV T D) : Parsed T D :=
  match vars with
  | [v] =>
    match fmtOf fmt with
    | some f =>
      match ivar v with
      | some c =>
        if c.bits = f.ctype.bits then
          match (asInt x).bind f.parse with
          | some n => .stored [(v, .num (c.wrap n))] 0
          | none => .refused
        else .undefined
      | none => .undefined
    | none =>
      if fmt = "d".toList ∧ ovar v = some .double then
        match E.asReal x with
        | some y => .stored [(v, .real y)] 0
        | none => .refused
      else if fmt = "f".toList ∧ ovar v = some .float then
        match E.asReal x with
        | some y => .stored [(v, .real (E.narrow y))] 0
        | none => .refused
      else if fmt = "c".toList ∧ ovar v = some .char then
        match x with
        | .bytes [c] => .stored [(v, .char c)] 0
        | _ => .refused
      else if fmt = "s".toList ∧ ovar v = some .chars then
        match x with
        | .str s =>
          match E.codec.enc s with
          | some b => if 0 ∈ b then .refused else .stored [(v, .chars (some b))] 0
          | none => .refused
        | _ => .refused
      else if fmt = "et".toList ∧ texts = ["\"utf-8\"".toList] ∧ ovar v = some .chars then
        match x with
        | .str s =>
          match E.codec.enc s with
          | some b => if 0 ∈ b then .refused else .stored [(v, .chars (some b))] 1
          | none => .refused
        | .bytes b => if 0 ∈ b then .refused else .stored [(v, .chars (some b))] 1
        | _ => .refused
      else if fmt = "O".toList ∧ ovar v = some .obj then .stored [(v, .obj x)] 0
      else if fmt = "O!".toList ∧ ovar v = some .wrapper then
        match E.instOf x with
        | some _ => .stored [(v, .obj x)] 0
        | none => .refused
      else .undefined
  | [p, n] =>
    if fmt = "s#".toList ∧ ovar p = some .chars ∧ ovar n = some .size then
      match x with
      | .str s =>
        match E.codec.enc s with
        | some b => .stored [(p, .chars (some b)), (n, .size b.length)] 0
        | none => .refused
      | .bytes b => .stored [(p, .chars (some b)), (n, .size b.length)] 0
      | _ => .refused
    else .undefined
  | _ => .undefined

/-- Assigning a variable. -/
def St.set (s : St T D) (v : Str) (x : CE T D) : St T D :=
  { s with vars := fun u => if u = v then some x else s.vars u }

/-- The value of an expression, and whether evaluating it sets an exception. -/
def Env.eval (E : Env T D) (s : St T D) : Expr → Option (CE T D × Bool)
  | .var v => (s.vars v).map (·, false)
  | .isTrue v =>
    match s.vars v with
    | some (.obj x) => some (.bool (E.isTrueC x), (E.truth x).isNone)
    | _ => none
  | .mkStd p n =>
    match s.vars p, s.vars n with
    | some (.chars (some b)), some (.size k) => (takeBytes b k).map (.str ·, false)
    | _, _ => none
  | .mkGlib p =>
    match s.vars p with
    | some (.chars (some b)) => some (.ustr (cut b), false)
    | _ => none
  | .objOf v =>
    match s.vars v with
    | some (.obj x) =>
      match E.instOf x with
      | some (some k) => some (.inst k, false)
      | _ => none
    | _ => none

/-- Does a value fit a variable of the type? -/
def Other.fits : Other → CE T D → Bool
  | .bool, .bool _ => true
  | .str, .str _ => true
  | .ustr, .ustr _ => true
  | .inst, .inst _ => true
  | _, _ => false

/-- The effect of a statement; `none` is undefined behaviour. -/
def Env.act (E : Env T D) (ivar : Str → Option CInt) (ovar : Str → Option Other) (x : PyV T D) (s : St T D) :
    Meaning → Option (St T D)
  | .pack => some { s with tuple := some x, held := s.held + 1 }
  | .unpack =>
    match s.tuple with
    | some _ => some { s with tuple := none, held := s.held - 1 }
    | none => none
  | .assign v e =>
    match E.eval s e with
    | none => none
    | some (y, err) =>
      match ivar v, y with
      | some c, .num n => some { s.set v (.num (c.wrap n)) with err := s.err || err }
      | _, y =>
        match ovar v with
        | some o => if o.fits y then some { s.set v y with err := s.err || err } else none
        | none => none
  | .incref v =>
    match s.vars v with
    | some (.obj _) => some { s with held := s.held + 1 }
    | _ => none
  | .raise => some { s with err := true }

/-- A condition: its truth, and the state after evaluating it. -/
def Env.test (E : Env T D) (ivar : Str → Option CInt) (ovar : Str → Option Other) (s : St T D) :
    Test → Option (Bool × St T D)
  | .parse fmt texts vars =>
    match s.tuple with
    | none => none
    | some x =>
      match E.parseUnit ivar ovar fmt texts vars x with
      | .undefined => none
      | .refused => some (true, { s with err := true })
      | .stored l b => some (false, { l.foldl (fun s p => s.set p.1 p.2) s with buffers := s.buffers + b })
  | .num v c =>
    match s.vars v with
    | some (.num n) => some (c.holds n, s)
    | _ => none

/-- How a call ends. -/
inductive End (T D : Type) where
  /-- `return 1;`, `return 0;` -/
  | returned (ok : Bool) (s : St T D)
  | undefined

/-- What the code is run with. -/
structure Ctx (T D : Type) where
  E : Env T D
  t : VT
  decls : List Str
  x : PyV T D

def Ctx.act (C : Ctx T D) (s : St T D) (text : Str) : Option (St T D) :=
  match stmtOf C.t text with
  | none => none
  | some m => C.E.act (intVar C.t C.decls) (otherVar C.t C.decls) C.x s m

def Ctx.test (C : Ctx T D) (s : St T D) (text : Str) : Option (Bool × St T D) :=
  match testOf C.t text with
  | none => none
  | some m => C.E.test (intVar C.t C.decls) (otherVar C.t C.decls) s m

/-- Leaving with the text of a return statement. -/
def leave (r : Str) (s : St T D) : End T D :=
  if r = "return 1;".toList then .returned true s
  else if r = "return 0;".toList then .returned false s
  else .undefined

/-- Straight code. -/
def Ctx.acts (C : Ctx T D) : List Act → St T D → End T D
  | [], _ => .undefined
  | .ret r :: _, s => leave r s
  | .code t :: rest, s =>
    match C.act s t with
    | some s => C.acts rest s
    | none => .undefined
  | .clean _ _ t :: rest, s =>
    match C.act s t with
    | some s => C.acts rest s
    | none => .undefined

/-- The body of a function. -/
def Ctx.exec (C : Ctx T D) : List Stmt → St T D → End T D
  | [], _ => .undefined
  | .acq _ _ _ :: rest, s => C.exec rest s
  | .act (.ret r) :: _, s => leave r s
  | .act (.code t) :: rest, s =>
    match C.act s t with
    | some s => C.exec rest s
    | none => .undefined
  | .act (.clean _ _ t) :: rest, s =>
    match C.act s t with
    | some s => C.exec rest s
    | none => .undefined
  | .exit c b :: rest, s =>
    match C.test s c with
    | none => .undefined
    | some (true, s) => C.acts b s
    | some (false, s) => C.exec rest s

/-- The lines of the declarations. -/
def declLines (w : W) : List Str := (w.decls.sinks 0).lines

/-- A call of the converter of type `t` with the Python object `x`, `*address` holding `old`.
`error_return` is `return 0;`, converter_functions.py:32. -/
def callPyToC (E : Env T D) (t : VT) (x : PyV T D) (old : Option (CE T D)) : PyRes (End T D) := do
  let w ← pyToC t {}
  pure (Ctx.exec ⟨E, t, declLines w, x⟩ (((Gen.fresh (fun _ => "return 0;".toList)).run w.ops).body 2)
    { vars := fun v => if v = "*address".toList then old else none })

/-- What can be seen of a call from Python to C++: the result, the content of `*address`, references taken
to the object, buffers left behind, and whether an exception is set. -/
structure Seen (T D : Type) where
  ok : Bool
  stored : Option (CE T D)
  held : Int
  buffers : Nat
  err : Bool

/-- `none`: the function cannot be generated, or what it does is undefined. -/
def seen : PyRes (End T D) → Option (Seen T D)
  | .ok (.returned ok s) => some ⟨ok, s.vars "*address".toList, s.held, s.buffers, s.err⟩
  | _ => none

/-! ## Running the code in the other direction -/

/-- `py_retval = Py_BuildValue(...)` -/
inductive Build where
  /-- an integer through a format unit -/
  | num (f : Fmt)
  | bool
  | real
  | char
  | chars
  /-- `(*cvalue).c_str()` with the length by `size()` or `bytes()` -/
  | bytes (member : Str)
  | obj (steal : Bool)
  deriving DecidableEq, Repr

def buildTable : List (Str × Build) :=
  [("py_retval = Py_BuildValue((char *) \"i\", *cvalue);".toList, .num .i),
   ("py_retval = Py_BuildValue((char *) \"i\", (int)*cvalue);".toList, .num .i),
   ("py_retval = Py_BuildValue((char *) \"l\", *cvalue);".toList, .num .l),
   ("py_retval = Py_BuildValue((char *) \"k\", *cvalue);".toList, .num .k),
   ("py_retval = Py_BuildValue((char *) \"L\", *cvalue);".toList, .num .L),
   ("py_retval = Py_BuildValue((char *) \"K\", *cvalue);".toList, .num .K),
   ("py_retval = Py_BuildValue((char *) \"K\", ((unsigned PY_LONG_LONG) *cvalue));".toList, .num .K),
   ("py_retval = Py_BuildValue((char *) \"N\", PyLong_FromUnsignedLong(*cvalue));".toList, .num .k),
   ("py_retval = Py_BuildValue((char *) \"N\", PyBool_FromLong(*cvalue));".toList, .bool),
   ("py_retval = Py_BuildValue((char *) \"d\", *cvalue);".toList, .real),
   ("py_retval = Py_BuildValue((char *) \"f\", *cvalue);".toList, .real),
   ("py_retval = Py_BuildValue((char *) \"c\", (int) *cvalue);".toList, .char),
   ("py_retval = Py_BuildValue((char *) \"s\", *cvalue);".toList, .chars),
   ("py_retval = Py_BuildValue((char *) \"s#\", (*cvalue).c_str(), (*cvalue).size());".toList, .bytes "size".toList),
   ("py_retval = Py_BuildValue((char *) \"s#\", (*cvalue).c_str(), (*cvalue).bytes());".toList, .bytes "bytes".toList),
   ("py_retval = Py_BuildValue((char *) \"O\", *cvalue);".toList, .obj false),
   ("py_retval = Py_BuildValue((char *) \"N\", *cvalue);".toList, .obj true)]

/-- What Python gets: the object (`none`: an exception is set), and the references to it the call has
added (`N` passes on the reference C++ had). -/
structure Given (T D : Type) where
  result : Option (PyV T D)
  added : Int := 0

/-- `none` is a type error in the C++ program or undefined behaviour. -/
def Env.build (E : Env T D) (v : CE T D) : Build → Option (Given T D)
  | .num f =>
    match v with
    | .num n => some ⟨some (.int (f.ctype.wrap n)), 0⟩
    | _ => none
  | .bool =>
    match v with
    | .bool b => some ⟨some (.bool b), 0⟩
    | _ => none
  | .real =>
    match v with
    | .real x => some ⟨some (.float x), 0⟩
    | _ => none
  | .char =>
    match v with
    | .char c => some ⟨some (.bytes [c]), 0⟩
    | _ => none
  | .chars =>
    match v with
    | .chars none => some ⟨some .none, 0⟩
    | .chars (some b) => some ⟨(E.codec.dec (cut b)).map .str, 0⟩
    | _ => none
  | .bytes m =>
    match v with
    | .str b => if m = "size".toList then some ⟨E.toLib.decodeN b b.length, 0⟩ else none
    | .ustr b =>
      if m = "bytes".toList then some ⟨E.toLib.decodeN b b.length, 0⟩
      else some ⟨E.toLib.decodeN b (charCount b), 0⟩
    | _ => none
  | .obj steal =>
    match v with
    | .obj x => some ⟨some x, if steal then 0 else 1⟩
    | _ => none

/-- The body: `py` is what `py_retval` has been assigned. -/
def Env.give (E : Env T D) (v : CE T D) : List Stmt → Option (Given T D) → Option (Given T D)
  | [], _ => none
  | .act (.code s) :: rest, _ =>
    match buildTable.lookup s with
    | some b =>
      match E.build v b with
      | some g => E.give v rest (some g)
      | none => none
    | none => none
  | .act (.ret r) :: _, py => if r = "return py_retval;".toList then py else none
  | _ :: _, _ => none

/-- A call of the converter of type `t` with `*cvalue` equal to `v`. -/
def callCToPy (E : Env T D) (t : Plain) (v : CE T D) : Option (Given T D) :=
  match cToPy t {} with
  | .ok w => E.give v (((Gen.fresh (fun _ => "return 0;".toList)).run w.ops).body 3) none
  | .error _ => none

/-! ## Which converters are defined -/

/-- What the generation of a module asks for, in order. -/
inductive Req where
  /-- `generate_python_to_c_type_converter`, module.py:941-967, for the type with the text `ctype` -/
  | fromPy (ctype : Str) (t : VT)
  /-- `generate_c_to_python_type_converter`, module.py:980-1006 -/
  | toPy (ctype : Str) (t : Plain)
  /-- a container with the given full name is declared, container.py:316-323: its converter is written by
  hand, container.py:534-597 -/
  | container (full : Str)
  deriving DecidableEq, Repr

/-- A function definition: its name, and the request it was written for. -/
structure Fn where
  name : Str
  src : Req
  deriving DecidableEq, Repr

/-- `get_python_to_c_type_converter_function_name`, `get_c_to_python_type_converter_function_name`,
module.py:931-939, 970-978. -/
def Req.name : Req → Str
  | .fromPy c _ => "_wrap_convert_py2c__".toList ++ Utils.mangleName c
  | .toPy c _ => "_wrap_convert_c2py__".toList ++ Utils.mangleName c
  | .container c => "_wrap_convert_py2c__".toList ++ Utils.mangleName c

/-- `one_time_definitions`, and the functions written. -/
structure Defs where
  once : List Str := []
  fns : List Fn := []

/-- Generating the function asked for: `none`, or the exception raised (after the name has been taken). -/
def Req.fails : Req → Option PyErr
  | .fromPy _ t =>
    match pyToC t {} with
    | .ok _ => none
    | .error e => some e
  | .toPy _ t =>
    match cToPy t {} with
    | .ok _ => none
    | .error e => some e
  | .container _ => none

/-- One request, with the name it answers or the exception it raises. -/
def Defs.step (d : Defs) (r : Req) : Defs × PyRes Str :=
  if r.name ∈ d.once then
    match r with
    | .container _ => (d, .error .keyError)
    | _ => (d, .ok r.name)
  else
    match r.fails with
    | some e => ({ d with once := r.name :: d.once }, .error e)
    | none => (⟨r.name :: d.once, d.fns ++ [⟨r.name, r⟩]⟩, .ok r.name)

/-- All requests of a module; an exception can be caught outside (error handlers skip wrappers), so
generation may go on. -/
def Defs.run (d : Defs) : List Req → Defs × List (PyRes Str)
  | [] => (d, [])
  | r :: rs =>
    let p := d.step r
    let q := p.1.run rs
    (q.1, p.2 :: q.2)

end Verif.Convert
