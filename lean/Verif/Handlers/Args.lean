import Verif.Wrapper.ForwardFlow

/-!
# Arguments of wrapped class type (Python calls C++)

`convert_python_to_c` of the class handlers: `CppClassParameter` (by value, cppclass.py:2939-3011),
`CppClassRefParameter` (3057-3165), `CppClassPtrParameter` (3432-3503) and
`CppClassSharedPtrParameter` (smart_ptr.py:168-207).

Each of them declares a variable for the Python object, has it filled by the argument parser, writes
a few statements before the call and appends one C++ expression to the arguments of the call.  The
statements and the expression are kept as syntax trees here: `Snip.convert` renders them into the
wrapper under generation, `Snip.run` says what they do.
-/
namespace Verif.Handlers
open Verif Verif.Flow Verif.Params Verif.Wrap

/-- What the handlers read off a `CppClass`: an identity for the semantics, `name`, `full_name`,
`pystruct`, `pytypestruct`. -/
structure K where
  id : Nat
  name : Str
  fullName : Str
  pystruct : Str
  pytype : Str
  deriving DecidableEq, Repr

/-! ## Syntax -/

/-- C++ expressions over the Python object variable and the value variable of one parameter. -/
inductive E where
  /-- `*((PyK *) py)->obj` -/
  | deref (k : K)
  /-- `*py->obj` -/
  | derefShort
  /-- `py->obj` -/
  | obj
  /-- `NULL` -/
  | null
  /-- the value variable -/
  | val
  /-- a C++ expression given as default value, or a variable holding it -/
  | dflt (s : Str)
  /-- `(py ? (*((PyK *) py)->obj) : e)` -/
  | orDflt (k : K) (s : Str)
  /-- `(py ? py->obj : NULL)` -/
  | objOrNull
  deriving DecidableEq, Repr

/-- Conditions. -/
inductive C where
  /-- `py == NULL` -/
  | isNull
  /-- `PyObject_IsInstance(py, (PyObject*) &K_Type)` -/
  | isInstance (k : K)
  deriving DecidableEq, Repr

/-- Statements before the call. -/
inductive S where
  /-- `val = e;` -/
  | set (e : E)
  /-- `if (c1) { val = e1; } else if ... else { PyErr_Format(PyExc_TypeError, ...); <error return> }` -/
  | chain (l : List (C × E)) (names : List Str)
  /-- error check `py && py != Py_None && !PyObject_IsInstance(py, K)` -/
  | noneOrInstance (k : K) (num : Nat)
  /-- `if (py) { if (py == Py_None) val = NULL; else val = py->obj; } else { val = NULL; }` -/
  | setNullOk
  /-- `if (py) { val = py->obj; }` -/
  | setIf
  /-- `if (py) { py->obj->incref(); }` (text of the policy) -/
  | incref (text : Str)
  deriving DecidableEq, Repr

/-- How the argument is parsed. -/
inductive Fmt where
  /-- `O!` with the type of the class -/
  | typed (k : K)
  /-- `O` -/
  | any
  deriving DecidableEq, Repr

/-- What a handler does to the wrapper under generation. -/
structure Snip where
  /-- the Python object variable: its type and initializer; `none` for `self` -/
  py : Option (Str × Option Str)
  /-- the value variable: type and suffix of its name -/
  val : Option (Str × Str) := none
  /-- a variable holding the default value: type and initializer -/
  dfltVar : Option (Str × Str) := none
  parse : Option Fmt := none
  optional : Bool := false
  before : List S := []
  arg : E
  /-- after the call: `if (py) { unregister; py->obj = NULL; }` -/
  clearAfter : Bool := false
  deriving DecidableEq, Repr

/-! ## The handlers -/

/-- Passing convention of a parameter, with the options of each handler. -/
inductive Kind where
  /-- `CppClassParameter` -/
  | value
  /-- `CppClassRefParameter`, direction in: `type_traits.target_is_const` and
  `default_value_type` -/
  | ref (isConst : Bool) (dfltType : Option Str)
  /-- `CppClassRefParameter`, direction inout -/
  | refInout
  /-- `CppClassPtrParameter` (any direction): `null_ok`, `transfer_ownership`, and the text of
  `memory_policy.write_incref` if the policy is a `ReferenceCountingPolicy` -/
  | ptr (nullOk transfer : Bool) (counted : Option Str)
  /-- `CppClassSharedPtrParameter`: `null_ok`; the text is `memory_policy.get_pointer_name` -/
  | shared (nullOk : Bool) (ptrType : Str)
  deriving DecidableEq, Repr

/-- A parameter. -/
structure Par where
  kind : Kind
  k : K
  name : Str
  /-- `get_all_implicit_conversions()`, cppclass.py:1134-1149 -/
  srcs : List K := []
  dflt : Option Str := none
  /-- `take_value_from_python_self` -/
  fromSelf : Bool := false
  /-- `get_construct_name` does not raise (cppclass.py:1114-1122) -/
  constructible : Bool := true
  deriving DecidableEq, Repr

/-- The value handler and the const reference handler in the presence of implicit conversions,
cppclass.py:2971-3011 and 3097-3125: `dflt` is what the first branch assigns. -/
def convSnip (p : Par) (dflt : Option Str) : Snip :=
  { py := some ("PyObject*".toList, dflt.map (fun _ => "NULL".toList))
    val := some (p.k.fullName, [])
    parse := some .any, optional := dflt.isSome
    before := [.chain
      ((dflt.map (fun d => (C.isNull, E.dflt d))).toList ++ (C.isInstance p.k, E.deref p.k) ::
        p.srcs.map (fun s => (C.isInstance s, E.deref s)))
      (p.k.name :: p.srcs.map (·.name))]
    arg := .val }

/-- `CppClassParameter.convert_python_to_c`, cppclass.py:2944-3011. -/
def valueSnip (p : Par) : PyRes Snip :=
  if p.fromSelf then .ok { py := none, arg := .deref p.k }
  else if p.srcs = [] then
    match p.dflt with
    | some d =>
      if p.constructible then
        .ok { py := some (p.k.pystruct ++ "*".toList, some "NULL".toList), parse := some (.typed p.k)
              optional := true, arg := .orDflt p.k d }
      else .error .codeGenerationError
    | none =>
      .ok { py := some (p.k.pystruct ++ "*".toList, none), parse := some (.typed p.k)
            arg := .deref p.k }
  else .ok (convSnip p p.dflt)

/-- `CppClassRefParameter.convert_python_to_c`, direction in, cppclass.py:3062-3125. -/
def refSnip (p : Par) (isConst : Bool) (dfltType : Option Str) : PyRes Snip :=
  if p.fromSelf then .ok { py := none, arg := .deref p.k }
  else if !(p.srcs ≠ [] && isConst) then
    match p.dflt with
    | some d =>
      match dfltType with
      | some t =>
        .ok { py := some (p.k.pystruct ++ "*".toList, some "NULL".toList), parse := some (.typed p.k)
              optional := true, dfltVar := some (t, d), arg := .orDflt p.k d }
      | none =>
        if p.constructible then
          .ok { py := some (p.k.pystruct ++ "*".toList, some "NULL".toList), parse := some (.typed p.k)
                optional := true, arg := .orDflt p.k d }
        else .error .codeGenerationError
    | none =>
      .ok { py := some (p.k.pystruct ++ "*".toList, none), parse := some (.typed p.k)
            arg := .deref p.k }
  else .ok (convSnip p none)

/-- `CppClassPtrParameter.convert_python_to_c`, cppclass.py:3432-3503, without transformation;
`num` is the position the parser gives the parameter. -/
def ptrSnip (p : Par) (nullOk transfer : Bool) (counted : Option Str) (num : Nat) : Snip :=
  let inc : List S := match transfer, counted with
    | true, some t => [.incref t]
    | _, _ => []
  let clr := transfer && counted.isNone
  if p.fromSelf then { py := none, before := inc, arg := .obj, clearAfter := clr }
  else
    { py := some (p.k.pystruct ++ "*".toList, if truthy p.dflt then some "NULL".toList else none)
      val := some (p.k.fullName ++ "*".toList, "_ptr".toList)
      parse := some (if nullOk then .any else .typed p.k), optional := truthy p.dflt
      before := (if nullOk then [.noneOrInstance p.k num, .setNullOk] else [.set .objOrNull]) ++ inc
      arg := .val, clearAfter := clr }

/-- `CppClassSharedPtrParameter.convert_python_to_c`, smart_ptr.py:168-207. -/
def sharedSnip (p : Par) (nullOk : Bool) (ptrType : Str) (num : Nat) : Snip :=
  { py := some (p.k.pystruct ++ "*".toList, if truthy p.dflt then some "NULL".toList else none)
    val := some (ptrType, "_ptr".toList)
    parse := some (if nullOk then .any else .typed p.k), optional := truthy p.dflt
    before := if nullOk then [.noneOrInstance p.k num, .setNullOk] else [.setIf]
    arg := .val }

/-- The handler of a parameter.  Inout references: cppclass.py:3155-3165. -/
def Par.snip (p : Par) (num : Nat) : PyRes Snip :=
  match p.kind with
  | .value => valueSnip p
  | .ref c t => refSnip p c t
  | .refInout =>
    if p.fromSelf then .error .assertionError
    else .ok { py := some (p.k.pystruct ++ "*".toList, none), parse := some (.typed p.k)
               arg := .derefShort }
  | .ptr n t c => .ok (ptrSnip p n t c num)
  | .shared n t => .ok (sharedSnip p n t num)

/-! ## Rendering -/

/-- Text of an expression; `py` and `val` are the names of the variables, `d` that of the variable
holding the default value, if there is one. -/
def E.render (py val : Str) (d : Option Str) : E → Str
  | .deref k => "*((".toList ++ k.pystruct ++ " *) ".toList ++ py ++ ")->obj".toList
  | .derefShort => "*".toList ++ py ++ "->obj".toList
  | .obj => py ++ "->obj".toList
  | .null => "NULL".toList
  | .val => val
  | .dflt s => s
  | .orDflt k s => "(".toList ++ py ++ " ? (*((".toList ++ k.pystruct ++ " *) ".toList ++ py ++
      ")->obj) : ".toList ++ d.getD s ++ ")".toList
  | .objOrNull => "(".toList ++ py ++ " ? ".toList ++ py ++ "->obj : NULL)".toList

def C.render (py : Str) : C → Str
  | .isNull => py ++ " == NULL".toList
  | .isInstance k => "PyObject_IsInstance(".toList ++ py ++ ", (PyObject*) &".toList ++ k.pytype ++ ")".toList

/-- The branches of a chain: the first opens the `if`. -/
def chainOps (py val : Str) : Bool → List (C × E) → List Op
  | _, [] => []
  | first, (c, e) :: rest =>
    .write 1 ((if first then "if (".toList else "} else if (".toList) ++ c.render py ++ ") {\n    ".toList ++
      val ++ " = ".toList ++ e.render py val none ++ ";".toList) :: chainOps py val false rest

/-- Calls on the code blocks made for a statement.  The branch written by hand in cppclass.py:3003-3009
does what `write_error_check` does. -/
def S.ops (py val : Str) : S → List Op
  | .set e => [.write 1 (val ++ " = ".toList ++ e.render py val none ++ ";".toList)]
  | .chain l names => chainOps py val true l ++
      [.check 1 "} else {".toList (some ("PyErr_Format(PyExc_TypeError, \"parameter must an instance of one of the types (".toList ++
        pyJoin ", ".toList names ++ "), not %s\", Py_TYPE(".toList ++ py ++ ")->tp_name);".toList))]
  | .noneOrInstance k num => [.check 1 (py ++ " && ((PyObject *) ".toList ++ py ++
      " != Py_None) && !PyObject_IsInstance((PyObject *) ".toList ++ py ++ ", (PyObject *) &".toList ++
      k.pytype ++ ")".toList)
      (some ("PyErr_SetString(PyExc_TypeError, \"Parameter ".toList ++ natStr num ++ " must be of type ".toList ++
        k.name ++ "\");".toList))]
  | .setNullOk => [.write 1 ("if (".toList ++ py ++ ") {\n    if ((PyObject *) ".toList ++ py ++
      " == Py_None)\n        ".toList ++ val ++ " = NULL;\n    else\n        ".toList ++ val ++ " = ".toList ++
      py ++ "->obj;\n} else {\n    ".toList ++ val ++ " = NULL;\n}".toList)]
  | .setIf => [.write 1 ("if (".toList ++ py ++ ") { ".toList ++ val ++ " = ".toList ++ py ++ "->obj; }".toList)]
  | .incref t => [.write 1 ("if (".toList ++ py ++ ") {".toList), .write 1 t, .write 1 "}".toList]

/-- Calls made on the `after_call` block, cppclass.py:3485-3497 (`unregister` is the text of
`write_unregister_wrapper`, empty for the null registry). -/
def clearOps (py : Str) (unregister : Option Str) : List Op :=
  .write 2 ("if (".toList ++ py ++ ") {".toList) :: (unregister.toList.map (.write 2)) ++
    [.write 2 (py ++ "->obj = NULL;".toList), .write 2 "}".toList]

/-- Declare a variable, if asked for. -/
def declOpt (w : W) (d : Option (Str × Str × Option Str)) (other : Str) : PyRes (W × Str) :=
  match d with
  | none => .ok (w, other)
  | some (t, n, i) => w.declare t n i none

/-- A handler at work on the wrapper under generation.  (The default variable is declared after the
parameter is added to the parser's list, which is a different object, cppclass.py:3074-3080.) -/
def Snip.convert (s : Snip) (name : Str) (unregister : Option Str) : Gen1 := fun w => do
  let (w, py) ← declOpt w (s.py.map (fun p => (p.1, name, p.2))) "self".toList
  let (w, val) ← declOpt w (s.val.map (fun p => (p.1, name ++ p.2, none))) []
  let (w, dv) ← declOpt w (s.dfltVar.map (fun p => (p.1, name ++ "_default".toList, some p.2))) []
  let w := match s.parse with
    | none => w
    | some .any => w.addParse ⟨"O".toList, ['&' :: py], some name, s.optional⟩ false
    | some (.typed k) => w.addParse ⟨"O!".toList, ['&' :: k.pytype, '&' :: py], some name, s.optional⟩ false
  let w := { w with ops := w.ops ++ s.before.flatMap (S.ops py val) }
  let w := w.addCall (s.arg.render py val (s.dfltVar.map (fun _ => dv)))
  pure (if s.clearAfter then { w with ops := w.ops ++ clearOps py unregister } else w)

/-- `convert_python_to_c` of a class parameter. -/
def Par.convert (p : Par) (unregister : Option Str) : Gen1 := fun w => do
  let s ← p.snip (w.parse.length + 1)
  s.convert p.name unregister w

/-! ## Run time -/

/-- Result of looking up `x.__class__`. -/
inductive ClassAttr where
  | is (t : Nat)
  | raises
  deriving DecidableEq, Repr

/-- A Python object: its type, what its `__class__` attribute says, whether it is `None`, and, for
instances of wrapped classes, the C++ object its `obj` field points to. -/
structure PyVal where
  type : Nat
  cls : ClassAttr
  isNone : Bool := false
  obj : Option Nat := none
  deriving DecidableEq, Repr

/-- Types and memory layout.  Wrapped classes and Python types share the identities. -/
structure Rt where
  /-- `PyType_IsSubtype` -/
  sub : Nat → Nat → Bool
  /-- the wrapped class whose instance structure a Python type has -/
  wrapped : Nat → Option Nat
  /-- address of the part of C++ object `o` belonging to class `t` -/
  addr : Nat → Nat → Nat

/-- `PyObject_TypeCheck`. -/
def Rt.typeCheck (r : Rt) (x : PyVal) (t : Nat) : Bool := r.sub x.type t

/-- `PyObject_IsInstance` for a type without `__instancecheck__` of its own: the type of the object,
else the type its `__class__` attribute names; `-1` if that attribute raises. -/
def Rt.isInstance (r : Rt) (x : PyVal) (t : Nat) : Int :=
  if r.sub x.type t then 1
  else match x.cls with
    | .raises => -1
    | .is u => if r.sub u t then 1 else 0

/-- What the C++ function receives. -/
inductive Got where
  /-- a reference to the object at this address (or its value, for a parameter by value) -/
  | object (addr : Nat)
  /-- a value of the parameter's class made from the object of class `cls` at this address -/
  | made (cls : Nat) (addr : Nat)
  /-- a pointer -/
  | pointer (p : Option Nat)
  /-- the declared default value -/
  | dflt (s : Str)
  deriving DecidableEq, Repr

/-- How a call ends, as far as this parameter is concerned. -/
inductive Outcome where
  /-- C++ is called -/
  | called (g : Got)
  /-- `TypeError`, C++ is not called -/
  | typeError
  /-- a null pointer is dereferenced -/
  | nullDeref
  /-- memory that is not a wrapper is read or written as one -/
  | wild
  deriving DecidableEq, Repr

/-- Reading the `obj` field of the Python object in the variable. -/
def Rt.readObj (r : Rt) (x : Option PyVal) : Except Outcome (Option Nat) :=
  match x with
  | none => .error .nullDeref
  | some v =>
    match r.wrapped v.type with
    | none => .error .wild
    | some d => .ok (v.obj.map (fun o => r.addr o d))

/-- `*...->obj` -/
def Rt.derefObj (r : Rt) (x : Option PyVal) : Except Outcome Nat := do
  match ← r.readObj x with
  | none => .error .nullDeref
  | some a => pure a

/-- Value of an expression: `x` is the Python object variable, `v` the value variable. -/
def E.eval (r : Rt) (x : Option PyVal) (v : Got) : E → Except Outcome Got
  | .deref _ => do pure (.object (← r.derefObj x))
  | .derefShort => do pure (.object (← r.derefObj x))
  | .obj => do pure (.pointer (← r.readObj x))
  | .null => pure (.pointer none)
  | .val => pure v
  | .dflt s => pure (.dflt s)
  | .orDflt _ s => if x.isSome then do pure (.object (← r.derefObj x)) else pure (.dflt s)
  | .objOrNull => if x.isSome then do pure (.pointer (← r.readObj x)) else pure (.pointer none)

/-- Assigning to the value variable, which has the parameter's class, from an expression of class
`k`. -/
def E.assign (r : Rt) (x : Option PyVal) (v : Got) (e : E) : Except Outcome Got :=
  match e with
  | .deref k => do pure (.made k.id (← r.derefObj x))
  | e => e.eval r x v

def C.holds (r : Rt) (x : Option PyVal) : C → Bool
  | .isNull => x.isNone
  | .isInstance k => match x with
    | none => true
    | some v => r.isInstance v k.id ≠ 0

/-- An `if`/`else if` chain ending in the error branch. -/
def runChain (r : Rt) (x : Option PyVal) (v : Got) : List (C × E) → Except Outcome Got
  | [] => .error .typeError
  | (c, e) :: rest => if c.holds r x then e.assign r x v else runChain r x v rest

/-- One statement: the new content of the value variable. -/
def S.exec (r : Rt) (x : Option PyVal) (v : Got) : S → Except Outcome Got
  | .set e => e.assign r x v
  | .chain l _ => runChain r x v l
  | .noneOrInstance k _ =>
    match x with
    | none => .ok v
    | some y => if !y.isNone ∧ r.isInstance y k.id = 0 then .error .typeError else .ok v
  | .setNullOk =>
    match x with
    | none => .ok (.pointer none)
    | some y => if y.isNone then .ok (.pointer none) else do pure (.pointer (← r.readObj x))
  | .setIf => if x.isSome then do pure (.pointer (← r.readObj x)) else .ok v
  | .incref _ =>
    if x.isSome then do
      let _ ← r.derefObj x
      pure v
    else .ok v

def execAll (r : Rt) (x : Option PyVal) : Got → List S → Except Outcome Got
  | v, [] => .ok v
  | v, s :: rest => do execAll r x (← s.exec r x v) rest

/-- The argument parser: `O!` checks the type; an argument may only be left out if optional. -/
def Snip.parseOk (s : Snip) (r : Rt) (x : Option PyVal) : Bool :=
  match x, s.parse with
  | none, some _ => s.optional
  | some v, some (.typed k) => r.typeCheck v k.id
  | _, _ => true

/-- What happens when the wrapper is called with `x` for this parameter (`none`: left out; for a
parameter that is `self`, `x` is the instance).  The value variable of a pointer starts as a null
pointer only where the code assigns it; its initial content is `v0`. -/
def Snip.run (s : Snip) (r : Rt) (v0 : Got) (x : Option PyVal) : Outcome :=
  if s.parseOk r x then
    match (do s.arg.eval r x (← execAll r x v0 s.before) : Except Outcome Got) with
    | .error o => o
    | .ok g =>
      -- the statement after the call writes the `obj` field
      if s.clearAfter ∧ x.any (fun y => (r.wrapped y.type).isNone) then .wild else .called g
  else .typeError

/-- The same for a parameter. -/
def Par.run (p : Par) (r : Rt) (v0 : Got) (x : Option PyVal) : PyRes Outcome := do
  pure ((← p.snip 1).run r v0 x)

end Verif.Handlers
