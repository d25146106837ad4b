import Verif.Utils.Model

/-!
# C126: functions added to a class as methods

`CppClass.add_function_as_method`, cppclass.py:1575-1586, `_add_method_obj`, 1429-1515, the wrapper of
such a function, function.py:32-128, 169-303, its entry in the method table, cppclass.py:2395-2409, and
the copies made for a class with several bases, cppclass.py:2370-2373.

Simplifications: classes are numbers; a parameter accepts or rejects a Python object according to its
C++ type only (defaults, keyword arguments and implicit conversions are in C25, C80); return values, exceptions
and custodians are in C42, C46, C95; an error handler that skips failing wrappers is not installed.
-/
namespace Verif.FnMethods
open Verif

/-- How a parameter of a wrapped class is declared: `C`, `C &` or `C const &`, `C *`, or a reference with
direction out or inout. -/
inductive Form | value | reference | pointer | inout
deriving DecidableEq, Repr

/-- A parameter handler; `cls` is present iff it is a `CppClassParameterBase`, `fromSelf` is
`take_value_from_python_self`, cppclass.py:2917. -/
structure Param where
  ctype : Str
  cls : Option (Nat × Form) := none
  fromSelf : Bool := false
deriving DecidableEq, Repr

/-- The `Function` object, function.py:76-98; `ns` is `foreign_cpp_namespace` (empty: none), `selfStruct` is
`self_parameter_pystruct`, `base` is `wrapper_base_name`, set with the module. -/
structure Fn where
  name : Str
  targs : List Str
  mangled : Str
  params : List Param
  ns : Str
  modNs : Str := []
  base : Option Str := none
  selfStruct : Option Str := none
deriving DecidableEq, Repr

/-- The arguments of `add_function_as_method`. -/
structure Decl where
  name : Str
  targs : List Str := []
  customName : Option Str := none
  ns : Str := []
  params : List Param
deriving DecidableEq, Repr

/-- `Function(...)`, with the setter of `custom_name`, function.py:105-109. -/
def Decl.make (d : Decl) : Fn :=
  let m := match d.customName with | none => Utils.getMangledName d.name d.targs | some n => n
  { name := d.name, targs := d.targs, mangled := m, params := d.params, ns := d.ns }

/-- The getter of `custom_name`, function.py:99-103. -/
def Fn.customName (f : Fn) : Option Str :=
  if f.mangled ≠ Utils.getMangledName f.name f.targs then some f.mangled else none

/-- A C++ method of the class, as far as it matters here: which one it is, its Python name, the C name of its
wrapper (cppmethod.py:233) and its parameters. -/
structure Method where
  label : Nat
  name : Str
  base : Str
  params : List Param
deriving DecidableEq, Repr

inductive Entry | method (m : Method) | function (f : Fn)
deriving DecidableEq, Repr

/-- What is said about the class: a public method or a function. -/
inductive Item | method (m : Method) | function (d : Decl)
deriving DecidableEq, Repr

/-- The module: the prefix of its C names, and its C++ namespace (empty: none). -/
structure Module where
  pre : Str
  ns : Str := []
deriving DecidableEq, Repr

/-- The class: which one, and its object struct. -/
structure Cls where
  id : Nat
  pystruct : Str
deriving DecidableEq, Repr

inductive Err | index | assertion | attribute
deriving DecidableEq, Repr

/-- `"_wrap_%s_%s"`, function.py:175-176. -/
def symbol (pre mangled : Str) : Str := "_wrap_".toList ++ pre ++ "_".toList ++ mangled

/-- The branch for functions, cppclass.py:1437-1447: the checks, and the object as it is afterwards. -/
def adopt (M : Module) (c : Cls) (f : Fn) : Except Err Fn :=
  match f.params with
  | [] => .error .index
  | p :: ps =>
    match p.cls with
    | none => .error .assertion
    | some (k, _) =>
      if k ≠ c.id then .error .assertion
      else
        .ok { f with params := { p with fromSelf := true } :: ps, base := some (symbol M.pre f.mangled), modNs := M.ns,
                     selfStruct := some c.pystruct }

/-- `self.methods`: the key of a function is its `custom_name`, which may be `None`. -/
abbrev Table := List (Option Str × List Entry)

/-- `self.methods[name]`, created when missing, and `overload.add`, cppclass.py:1464-1474. -/
def enter (k : Option Str) (e : Entry) : Table → Table
  | [] => [(k, [e])]
  | (k', es) :: r => if k' = k then (k', es ++ [e]) :: r else (k', es) :: enter k e r

/-- `_add_method_obj`, cppclass.py:1429-1474. -/
def addItem (M : Module) (c : Cls) (t : Table) : Item → Except Err Table
  | .method m => .ok (enter (some m.name) (.method m) t)
  | .function d =>
    match adopt M c d.make with
    | .error e => .error e
    | .ok f => .ok (enter d.make.customName (.function f) t)

def addAll (M : Module) (c : Cls) : Table → List Item → Except Err Table
  | t, [] => .ok t
  | t, i :: is =>
    match addItem M c t i with
    | .error e => .error e
    | .ok t' => addAll M c t' is

/-! ## The generated code -/

/-- An argument of the C++ call. -/
inductive Arg
  /-- `self->obj` or `((S *) self)->obj`, with `*` in front or not -/
  | object (struct : Str) (deref : Bool)
  /-- the next argument parsed from the Python call -/
  | parsed (ctype : Str)
deriving DecidableEq, Repr

/-- What a wrapper calls: a method of the object, or the C++ function written so. -/
inductive Target | method (label : Nat) | function (text : Str)
deriving DecidableEq, Repr

/-- A wrapper: the struct its first parameter points to when that is called `self`; `none` when it is
`PyObject * PYBINDGEN_UNUSED(dummy)`, function.py:255-258. -/
structure Wrapper where
  self : Option Str
  target : Target
  args : List Arg
deriving DecidableEq, Repr

/-- `convert_python_to_c` of class parameters, cppclass.py:2944-2965, 3062-3066, 3127-3164, 3443-3480; the struct
named by a cast is that of the parameter's class, `self->obj` uses that of the wrapper's own parameter. -/
def convert (structOf : Nat → Str) (self : Option Str) (p : Param) : Except Err Arg :=
  match p.cls with
  | none => .ok (.parsed p.ctype)
  | some (k, .value) | some (k, .reference) =>
    if p.fromSelf then .ok (.object (structOf k) true) else .ok (.parsed p.ctype)
  | some (_, .pointer) => if p.fromSelf then .ok (.object (self.getD []) false) else .ok (.parsed p.ctype)
  | some (_, .inout) => if p.fromSelf then .error .assertion else .ok (.parsed p.ctype)

def convertAll (structOf : Nat → Str) (self : Option Str) : List Param → Except Err (List Arg)
  | [] => .ok []
  | p :: ps =>
    match convert structOf self p with
    | .error e => .error e
    | .ok a =>
      match convertAll structOf self ps with
      | .error e => .error e
      | .ok as => .ok (a :: as)

/-- The function called, function.py:181-191, 199: namespace, name, template arguments. -/
def Fn.callee (f : Fn) : Str :=
  (if f.ns ≠ [] then f.ns ++ "::".toList else if f.modNs ≠ [] then f.modNs ++ "::".toList else []) ++ f.name ++
  (if f.targs = [] then [] else "< ".toList ++ pyJoin ", ".toList f.targs ++ " >".toList)

/-- The name a wrapper goes by. -/
def Entry.base : Entry → Str
  | .method m => m.base
  | .function f => f.base.getD []

/-- The wrapper of an entry of class `c`. -/
def Entry.wrapper (structOf : Nat → Str) (c : Cls) : Entry → Except Err Wrapper
  | .method m =>
    match convertAll structOf (some c.pystruct) m.params with
    | .error e => .error e
    | .ok as => .ok { self := some c.pystruct, target := .method m.label, args := as }
  | .function f =>
    match convertAll structOf f.selfStruct f.params with
    | .error e => .error e
    | .ok as => .ok { self := f.selfStruct, target := .function f.callee, args := as }

def wrappers (structOf : Nat → Str) (c : Cls) : List Entry → Except Err (List Wrapper)
  | [] => .ok []
  | e :: es =>
    match e.wrapper structOf c with
    | .error x => .error x
    | .ok w =>
      match wrappers structOf c es with
      | .error x => .error x
      | .ok ws => .ok (w :: ws)

/-- A C function of the output: its name, and the wrappers it tries in order (one, unless it is the common
entry of an overloaded name, overloading.py:200-248). -/
structure CFun where
  name : Str
  tries : List Wrapper
deriving DecidableEq, Repr

/-- The delegates `name__0`, `name__1`, ..., overloading.py:167-193. -/
def delegates (base : Str) : Nat → List Wrapper → List CFun
  | _, [] => []
  | i, w :: ws => { name := base ++ "__".toList ++ (toString i).toList, tries := [w] } :: delegates base (i + 1) ws

/-- `OverloadedWrapper.generate`, overloading.py:139-250. -/
def overload (base : Str) : List Wrapper → List CFun
  | [w] => [{ name := base, tries := [w] }]
  | ws => delegates base 0 ws ++ [{ name := base, tries := ws }]

/-- Methods that go to type slots instead of the table, cppclass.py:2406: `__call__` and the sequence methods. -/
def special (k : Option Str) : Bool :=
  match k with
  | none => false
  | some n => n ∈ ["__call__", "__len__", "__add__", "__mul__", "__getitem__", "__getslice__", "__setitem__", "__setslice__",
      "__contains__", "__iadd__", "__imul__"].map String.toList

/-- A row of the method table: the Python name and the C function. -/
structure Row where
  name : Str
  cname : Str
deriving DecidableEq, Repr

/-- The text of the key: `"%s" % name`. -/
def keyText : Option Str → Str
  | none => "None".toList
  | some n => n

/-- The code of a class: its C functions and its method table. -/
structure Code where
  funs : List CFun := []
  rows : List Row := []
deriving DecidableEq, Repr

/-- `_generate_methods`, cppclass.py:2395-2408. -/
def generate (structOf : Nat → Str) (c : Cls) : Table → Except Err Code
  | [] => .ok {}
  | (k, es) :: t =>
    match wrappers structOf c es with
    | .error e => .error e
    | .ok ws =>
      match generate structOf c t with
      | .error e => .error e
      | .ok r =>
        let base := (es.head?.map Entry.base).getD []
        .ok { funs := overload base ws ++ r.funs
              rows := (if special k then [] else [{ name := keyText k, cname := base }]) ++ r.rows }

/-! ## Calling a method from Python -/

/-- A wrapper that uses `self` compiles only if its parameter is called so. -/
def Wrapper.compiles (w : Wrapper) : Bool :=
  w.self.isSome || w.args.all (fun a => match a with | .object _ _ => false | .parsed _ => true)

/-- What the C++ callee receives. -/
inductive Val (O A : Type)
  /-- the C++ object of the Python object `o`, of the class with this struct: itself, or its address -/
  | object (o : O) (struct : Str) (deref : Bool)
  | arg (a : A)
deriving DecidableEq, Repr

/-- The parsing of the Python arguments and the resulting C++ arguments; `none` if the call does not fit. -/
def bind {O A : Type} (accepts : Str → A → Bool) (o : O) : List Arg → List A → Option (List (Val O A))
  | [], [] => some []
  | [], _ :: _ => none
  | .object s d :: r, as => (bind accepts o r as).map (.object o s d :: ·)
  | .parsed _ :: _, [] => none
  | .parsed t :: r, a :: as => if accepts t a then (bind accepts o r as).map (.arg a :: ·) else none

/-- What a call from Python does. -/
inductive Outcome (O A : Type)
  | calls (t : Target) (args : List (Val O A))
  | typeError
  /-- there is no attribute of that name -/
  | attributeError
deriving DecidableEq, Repr

/-- The wrappers in turn, overloading.py:215-232. -/
def tryAll {O A : Type} (accepts : Str → A → Bool) (o : O) (as : List A) : List Wrapper → Outcome O A
  | [] => .typeError
  | w :: ws =>
    match bind accepts o w.args as with
    | some vs => .calls w.target vs
    | none => tryAll accepts o as ws

/-- The C++ compiler on a table row: `(PyCFunction) name` must name exactly one function of the output. -/
def link (funs : List CFun) (name : Str) : Option CFun :=
  match funs.filter (fun g => g.name = name) with
  | [g] => some g
  | _ => none

/-- The output compiles: every row names one function, and the wrappers use declared variables only. -/
def compiles (funs : List CFun) (rows : List Row) : Bool :=
  funs.all (fun g => g.tries.all Wrapper.compiles) && rows.all (fun r => (link funs r.cname).isSome)

/-- `o.name(*as)` where `o` is an instance of the class with these rows. -/
def call {O A : Type} (accepts : Str → A → Bool) (funs : List CFun) (rows : List Row) (name : Str) (o : O) (as : List A) :
    Outcome O A :=
  match rows.find? (fun r => r.name = name) with
  | none => .attributeError
  | some r =>
    match link funs r.cname with
    | none => .attributeError
    | some g => tryAll accepts o as g.tries

/-- The same for an instance of a derived class: Python looks the name up along the classes' tables. -/
def callAlong {O A : Type} (accepts : Str → A → Bool) (funs : List CFun) (tables : List (List Row)) (name : Str) (o : O)
    (as : List A) : Outcome O A :=
  match tables with
  | [] => .attributeError
  | rows :: r => if rows.any (fun x => x.name = name) then call accepts funs rows name o as else callAlong accepts funs r name o as

/-- `Function.clone`, function.py:112-128: what the copy for a class with several bases is made of. -/
def Fn.clone (f : Fn) : Fn :=
  let d : Decl := { name := f.name, customName := f.customName, params := f.params }
  { d.make with base := f.base, modNs := f.modNs }

end Verif.FnMethods
