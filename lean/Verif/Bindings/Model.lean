import Verif.Imports.Model
import Verif.Module.Types

/-!
# The names of an imported module

What the init functions of a module and its submodules put into Python namespaces: the function table
(pybindgen/module.py:724-753), classes (cppclass.py:1935-2006), their iterator types
(cppclass_container.py:133-147), containers (container.py:345-369), exceptions (cppexception.py:139-167), typedefs
(module.py:790-794, cppclass.py:2637-2644), enums (enum.py:139-177) and submodules (module.py:807-816).

Simplifications.  Classes, containers and exceptions are identified by their declarations, not by C symbols (C59).  A
type's dictionary exists once its own `PyType_Ready` has run (bases: C105).  Classes that are imported from another
module are there already (C104).  The statements of the init functions do not run out of memory.
-/
namespace Verif.Bindings
open Verif Verif.Names

deriving instance DecidableEq for ExcDecl
deriving instance DecidableEq for EnumDecl

/-! ## Declarations -/

/-- A function given to `add_function`; `ok` tells whether a wrapper could be generated for it (C22-C25). -/
structure Fn where
  custom : Option Str := none
  cName : Str
  targs : List Str := []
  ok : Bool := true
  deriving DecidableEq

/-- A class with what its type object has in its dictionary from the start (methods, attributes), and whether it was
declared as a container (`container_traits`). -/
structure Class where
  cls : Imports.Cls
  members : List Str := []
  iterable : Bool := false
  deriving DecidableEq

/-- `Container`, container.py:93-196, as far as names are concerned. -/
structure Cont where
  name : Str
  custom : Option Str := none
  outer : Option ClassDecl := none
  deriving DecidableEq

/-- `python_name`, container.py:325-332, with `mangled_name` of 250. -/
def Cont.pythonName (c : Cont) : Str :=
  match c.custom with
  | none => flatten c.name
  | some n => n

/-- What was added to one module. -/
structure Own where
  name : Str
  /-- the prefix of `set_strip_prefix`, module.py:259 -/
  strip : Str
  fns : List Fn := []
  classes : List Class := []
  conts : List Cont := []
  excs : List ExcDecl := []
  typedefs : List (ClassDecl × Str) := []
  enums : List EnumDecl := []

/-- A module with its submodules. -/
inductive Mod where
  | mk (own : Own) (subs : List Mod)

def Mod.own : Mod → Own | .mk o _ => o
def Mod.subs : Mod → List Mod | .mk _ s => s

/-! ## Namespaces -/

/-- A namespace: the module object at a path, or the dictionary of a class's type object. -/
inductive Scope where
  | module (path : List Str)
  | dict (c : ClassDecl)
  deriving DecidableEq

/-- What a name may stand for. -/
inductive Thing where
  /-- a built-in function calling one of these -/
  | function (fs : List Fn)
  | type (c : ClassDecl)
  | iterator (c : ClassDecl)
  | container (c : Cont)
  | containerIter (c : Cont)
  | exception (e : ExcDecl)
  | int (v : Int)
  | module (path : List Str)
  /-- a `PyCObject` around a variable -/
  | pointer (var : Str)
  /-- a method or attribute -/
  | member (c : ClassDecl) (name : Str)
  deriving DecidableEq

/-- A statement of an init function. -/
inductive Act where
  /-- `m = PyModule_Create(&moduledef)` (Python 3) or `Py_InitModule3(name, functions, doc)`, module.py:710-719 -/
  | create (path : List Str) (table : List (Str × Thing))
  /-- `PyType_Ready` -/
  | ready (c : ClassDecl) (members : List Str)
  | bind (s : Scope) (name : Str) (t : Thing)
  deriving DecidableEq

/-- Where a type with this outer class goes. -/
def place (path : List Str) : Option ClassDecl → Scope
  | none => .module path
  | some o => .dict o

def outerOf : ClassDecl → Option ClassDecl
  | .top _ _ _ _ => none
  | .nested o _ _ => some o

/-! ## Generation -/

/-- `module.functions`, module.py:375-388. -/
def Own.functions (o : Own) : List (Str × List Fn) :=
  (o.fns.map fun f => (Module.pyFunctionName o.strip f.custom f.cName f.targs, f)).foldl
    (fun fs p => Module.addOverload fs p.1 p.2) []

/-- The function table, module.py:724-751: overload sets of which nothing could be generated are left out. -/
def Own.table (o : Own) : List (Str × Thing) :=
  o.functions.filterMap fun p =>
    if p.2.filter (·.ok) = [] then none else some (p.1, .function (p.2.filter (·.ok)))

/-- `CppClass.generate`, cppclass.py:1935-2006 and 2035-2036, with cppclass_container.py:133-147: in the case of an
inner class the attribute `get_iter_python_name` is looked for in the wrong object (147). -/
def classActs (s : Imports.Settings) (path : List Str) (c : Class) : PyRes (List Act) :=
  if c.cls.imported then .ok []
  else if c.iterable ∧ outerOf c.cls.decl ≠ none then .error .attributeError
  else .ok (
    (if c.cls.narrow = .self then
      [.bind (.module path) (Imports.hidden (Imports.typeMapName s c.cls.decl)) (.pointer (Imports.typeMapName s c.cls.decl))]
     else [])
    ++ (if c.cls.bases = [] ∧ s.stdMap = true then
      [.bind (.module path) (Imports.hidden (Imports.registryName s c.cls.decl)) (.pointer (Imports.registryName s c.cls.decl))]
     else [])
    ++ [.ready c.cls.decl c.members, .bind (place path (outerOf c.cls.decl)) c.cls.pythonName (.type c.cls.decl)]
    ++ (if c.iterable then [.bind (.module path) (c.cls.pythonName ++ "Iter".toList) (.iterator c.cls.decl)] else []))

/-- `Container.generate`, container.py:345-369. -/
def contActs (path : List Str) (c : Cont) : List Act :=
  [.bind (place path c.outer) c.pythonName (.container c),
   .bind (place path c.outer) (c.pythonName ++ "Iter".toList) (.containerIter c)]

/-- `CppException.generate`, cppexception.py:139-167. -/
def excActs (path : List Str) (e : ExcDecl) : List Act :=
  if e.isStandard then [] else [.bind (place path e.outer) e.pythonName (.exception e)]

/-- Conversion to `long` (64 bits), as in the call of `PyModule_AddIntConstant` or `PyLong_FromLong`. -/
def asLong (v : Int) : Int := (v + 2 ^ 63) % 2 ^ 64 - 2 ^ 63

/-- The statement for one constant, enum.py:150-175. -/
def constAct (val : Str → Int) (path : List Str) : ConstStmt → Act
  | .onModule n x => .bind (.module path) n (.int (asLong (val x)))
  | .onClass c n x => .bind (.dict c) n (.int (asLong (val x)))

/-- `Enum.generate`, enum.py:139-177; `val` gives the values of C++ constant expressions. -/
def enumActs (val : Str → Int) (path : List Str) (e : EnumDecl) : List Act :=
  e.generate.map (constAct val path)

/-- The classes of a module, imported ones first, module.py:755-768. -/
def Own.ordered (o : Own) : List Class := o.classes.filter (·.cls.imported) ++ o.classes.filter (!·.cls.imported)

/-- All of a list, or the first error. -/
def allActs {α : Type} (f : α → PyRes (List Act)) : List α → PyRes (List Act)
  | [] => .ok []
  | x :: l =>
    match f x with
    | .error e => .error e
    | .ok a =>
      match allActs f l with
      | .error e => .error e
      | .ok b => .ok (a ++ b)

/-- The init function of one module up to the submodules, module.py:677-805. -/
def ownActs (s : Imports.Settings) (val : Str → Int) (path : List Str) (o : Own) : PyRes (List Act) :=
  match allActs (classActs s path) o.ordered with
  | .error e => .error e
  | .ok cs => .ok (
    .create path o.table :: (cs
    ++ o.conts.flatMap (contActs path)
    ++ o.excs.flatMap (excActs path)
    ++ o.typedefs.map (fun t => .bind (.module path) t.2 (.type t.1))
    ++ o.enums.flatMap (enumActs val path)))

mutual
/-- The statements that run when the module at `path` is imported, module.py:677-875: its own, and those of the init
function of each submodule before the submodule is added. -/
def Mod.acts (s : Imports.Settings) (val : Str → Int) (path : List Str) : Mod → PyRes (List Act)
  | .mk o subs =>
    match ownActs s val path o with
    | .error e => .error e
    | .ok a =>
      match subActs s val path subs with
      | .error e => .error e
      | .ok b => .ok (a ++ b)
def subActs (s : Imports.Settings) (val : Str → Int) (path : List Str) : List Mod → PyRes (List Act)
  | [] => .ok []
  | .mk o ss :: l =>
    match (Mod.mk o ss).acts s val (path ++ [o.name]) with
    | .error e => .error e
    | .ok a =>
      match subActs s val path l with
      | .error e => .error e
      | .ok b => .ok (a ++ .bind (.module path) o.name (.module (path ++ [o.name])) :: b)
end

/-! ## Running the init functions -/

structure World where
  env : Scope → Str → Option Thing
  ready : ClassDecl → Bool
  /-- `sys.modules` -/
  sys : List Str

def World.set (w : World) (s : Scope) (n : Str) (t : Thing) : World :=
  { w with env := fun s' n' => if s' = s ∧ n' = n then some t else w.env s' n' }

def World.setAll (w : World) (s : Scope) (l : List (Str × Thing)) : World := l.foldl (fun w p => w.set s p.1 p.2) w

/-- One statement; `none` is a crash: `PyDict_SetItemString` on the dictionary of a type that is not ready.  Python 2's
`Py_InitModule3` enters the module in `sys.modules`, Python 3's `PyModule_Create` does not. -/
def step (py2 : Bool) (w : World) : Act → Option World
  | .create path table =>
    some ({ w with sys := if py2 then pyJoin ".".toList path :: w.sys else w.sys }.setAll (.module path) table)
  | .ready c members =>
    if w.ready c then some w
    else some ({ w with ready := fun d => if d = c then true else w.ready d }.setAll (.dict c) (members.map fun n => (n, .member c n)))
  | .bind (.dict c) n t => if w.ready c then some (w.set (.dict c) n t) else none
  | .bind (.module p) n t => some (w.set (.module p) n t)

def run (py2 : Bool) : World → List Act → Option World
  | w, [] => some w
  | w, a :: l =>
    match step py2 w a with
    | none => none
    | some w' => run py2 w' l

/-- `import name`: the init function runs, and the module is entered in `sys.modules` (by Python 3's import machinery,
once the init function has returned). -/
def importModule (py2 : Bool) (w : World) (m : Mod) (acts : List Act) : Option World :=
  (run py2 w acts).map fun w' => { w' with sys := if m.own.name ∈ w'.sys then w'.sys else m.own.name :: w'.sys }

/-- `import a.b`, when `a` is imported and is an extension module, which has no `__path__`: the module is found only in
`sys.modules`. -/
def importable (w : World) (path : List Str) : Prop := pyJoin ".".toList path ∈ w.sys

/-! ## Specification -/

/-- The Python name of a function: the one asked for, or the C name without the module's prefix. -/
def Own.fnName (o : Own) (f : Fn) : Str := Module.pyFunctionName o.strip f.custom f.cName f.targs

/-- What was declared: in namespace `s` the name `n` is to stand for `t`. -/
inductive Declares (val : Str → Int) : List Str → Mod → Scope → Str → Thing → Prop where
  | function {path : List Str} {m : Mod} {f : Fn} (h : f ∈ m.own.fns) (hk : f.ok = true) :
    Declares val path m (.module path) (m.own.fnName f)
      (.function (m.own.fns.filter fun g => m.own.fnName g = m.own.fnName f ∧ g.ok = true))
  | class {path : List Str} {m : Mod} {c : Class} (h : c ∈ m.own.classes) (hi : c.cls.imported = false) :
    Declares val path m (place path (outerOf c.cls.decl)) c.cls.pythonName (.type c.cls.decl)
  | container {path : List Str} {m : Mod} {c : Cont} (h : c ∈ m.own.conts) :
    Declares val path m (place path c.outer) c.pythonName (.container c)
  | exception {path : List Str} {m : Mod} {e : ExcDecl} (h : e ∈ m.own.excs) (hs : e.isStandard = false) :
    Declares val path m (place path e.outer) e.pythonName (.exception e)
  | typedef {path : List Str} {m : Mod} {c : ClassDecl} {n : Str} (h : (c, n) ∈ m.own.typedefs) :
    Declares val path m (.module path) n (.type c)
  | enum {path : List Str} {m : Mod} {e : EnumDecl} {v : EnumVal} (h : e ∈ m.own.enums) (hi : e.imported = false)
    (hv : v ∈ e.values) : Declares val path m (place path e.outer) v.name (.int (val (e.expected v)))
  | submodule {path : List Str} {m k : Mod} (h : k ∈ m.subs) :
    Declares val path m (.module path) k.own.name (.module (path ++ [k.own.name]))
  | inside {path : List Str} {m k : Mod} {s : Scope} {n : Str} {t : Thing} (h : k ∈ m.subs)
    (hd : Declares val (path ++ [k.own.name]) k s n t) : Declares val path m s n t

/-- Names that come with a declaration: methods and attributes of a class, types of iterators, and pointers to type
maps and wrapper registries, whose names begin with `_Py`. -/
inductive Implied (cfg : Imports.Settings) : List Str → Mod → Scope → Str → Thing → Prop where
  | member {path : List Str} {m : Mod} {c : Class} {n : Str} (h : c ∈ m.own.classes) (hi : c.cls.imported = false)
    (hn : n ∈ c.members) : Implied cfg path m (.dict c.cls.decl) n (.member c.cls.decl n)
  | iterator {path : List Str} {m : Mod} {c : Class} (h : c ∈ m.own.classes) (hi : c.cls.imported = false)
    (ht : c.iterable = true) : Implied cfg path m (.module path) (c.cls.pythonName ++ "Iter".toList) (.iterator c.cls.decl)
  | containerIter {path : List Str} {m : Mod} {c : Cont} (h : c ∈ m.own.conts) :
    Implied cfg path m (place path c.outer) (c.pythonName ++ "Iter".toList) (.containerIter c)
  | typeMap {path : List Str} {m : Mod} {c : Class} (h : c ∈ m.own.classes) (hi : c.cls.imported = false)
    (hn : c.cls.narrow = .self) :
    Implied cfg path m (.module path) ('_' :: Imports.typeMapName cfg c.cls.decl) (.pointer (Imports.typeMapName cfg c.cls.decl))
  | registry {path : List Str} {m : Mod} {c : Class} (h : c ∈ m.own.classes) (hi : c.cls.imported = false)
    (hb : c.cls.bases = []) (hs : cfg.stdMap = true) :
    Implied cfg path m (.module path) ('_' :: Imports.registryName cfg c.cls.decl) (.pointer (Imports.registryName cfg c.cls.decl))
  | inside {path : List Str} {m k : Mod} {s : Scope} {n : Str} {t : Thing} (h : k ∈ m.subs)
    (hd : Implied cfg (path ++ [k.own.name]) k s n t) : Implied cfg path m s n t

/-- A module of the tree. -/
inductive Mod.Has : Mod → Mod → Prop where
  | self {m : Mod} : Mod.Has m m
  | sub {m k x : Mod} (h : k ∈ m.subs) (hx : Mod.Has k x) : Mod.Has m x

/-- Nothing asked for twice: a name of a namespace stands for one thing. -/
def Unambiguous (cfg : Imports.Settings) (val : Str → Int) (path : List Str) (m : Mod) : Prop :=
  ∀ s n t t', Declares val path m s n t ∨ Implied cfg path m s n t →
    Declares val path m s n t' ∨ Implied cfg path m s n t' → t = t'

/-- The classes the module defines are new, and no two declarations of one class list different members. -/
def ClassesNew (w : World) (m : Mod) : Prop :=
  ∀ k, m.Has k → ∀ c ∈ k.own.classes, c.cls.imported = false → w.ready c.cls.decl = false ∧
    ∀ k', m.Has k' → ∀ c' ∈ k'.own.classes, c'.cls.imported = false → c'.cls.decl = c.cls.decl → c'.members = c.members

/-- Enums as far as C58 goes: plain namespaces, and no value prefix inside classes; constants fit in a `long`. -/
def EnumsOk (val : Str → Int) (m : Mod) : Prop :=
  (∀ x, -2 ^ 63 ≤ val x ∧ val x < 2 ^ 63) ∧
  ∀ k, m.Has k → ∀ e ∈ k.own.enums, PathOk e.path ∧ ∀ c, e.outer = some c → c.Ok ∧ e.valuesPrefix = []

end Verif.Bindings
