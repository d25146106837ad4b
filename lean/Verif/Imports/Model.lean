import Verif.Names.Props

/-!
# Classes imported from other extension modules

What the init functions of generated extension modules do with type objects, type maps and wrapper
registries: cppclass.py:1845-1850 (declarations), 1888-1932 (`_generate_import_from_module`),
1935-2006 (`generate`), 2637-2644 (`generate_typedef`); wrapper_registry.py:73-101; module.py:754-820.

The interpreter's side is a state in which several extension modules are loaded one after the other.
Reference counts, methods, attributes, metaclasses, containers, exceptions and enums are left out.
`Py_InitModule3`/`PyModule_Create` are taken not to fail.
-/
namespace Verif.Imports
open Verif Verif.Names

/-! ## Declarations -/

/-- A class referred to from another class of the same extension: its name, and whether it was
declared with `import_from_module`. -/
structure Ref where
  decl : ClassDecl
  imported : Bool := false
  deriving DecidableEq

/-- The result of `get_type_narrowing_root()`, cppclass.py:1296-1306: none without
`automatic_type_narrowing`, the class itself, or an ancestor. -/
inductive Narrow where
  | off
  | self
  | ancestor (r : Ref)
  deriving DecidableEq

/-- A `CppClass`, as far as its type object is concerned.  `source` is `import_from_module` (empty: not
imported); `outerImported` tells whether the enclosing class (if `decl` is nested) is imported. -/
structure Cls where
  decl : ClassDecl
  customName : Option Str := none
  source : Str := []
  bases : List Ref := []
  narrow : Narrow := .off
  outerImported : Bool := false
  deriving DecidableEq

/-- `settings.name_prefix.capitalize()`, and whether `settings.wrapper_registry` is
`StdMapWrapperRegistry` (otherwise `NullWrapperRegistry`). -/
structure Settings where
  pre : Str := []
  stdMap : Bool := false

/-- A module or submodule. -/
inductive Mod where
  | mk (name : Str) (classes : List Cls) (typedefs : List (Ref × Str)) (subs : List Mod)

def Mod.name : Mod → Str | .mk n _ _ _ => n
def Mod.classes : Mod → List Cls | .mk _ c _ _ => c
def Mod.typedefs : Mod → List (Ref × Str) | .mk _ _ t _ => t
def Mod.subs : Mod → List Mod | .mk _ _ _ s => s

/-- `mangled_name`, cppclass.py:1192, 1198. -/
def mangledName (d : ClassDecl) : Str := flatten d.name ++ mangledTemplate d.targs

/-- `get_python_name`, cppclass.py:1875-1886. -/
def Cls.pythonName (c : Cls) : Str :=
  if c.decl.targs ≠ [] then
    match c.customName with
    | none => mangledName c.decl
    | some n => n
  else
    match c.customName with
    | none => c.decl.name
    | some n => n

/-- `typeid_map_name` of a narrowing root, cppclass.py:1211. -/
def typeMapName (s : Settings) (d : ClassDecl) : Str := d.pystruct s.pre ++ "__typeid_map".toList

/-- `map_name`, wrapper_registry.py:71, of a class without bases (cppclass.py:1801-1810). -/
def registryName (s : Settings) (d : ClassDecl) : Str := d.pystruct s.pre ++ "_wrapper_registry".toList

def hidden (n : Str) : Str := '_' :: n

/-! ## Generated statements -/

/-- An lvalue of the generated code: a global variable, or, for an imported class, the macro
`#define X (*_X)` (cppclass.py:1847, 1422-1423; wrapper_registry.py:79-80). -/
structure Lv where
  sym : Str
  indirect : Bool
  deriving DecidableEq

def typeLv (s : Settings) (r : Ref) : Lv := ⟨r.decl.pytypestruct s.pre, r.imported⟩

/-- The statements inside the braces of one class import. -/
inductive BStmt where
  /-- `PyObject *module = PyImport_ImportModule(name); if (module == NULL) return …;`, 1902-1906 -/
  | importModule (name : Str)
  /-- `var = (PyTypeObject*) PyObject_GetAttrString(module, attr);` then clear any error, 1908-1910 -/
  | getType (var attr : Str)
  /-- `PyObject *_cobj = PyObject_GetAttrString(module, attr); if (_cobj == NULL) { var = new TypeMap; …`,
  1915-1924 -/
  | getMap (var attr : Str)
  /-- the same for the registry, with `var = NULL`, wrapper_registry.py:91-101 -/
  | getRegistry (var attr : Str)
  deriving DecidableEq

/-- The local variables a statement declares. -/
def BStmt.locals : BStmt → List Str
  | .importModule _ => ["module".toList]
  | .getType _ _ => []
  | .getMap _ _ => ["_cobj".toList]
  | .getRegistry _ _ => ["_cobj".toList]

inductive Stmt where
  /-- `{ … }`, 1901, 1929 -/
  | block (b : List BStmt)
  /-- `PyModule_AddObject(m, name, (PyObject *) &x)`, 2000-2002 and 2642-2644 -/
  | addType (path : List Str) (name : Str) (x : Lv)
  /-- `PyModule_AddObject(m, name, PyCObject_FromVoidPtr(&x, NULL))`, 1944, wrapper_registry.py:87 -/
  | addPointer (path : List Str) (name : Str) (x : Lv)
  /-- `PyDict_SetItemString(outer.tp_dict, name, &x)`, 2004-2006 -/
  | setDict (outer : Lv) (name : Str) (x : Lv)
  /-- `map.register_wrapper(typeid(cpp), &x)`, 1311 -/
  | register (map : Lv) (cpp : Str) (x : Lv)
  /-- `x.tp_base = &b`, 1981 -/
  | setBase (x b : Lv)
  /-- `x.tp_bases = …` with its items, 1984-1988 -/
  | setBases (x : Lv) (bs : List Lv)
  /-- `PyType_Ready(&x)` with the check of its result, 1994 -/
  | ready (x : Lv)
  /-- `submodule = init(); … PyModule_AddObject(m, name, submodule)`, module.py:811-816, after the
  statements of the submodule's own init function -/
  | addModule (path : List Str) (name : Str)
  deriving DecidableEq

/-- The separator looked for in `import_from_module`, cppclass.py:1895-1896. -/
def named : Str := " named ".toList

/-- `' named ' in s`, and the part before its first occurrence (`str.split` with exactly two parts; a
string with two occurrences raises `ValueError`, which is not modelled). -/
def beforeNamed : Str → Option Str
  | [] => none
  | c :: s => if named.isPrefixOf (c :: s) then some [] else (beforeNamed s).map (c :: ·)

/-- `module_name`, cppclass.py:1895-1898.  The `type_name` computed there is not used. -/
def moduleName (source : Str) : Str := (beforeNamed source).getD source

/-- `_generate_import_from_module`, cppclass.py:1888-1932: the block in the init function. -/
def importBlock (s : Settings) (c : Cls) : List BStmt :=
  [.importModule (moduleName c.source),
   .getType (hidden (c.decl.pytypestruct s.pre)) c.pythonName]
  ++ (if c.narrow = .self then
        [.getMap (hidden (typeMapName s c.decl)) (hidden (typeMapName s c.decl))] else [])
  ++ (if c.bases = [] ∧ s.stdMap = true then
        [.getRegistry (hidden (registryName s c.decl)) (hidden (registryName s c.decl))] else [])

/-- `_register_typeid`, cppclass.py:1308-1312, called at 1947-1948. -/
def registerStmts (s : Settings) (c : Cls) : List Stmt :=
  match c.narrow with
  | .off => []
  | .self => [.register ⟨typeMapName s c.decl, false⟩ c.decl.fullName (typeLv s ⟨c.decl, false⟩)]
  | .ancestor r =>
    [.register ⟨typeMapName s r.decl, r.imported⟩ c.decl.fullName (typeLv s ⟨c.decl, false⟩)]

/-- `tp_base` and `tp_bases`, cppclass.py:1979-1988. -/
def baseStmts (s : Settings) (c : Cls) : List Stmt :=
  match c.bases with
  | [] => []
  | [b] => [.setBase (typeLv s ⟨c.decl, false⟩) (typeLv s b)]
  | b :: bs =>
    [.setBase (typeLv s ⟨c.decl, false⟩) (typeLv s b),
     .setBases (typeLv s ⟨c.decl, false⟩) ((b :: bs).map (typeLv s))]

/-- Where the type is entered, cppclass.py:1999-2006. -/
def placeStmts (s : Settings) (path : List Str) (c : Cls) : List Stmt :=
  match c.decl with
  | .top _ _ _ _ => [.addType path c.pythonName (typeLv s ⟨c.decl, false⟩)]
  | .nested outer _ _ =>
    [.setDict (typeLv s ⟨outer, c.outerImported⟩) c.pythonName (typeLv s ⟨c.decl, false⟩)]

/-- The statements `CppClass.generate` writes to the init function of the module at `path`,
cppclass.py:1935-2006, for a class that is not imported. -/
def ownStmts (s : Settings) (path : List Str) (c : Cls) : List Stmt :=
  (if c.narrow = .self then
    [.addPointer path (hidden (typeMapName s c.decl)) ⟨typeMapName s c.decl, false⟩] else [])
  ++ registerStmts s c
  ++ (if c.bases = [] ∧ s.stdMap = true then
        [.addPointer path (hidden (registryName s c.decl)) ⟨registryName s c.decl, false⟩] else [])
  ++ baseStmts s c
  ++ [.ready (typeLv s ⟨c.decl, false⟩)]
  ++ placeStmts s path c

def Cls.imported (c : Cls) : Bool := decide (c.source ≠ [])

mutual
/-- The body of the init function of a module at `path`, with those of its submodules at the points
where they are called: imported classes, own classes, typedefs, submodules (module.py:754-816). -/
def stmts (s : Settings) (path : List Str) : Mod → List Stmt
  | .mk _ classes typedefs subs =>
    (classes.filter (·.imported)).map (fun c => .block (importBlock s c))
    ++ (classes.filter (!·.imported)).flatMap (ownStmts s path)
    ++ typedefs.map (fun t => .addType path t.2 (typeLv s t.1))
    ++ subStmts s path subs
def subStmts (s : Settings) (path : List Str) : List Mod → List Stmt
  | [] => []
  | m :: ms => stmts s (path ++ [m.name]) m ++ [.addModule path m.name] ++ subStmts s path ms
end

/-- The generated init functions compile, as far as local variables are concerned: no name is declared
twice in one block. -/
def Compiles (l : List Stmt) : Prop := ∀ b, Stmt.block b ∈ l → (b.flatMap BStmt.locals).Nodup

/-! ## The interpreter -/

/-- Addresses: the type `object`; a global variable of an extension; the module object an extension
creates for one of its modules; a capsule around an address; something allocated at run time. -/
inductive Addr where
  | object
  | glob (ext sym : Str)
  | module (ext : Str) (path : List Str)
  | capsule (a : Addr)
  | fresh (n : Nat)
  deriving DecidableEq

/-- The state of the interpreter and of all extensions.  `none` is `NULL` in `ptr`, `base`. -/
structure World where
  /-- what `PyImport_ImportModule` finds: modules that are initialised -/
  sys : Str → Option Addr
  /-- attributes of modules, dictionaries of types -/
  attrs : Addr → Str → Option Addr
  /-- the pointer variables of an extension -/
  ptr : Str → Str → Option Addr
  /-- `tp_base` -/
  base : Addr → Option Addr
  /-- `tp_bases`, before `PyType_Ready` -/
  bases : Addr → Option (List Addr)
  /-- `__bases__` of a type that is ready -/
  ready : Addr → Option (List Addr)
  /-- contents of the type maps -/
  maps : Addr → List (Str × Addr)
  next : Nat

inductive Fail where
  /-- the import of the module being initialised raises an exception -/
  | exception
  /-- a null pointer is used -/
  | crash
  deriving DecidableEq

def upd {A B : Type} [DecidableEq A] (f : A → B) (a : A) (b : B) : A → B := fun x => if x = a then b else f x

def setAttr (w : World) (o : Addr) (n : Str) (v : Addr) : World :=
  { w with attrs := upd w.attrs o (upd (w.attrs o) n (some v)) }

def setPtr (w : World) (ext var : Str) (v : Option Addr) : World :=
  { w with ptr := upd w.ptr ext (upd (w.ptr ext) var v) }

/-- `&x` -/
def addr (w : World) (ext : Str) (x : Lv) : Option Addr :=
  if x.indirect then w.ptr ext (hidden x.sym) else some (.glob ext x.sym)

/-- `PyCObject_AsVoidPtr`: `NULL` for what is not a capsule. -/
def asVoidPtr : Addr → Option Addr
  | .capsule a => some a
  | _ => none

/-- Type objects, in this model: `object` and the global variables of extensions. -/
def isType : Addr → Bool
  | .object => true
  | .glob _ _ => true
  | _ => false

/-- One statement of a block; `m` is the local variable `module`. -/
def bstep (ext : Str) (w : World) (m : Addr) : BStmt → Except Fail (World × Addr)
  | .importModule n =>
    match w.sys n with
    | none => .error .exception
    | some a => .ok (w, a)
  | .getType var attr => .ok (setPtr w ext var (w.attrs m attr), m)
  | .getMap var attr =>
    match w.attrs m attr with
    | none => .ok ({ setPtr w ext var (some (.fresh w.next)) with
                       maps := upd w.maps (.fresh w.next) [], next := w.next + 1 }, m)
    | some a => .ok (setPtr w ext var (asVoidPtr a), m)
  | .getRegistry var attr =>
    match w.attrs m attr with
    | none => .ok (setPtr w ext var none, m)
    | some a => .ok (setPtr w ext var (asVoidPtr a), m)

def brun (ext : Str) : World → Addr → List BStmt → Except Fail World
  | w, _, [] => .ok w
  | w, m, b :: bs =>
    match bstep ext w m b with
    | .error e => .error e
    | .ok (w', m') => brun ext w' m' bs

/-- `PyType_Ready`: nothing for a type that is ready; otherwise `tp_base` defaults to `object`, is made
ready first, and `tp_bases` defaults to `(tp_base,)`; a further base that is not ready is an error
("Cannot extend an incomplete type").  What is not a type object is taken for one: a crash.  `fuel` bounds the chain of bases that are not ready yet. -/
def readyType : Nat → World → Addr → Except Fail World
  | 0, _, _ => .error .exception
  | fuel + 1, w, a =>
    match w.ready a with
    | some _ => .ok w
    | none =>
      if isType a = false then .error .crash
      else if a = .object then .ok { w with ready := upd w.ready a (some []) }
      else
        match readyType fuel w ((w.base a).getD .object) with
        | .error e => .error e
        | .ok w' =>
          let bs := (w.bases a).getD [(w.base a).getD .object]
          if bs.all (fun b => (w'.ready b).isSome) then .ok { w' with ready := upd w'.ready a (some bs) }
          else .error .exception

/-- One statement of an init function. -/
def step (ext : Str) (fuel : Nat) (w : World) : Stmt → Except Fail World
  | .block b => brun ext w .object b
  | .addType path n x =>
    match addr w ext x with
    | none => .error .exception
    | some a => .ok (setAttr w (.module ext path) n a)
  | .addPointer path n x =>
    match addr w ext x with
    | none => .error .exception
    | some a => .ok (setAttr w (.module ext path) n (.capsule a))
  | .setDict outer n x =>
    match addr w ext outer, addr w ext x with
    | some o, some a =>
      if isType o = false then .error .crash
      else if (w.ready o).isSome then .ok (setAttr w o n a) else .error .exception
    | _, _ => .error .crash
  | .register map cpp x =>
    match addr w ext map, addr w ext x with
    | some m, some a => .ok { w with maps := upd w.maps m (w.maps m ++ [(cpp, a)]) }
    | _, _ => .error .crash
  | .setBase x b =>
    match addr w ext x with
    | none => .error .crash
    | some a => .ok { w with base := upd w.base a (addr w ext b) }
  | .setBases x bs =>
    match addr w ext x with
    | none => .error .crash
    | some a =>
      if bs.all (fun b => (addr w ext b).isSome) then
        .ok { w with bases := upd w.bases a (some (bs.filterMap (addr w ext))) }
      else .error .crash
  | .ready x =>
    match addr w ext x with
    | none => .error .crash
    | some a => readyType fuel w a
  | .addModule path n => .ok (setAttr w (.module ext path) n (.module ext (path ++ [n])))

def run (ext : Str) (fuel : Nat) : World → List Stmt → Except Fail World
  | w, [] => .ok w
  | w, st :: l =>
    match step ext fuel w st with
    | .error e => .error e
    | .ok w' => run ext fuel w' l

/-- An extension module: the settings it was generated with and its root module. -/
structure Ext where
  settings : Settings := {}
  root : Mod

def Ext.name (x : Ext) : Str := x.root.name
def Ext.stmts (x : Ext) : List Stmt := Imports.stmts x.settings [] x.root

/-- Importing an extension module, as Python 3 does: its init function runs, and only then it can be
found by other imports, under its own name (a submodule is an attribute of it and not importable). -/
def load (w : World) (x : Ext) : Except Fail World :=
  match run x.name (x.stmts.length + 2) w x.stmts with
  | .error e => .error e
  | .ok w' => .ok { w' with sys := upd w'.sys x.name (some (.module x.name [])) }

def loadAll : World → List Ext → Except Fail World
  | w, [] => .ok w
  | w, x :: xs =>
    match load w x with
    | .error e => .error e
    | .ok w' => loadAll w' xs

/-- The interpreter before any of these extensions is loaded. -/
def World.start : World where
  sys := fun _ => none
  attrs := fun _ _ => none
  ptr := fun _ _ => none
  base := fun _ => none
  bases := fun _ => none
  ready := fun a => if a = .object then some [] else none
  maps := fun _ => []
  next := 0

end Verif.Imports
