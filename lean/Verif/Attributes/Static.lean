import Verif.Basic

/-!
# Static attributes of wrapped classes

A static attribute of a class becomes an entry in the getset table of a *metaclass*
(pybindgen/cppattribute.py:252-341, pybindgen/cppclass.py:1961-1992).  This file models the statements
written into the module's initialisation for a class and its metaclass, what these statements make of
the type objects, and what Python then does with `C.x`, `C.x = v`, `C().x` and `class P(C, ...)`.

The part of CPython (`PyType_Ready`, `type_getattro`, `type_setattro`, `PyObject_GenericSetAttr`, the
lookup cache of `_PyType_Lookup`, the choice of the metaclass of a `class` statement) follows CPython
2.7-3.9, the versions for which `Py_TYPE(&x) = ...` compiles.  The bodies of getters and setters are the subject of C77-C79: here a setter
is a conversion `toC` that may fail, and a getter returns the variable.
-/
namespace Verif.Static
open Verif

/-- A type object: `object`, `type`, the type of the `i`-th wrapped class, its metaclass, and the
`n`-th class made by a Python `class` statement. -/
inductive Ty where
  | object
  | type
  | cls (i : Nat)
  | metacls (i : Nat)
  | py (n : Nat)
  deriving DecidableEq

/-- An entry of the getset table of static attributes: `readable` and `writable` say that the getter
and the setter are not `NULL` (cppclass.py:1706-1715, cppattribute.py:380-400). -/
structure StaticAttr where
  name : Str
  readable : Bool := true
  writable : Bool := true
  deriving DecidableEq

/-- A registered class: the numbers of its bases in order, its static attributes, and the names in
its own dictionary (methods, instance attributes, nested classes, enum values). -/
structure Decl where
  bases : List Nat
  statics : List StaticAttr
  members : List Str

/-! ## The statements of the module initialisation -/

/-- The statements concerning types, in the order in which they are written. -/
inductive Stmt where
  /-- `PyXMeta_Type.tp_base = Py_TYPE(&P);` -/
  | metaBase (i : Nat) (p : Ty)
  /-- `PyXMeta_Type.tp_traverse = Py_TYPE(&P)->tp_traverse;` and the two like it -/
  | metaFields (i : Nat) (p : Ty)
  /-- `PyXMeta_Type.tp_setattro = PyObject_GenericSetAttr;` -/
  | metaSetattro (i : Nat)
  /-- `PyType_Ready(&PyXMeta_Type);`, without a check -/
  | metaReady (i : Nat)
  /-- `PyX_Type.tp_base = &P;` -/
  | base (i : Nat) (p : Ty)
  /-- `PyX_Type.tp_bases = PyTuple_New(n);` and its items -/
  | bases (i : Nat) (ps : List Ty)
  /-- `Py_TYPE(&PyX_Type) = &PyXMeta_Type;` -/
  | setType (i : Nat)
  /-- `PyType_Ready(&PyX_Type)` with an error check -/
  | ready (i : Nat)
  deriving DecidableEq

/-- The parent used for the metaclass, cppclass.py:1970-1973. -/
def metaParent (D : Decl) : Ty :=
  match D.bases with
  | [] => .object
  | p :: _ => .cls p

/-- `PyMetaclass.generate`, cppattribute.py:331-340. -/
def genMeta (i : Nat) (D : Decl) : List Stmt :=
  [.metaBase i (metaParent D), .metaFields i (metaParent D), .metaSetattro i, .metaReady i]

/-- cppclass.py:1979-1988: `tp_base`, and `tp_bases` if there are several. -/
def genBases (i : Nat) (D : Decl) : List Stmt :=
  match D.bases with
  | [] => []
  | [p] => [.base i (.cls p)]
  | p :: q :: qs => [.base i (.cls p), .bases i ((p :: q :: qs).map Ty.cls)]

/-- `CppClass.generate`, the part of cppclass.py:1966-1995. -/
def genClass (i : Nat) (D : Decl) : List Stmt :=
  (if D.statics = [] then [] else genMeta i D) ++ genBases i D ++
    (if D.statics = [] then [] else [.setType i]) ++ [.ready i]

/-- The classes are generated in the order of registration (module.py:759-770; the imported
classes come first, ready already). -/
def genFrom : Nat → List Decl → List Stmt
  | _, [] => []
  | i, D :: ds => genClass i D ++ genFrom (i + 1) ds

/-! ## What the statements do -/

inductive Setattro where
  /-- `type_setattro`: refuses classes not made by a `class` statement -/
  | restrictive
  /-- `PyObject_GenericSetAttr` -/
  | generic
  deriving DecidableEq

inductive Fail where
  | crash
  | typeError
  deriving DecidableEq

/-- The fields of the type objects.  `mro` is set by `PyType_Ready`. -/
structure Types where
  obType : Ty → Option Ty
  base : Ty → Option Ty
  bases : Ty → Option (List Ty)
  mro : Ty → Option (List Ty)
  setattro : Ty → Option Setattro

def upd {α : Type} (f : Ty → α) (a : Ty) (v : α) : Ty → α := fun b => if b = a then v else f b

/-- Before the module is initialised: only `object` and `type` are ready; the static type structures
have `ob_type`, `tp_base`, `tp_bases` and `tp_setattro` null (cppattribute.py:281-326,
`PyVarObject_HEAD_INIT(NULL, 0)`). -/
def types0 : Types where
  obType := fun a => match a with | .object => some .type | .type => some .type | _ => none
  base := fun a => match a with | .type => some .object | _ => none
  bases := fun a => match a with | .type => some [.object] | _ => none
  mro := fun a => match a with | .object => some [.object] | .type => some [.type, .object] | _ => none
  setattro := fun a => match a with | .object => some .generic | .type => some .restrictive | _ => none

/-- CPython's `pmerge`. -/
def pmerge : Nat → List (List Ty) → Option (List Ty)
  | 0, _ => none
  | n + 1, ls =>
    let rest := ls.filter (fun l => !l.isEmpty)
    if rest = [] then some []
    else
      match (rest.filterMap List.head?).find? (fun h => rest.all (fun m => !(m.tail.contains h))) with
      | some h => (pmerge n (rest.map (fun m => if m.head? = some h then m.tail else m))).map (h :: ·)
      | none => none

/-- CPython's `mro_implementation`: with one base the order of the base with the class in front;
a base that is not ready is refused. -/
def mroOf (mro : Ty → Option (List Ty)) (a : Ty) (bs : List Ty) : Option (List Ty) :=
  match bs with
  | [b] => (mro b).map (a :: ·)
  | bs =>
    if bs.all (fun b => (mro b).isSome) then
      let ls := bs.filterMap mro
      (pmerge ((ls.map List.length).sum + bs.length + 1) (ls ++ [bs])).map (a :: ·)
    else none

/-- `PyType_Ready`, as far as bases, metatype, order of lookup and `tp_setattro` go: the base defaults
to `object` and is made ready first; a null `ob_type` is taken from the base. -/
def readyType : Nat → Types → Ty → Except Fail Types
  | 0, _, _ => .error .crash
  | n + 1, s, a =>
    if (s.mro a).isSome then .ok s
    else
      let b := (s.base a).getD .object
      match readyType n s b with
      | .error e => .error e
      | .ok s1 =>
        let m := if (s1.obType a).isSome then s1.obType a else s1.obType b
        let t := if (s1.setattro a).isSome then s1.setattro a else s1.setattro b
        let bs := (s1.bases a).getD [b]
        match mroOf s1.mro a bs with
        | none => .error .typeError
        | some l =>
          .ok { obType := upd s1.obType a m, base := upd s1.base a (some b), bases := upd s1.bases a (some bs), mro := upd s1.mro a (some l), setattro := upd s1.setattro a t }

/-- One statement.  Reading a field through a null pointer crashes; the result of
`PyType_Ready(&PyXMeta_Type)` is not looked at. -/
def exec (fuel : Nat) (s : Types) : Stmt → Except Fail Types
  | .metaBase i p => .ok { s with base := upd s.base (.metacls i) (s.obType p) }
  | .metaFields _ p =>
    match s.obType p with
    | none => .error .crash
    | some _ => .ok s
  | .metaSetattro i => .ok { s with setattro := upd s.setattro (.metacls i) (some .generic) }
  | .metaReady i =>
    match readyType fuel s (.metacls i) with
    | .ok s' => .ok s'
    | .error .typeError => .ok s
    | .error .crash => .error .crash
  | .base i p => .ok { s with base := upd s.base (.cls i) (some p) }
  | .bases i ps => .ok { s with bases := upd s.bases (.cls i) (some ps) }
  | .setType i => .ok { s with obType := upd s.obType (.cls i) (some (.metacls i)) }
  | .ready i => readyType fuel s (.cls i)

def execAll (fuel : Nat) : Types → List Stmt → Except Fail Types
  | s, [] => .ok s
  | s, st :: l =>
    match exec fuel s st with
    | .error e => .error e
    | .ok s' => execAll fuel s' l

/-- The types after `import`. -/
def initTypes (ds : List Decl) : Except Fail Types :=
  execAll (2 * ds.length + 3) types0 (genFrom 0 ds)

/-! ## Python -/

/-- What a dictionary of a type object holds. -/
inductive Entry (V : Type) where
  /-- a static attribute of the class `d` -/
  | getset (d : Nat) (s : StaticAttr)
  /-- a method, an instance attribute, ... of the class `owner` -/
  | member (owner : Ty)
  /-- a value put there by an assignment -/
  | stored (v : V)
  /-- an attribute of `type` or of `object`; `data` if it is a data descriptor -/
  | builtin (data : Bool)

/-- What is fixed while the program runs: the classes, the attributes of `object` and `type`, and the
conversion of Python values by the setters. -/
structure Env (V : Type) where
  ds : List Decl
  builtin : Ty → Str → Option Bool
  toC : Nat → Str → V → Option V

/-- The state of the program.  `cache a x` is the entry of the cache of `_PyType_Lookup`, if any. -/
structure World (V : Type) where
  types : Types
  dict : Ty → Str → Option (Entry V)
  cache : Ty → Str → Option (Option (Entry V))
  vars : Nat → Str → V
  pys : Nat

/-- The dictionaries after the import: the getset table in the metaclass (cppattribute.py:312, 329),
the members in the class. -/
def dict0 {V : Type} (E : Env V) : Ty → Str → Option (Entry V)
  | .metacls i, x =>
    match E.ds[i]? with
    | some D => (D.statics.find? (fun s => s.name = x)).map (Entry.getset i)
    | none => none
  | .cls i, x =>
    match E.ds[i]? with
    | some D => if x ∈ D.members then some (.member (.cls i)) else none
    | none => none
  | .object, x => (E.builtin .object x).map Entry.builtin
  | .type, x => (E.builtin .type x).map Entry.builtin
  | .py _, _ => none

def start {V : Type} (E : Env V) (t : Types) (vars : Nat → Str → V) : World V where
  types := t
  dict := dict0 E
  cache := fun _ _ => none
  vars := vars
  pys := 0

/-- The lookup along the order of a type. -/
def search {V : Type} (w : World V) (a : Ty) (x : Str) : Option (Entry V) :=
  ((w.types.mro a).getD []).findSome? (fun t => w.dict t x)

/-- `_PyType_Lookup`: the cache first; what is found, or that nothing is found, is kept. -/
def find {V : Type} (w : World V) (a : Ty) (x : Str) : Option (Entry V) :=
  match w.cache a x with
  | some e => e
  | none => search w a x

def remember {V : Type} (w : World V) (a : Ty) (x : Str) : World V :=
  { w with cache := fun b y => if b = a ∧ y = x then some (find w a x) else w.cache b y }

inductive Got (V : Type) where
  | value (v : V)
  | attribute (e : Entry V)
  | done
  | attributeError
  | typeError
  | conversionError
  | crash

/-- `type_getattro`: a data descriptor of the metatype, then the class, then the rest of the
metatype. -/
def getAttr {V : Type} (w : World V) (c : Ty) (x : Str) : Got V × World V :=
  match w.types.obType c with
  | none => (.crash, w)
  | some m =>
    let w1 := remember w m x
    match find w m x with
    | some (.getset d s) => (if s.readable then .value (w.vars d s.name) else .attributeError, w1)
    | some (.builtin true) => (.attribute (.builtin true), w1)
    | me =>
      let w2 := remember w1 c x
      match find w1 c x with
      | some e => (.attribute e, w2)
      | none =>
        match me with
        | some e => (.attribute e, w2)
        | none => (.attributeError, w2)

/-- `C().x` on a new instance: the type of the instance only. -/
def getInst {V : Type} (w : World V) (c : Ty) (x : Str) : Got V × World V :=
  match w.types.obType c with
  | none => (.crash, w)
  | some _ =>
    let w1 := remember w c x
    match find w c x with
    | some e => (.attribute e, w1)
    | none => (.attributeError, w1)

def isHeap : Ty → Bool
  | .py _ => true
  | _ => false

/-- `PyObject_GenericSetAttr` on a type object. -/
def genericSet {V : Type} (E : Env V) (w : World V) (c m : Ty) (x : Str) (v : V) : Got V × World V :=
  let w1 := remember w m x
  match find w m x with
  | some (.getset d s) =>
    if s.writable then
      match E.toC d s.name v with
      | some u => (.done, { w1 with vars := fun d' y => if d' = d ∧ y = s.name then u else w1.vars d' y })
      | none => (.conversionError, w1)
    else (.attributeError, w1)
  | some (.builtin true) => (.typeError, w1)
  | _ => (.done, { w1 with dict := fun a y => if a = c ∧ y = x then some (.stored v) else w1.dict a y })

/-- `PyType_Modified`: the entries of the class and of the classes derived from it are dropped. -/
def modified {V : Type} (w : World V) (c : Ty) : World V :=
  { w with cache := fun a y => if c ∈ (w.types.mro a).getD [] then none else w.cache a y }

/-- `C.x = v`, by the `tp_setattro` of the metatype. -/
def setAttr {V : Type} (E : Env V) (w : World V) (c : Ty) (x : Str) (v : V) : Got V × World V :=
  match w.types.obType c with
  | none => (.crash, w)
  | some m =>
    match w.types.setattro m with
    | some .generic => genericSet E w c m x v
    | some .restrictive =>
      if isHeap c then ((genericSet E w c m x v).1, modified (genericSet E w c m x v).2 c)
      else (.typeError, w)
    | none => (.crash, w)

/-- `PyType_IsSubtype`. -/
def subtype (s : Types) (a b : Ty) : Bool := ((s.mro a).getD []).contains b

/-- `_PyType_CalculateMetaclass`: the most derived of the metatypes of the bases. -/
def winner (s : Types) : Ty → List Ty → Option Ty
  | m, [] => some m
  | m, b :: bs =>
    match s.obType b with
    | none => none
    | some t =>
      if subtype s m t then winner s m bs
      else if subtype s t m then winner s t bs
      else none

/-- `class P(bs): ...` with the given names in its body; `ok` says that the remaining checks
of `type_new` (subclassing allowed, no layout conflict) pass. -/
def newClass {V : Type} (w : World V) (bs : List Ty) (names : List Str) (ok : Bool) : Got V × World V :=
  let bs := if bs = [] then [.object] else bs
  let p := Ty.py w.pys
  let w1 := { w with pys := w.pys + 1 }
  match winner w.types .type bs, mroOf w.types.mro p bs, ok with
  | some m, some l, true =>
    (.done, { w1 with
      types := { obType := upd w.types.obType p (some m), base := upd w.types.base p bs.head?, bases := upd w.types.bases p (some bs), mro := upd w.types.mro p (some l), setattro := upd w.types.setattro p (bs.head?.bind w.types.setattro) }
      dict := fun a y => if a = p then (if y ∈ names then some (.member p) else none) else w.dict a y })
  | _, _, _ => (.typeError, w1)

/-- What a Python program does, and what goes on beside it: the C++ code changes a static variable,
entries of the cache get overwritten. -/
inductive Ev (V : Type) where
  | get (c : Ty) (x : Str)
  | inst (c : Ty) (x : Str)
  | set (c : Ty) (x : Str) (v : V)
  | newClass (bs : List Ty) (names : List Str) (ok : Bool)
  | cxx (d : Nat) (x : Str) (v : V)
  | evict (keep : Ty → Str → Bool)

def step {V : Type} (E : Env V) (w : World V) : Ev V → Got V × World V
  | .get c x => getAttr w c x
  | .inst c x => getInst w c x
  | .set c x v => setAttr E w c x v
  | .newClass bs names ok => newClass w bs names ok
  | .cxx d x v => (.done, { w with vars := fun d' y => if d' = d ∧ y = x then v else w.vars d' y })
  | .evict keep => (.done, { w with cache := fun a y => if keep a y then w.cache a y else none })

def run {V : Type} (E : Env V) : World V → List (Ev V) → World V
  | w, [] => w
  | w, e :: es => run E (step E w e).2 es

end Verif.Static
