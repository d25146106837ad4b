import Verif.Basic

/-!
# The files a module is generated into

Model of how the code generator distributes declarations, definitions and uses of C symbols over the common
header, the main file and the files of the sections (pybindgen/module.py:110-180, 625-645, 677-875, 941-1006;
cppclass.py:1812-1873, 1888-2038; container.py:288-323, 345-372, 513-597; cppexception.py:130-167;
wrapper_registry.py:73-101; overloading.py:139-198, 295-303; cppattribute.py:252-340).

Only symbols with linkage matter here: functions, variables, type structures.  Types, macros and includes of the
user are not modelled, nor texts the user passes in (custom wrappers, `post_generation_code`, `header`, `body`).
-/
namespace Verif.Sections

/-- Direction of a converter function (module.py:931-939, 970-978). -/
inductive Dir where
  | py2c | c2py
  deriving Repr, DecidableEq

/-- Names of generated C functions and variables; the texts are given by the cited formats, applied to the
mangled names (whose distinctness is the subject of C27, C32, C59 and C76). -/
inductive Sym where
  /-- `_wrap_<module>_<function>` (function.py, `set_module`) -/
  | fn (m f : Str)
  /-- `_wrap_<module>_<function>__<i>` (overloading.py:179) -/
  | part (m f : Str) (i : Nat)
  /-- `<prefix>_functions` (module.py:746) -/
  | table (m : Str)
  /-- `<prefix>_moduledef` (module.py:825-826) -/
  | moddef (m : Str)
  /-- the init function (module.py:837-863) -/
  | init (m : Str)
  /-- `Py<Prefix><name>_Type` (cppclass.py:1203; for containers too) -/
  | type (c : Str)
  /-- `_Py<Prefix><name>_Type` of imported classes (cppclass.py:1846) -/
  | typePtr (c : Str)
  /-- `<pystruct>__typeid_map` (cppclass.py:1212) -/
  | typemap (c : Str)
  /-- `_<pystruct>__typeid_map` of imported classes (cppclass.py:1422) -/
  | typemapPtr (c : Str)
  /-- `<pystruct>_wrapper_registry` (wrapper_registry.py:71) -/
  | registry (c : Str)
  /-- `_<pystruct>_wrapper_registry` of imported classes (wrapper_registry.py:79) -/
  | registryPtr (c : Str)
  /-- `Py<prefix><name>Meta_Type` (cppattribute.py:271, cppclass.py:1851) -/
  | metaT (pfx c : Str)
  /-- `<pystruct>_IterType` (cppclass_container.py:97) -/
  | iter (c : Str)
  /-- member functions of the helper class (cppclass.py:1859, 1954) -/
  | helper (c m : Str)
  /-- static functions and tables of a class or container -/
  | loc (c f : Str)
  /-- `_wrap_convert_<dir>__<ctype>` (module.py:931-939, 970-978) -/
  | conv (d : Dir) (t : Str)
  /-- `Py<Prefix><name>_Type` of exceptions, a pointer (cppexception.py:109) -/
  | exc (e : Str)
  deriving Repr, DecidableEq

/-- The files written (module.py:61-107). -/
inductive File where
  | header | main | sect (s : Str)
  deriving Repr, DecidableEq

/-- What is written: `#include` of the common header, a declaration, a definition (static or not), a use. -/
inductive Ev where
  | incl
  | decl (s : Sym)
  | defn (s : Sym) (static : Bool)
  | use (s : Sym)
  deriving Repr, DecidableEq

/-- What concerns us of one class. -/
structure CInfo where
  /-- `mangled_full_name` -/
  name : Str
  /-- `import_from_module` is set -/
  imported : Bool
  /-- `automatic_type_narrowing` -/
  narrowing : Bool
  deriving Repr, DecidableEq

/-- A class with its chain of (first) parents. -/
inductive Cls where
  | root (i : CInfo)
  | sub (i : CInfo) (parent : Cls)
  deriving Repr, DecidableEq

/-- The class itself. -/
def Cls.info : Cls → CInfo
  | .root i => i
  | .sub i _ => i

/-- `_get_wrapper_registry` (cppclass.py:1801-1809): the registry belongs to the topmost class. -/
def Cls.registryOwner : Cls → Cls
  | .root i => .root i
  | .sub _ p => p.registryOwner

/-- `get_type_narrowing_root` (cppclass.py:1296-1306); the loop as recursion. -/
def Cls.narrowingRoot : Cls → Option Cls
  | .root i => if i.narrowing then some (.root i) else none
  | .sub i p =>
    if i.narrowing then
      match p.narrowingRoot with
      | some r => some r
      | none => some (.sub i p)
    else none

/-- `parent is None`. -/
def Cls.isRoot : Cls → Bool
  | .root _ => true
  | .sub _ _ => false

/-- `typeid_map_name is not None` (cppclass.py:1211-1214). -/
def Cls.hasMap (c : Cls) : Bool := c.narrowingRoot = some c

/-- The type structure of a class: a pointer if it is imported (cppclass.py:1845-1849). -/
def CInfo.typeSym (i : CInfo) : Sym := if i.imported then .typePtr i.name else .type i.name

/-- Its typeid map (cppclass.py:1421-1425). -/
def CInfo.mapSym (i : CInfo) : Sym := if i.imported then .typemapPtr i.name else .typemap i.name

/-- Its registry (wrapper_registry.py:78-82). -/
def CInfo.regSym (i : CInfo) : Sym := if i.imported then .registryPtr i.name else .registry i.name

/-- Settings: `settings.name_prefix.capitalize()`, whether the registry is a `StdMapWrapperRegistry`, and
whether the output is a `MultiSectionFactory` (module.py:920-927). -/
structure Cfg where
  pfx : Str
  registry : Bool
  multi : Bool
  deriving Repr, DecidableEq

/-- Something generated code refers to. -/
inductive Ref where
  /-- a wrapped class (argument, result, attribute, …) -/
  | cls (c : Cls)
  /-- an exception class (cppexception.py:56-61) -/
  | exc (e : Str)
  /-- a container: its name and C type (container.py:316-323) -/
  | cont (name ctype : Str)
  deriving Repr, DecidableEq

/-- The symbols such code uses: the type structure, the registry of the topmost class, the typeid map of the
narrowing root (cppclass.py:2703-2708, 3528-3533); the exception; the container's type structure and converter. -/
def Ref.syms (g : Cfg) : Ref → List Sym
  | .cls c => [c.info.typeSym] ++ (if g.registry then [c.registryOwner.info.regSym] else []) ++
      (match c.narrowingRoot with | some r => [r.info.mapSym] | none => [])
  | .exc e => [.exc e]
  | .cont n t => [.type n, .conv .py2c t]

/-- Uses of a list of references. -/
def usesOf (g : Cfg) (rs : List Ref) : List Ev := (rs.flatMap (Ref.syms g)).map .use

/-- A request for a converter function (module.py:941-967, 980-1006): direction, C type, and what the body of
the converter refers to. -/
structure Conv where
  dir : Dir
  ctype : Str
  refs : List Ref
  deriving Repr, DecidableEq

/-- The converter's symbol. -/
def Conv.sym (c : Conv) : Sym := .conv c.dir c.ctype

/-- One C++ function of an overload set: its section, whether its wrapper can be generated, and what the wrapper
refers to. -/
structure Part where
  sect : Str
  ok : Bool
  refs : List Ref
  deriving Repr, DecidableEq

/-- A module function: an overload set (module.py:725-743). -/
structure Fn where
  name : Str
  parts : List Part
  deriving Repr, DecidableEq

/-- A class as registered in a module. -/
structure Item where
  cls : Cls
  sect : Str
  /-- further bases (cppclass.py:1983-1988) -/
  bases : List Cls
  outer : Option Cls
  /-- `not static_attributes.empty()` -/
  static : Bool
  /-- `container_traits is not None` -/
  iter : Bool
  /-- the members of its helper class -/
  helper : List Str
  /-- its static functions and tables -/
  locals : List Str
  /-- what its functions refer to -/
  refs : List Ref
  /-- the converters its operators ask for (cppclass.py:2050-2066, 2168) -/
  convs : List Conv
  deriving Repr, DecidableEq

/-- A container as registered in a module. -/
structure Cont where
  name : Str
  ctype : Str
  sect : Str
  outer : Option Cls
  locals : List Str
  refs : List Ref
  /-- converters of the value type and the key type (container.py:515-517) -/
  convs : List Conv
  deriving Repr, DecidableEq

/-- An exception that is not a standard one (cppexception.py:131-132, 143-144). -/
structure Exc where
  name : Str
  sect : Str
  parent : Option Str
  outer : Option Cls
  deriving Repr, DecidableEq

/-- What is registered directly in a module; `name` is its prefix, from which the names of its table, definition
and init function are made. -/
structure Body where
  name : Str
  fns : List Fn
  classes : List Item
  conts : List Cont
  excs : List Exc
  /-- classes with further names (module.py:790-794) -/
  typedefs : List Cls
  /-- outer classes of enums (enum.py:159-177) -/
  enumOuter : List Cls
  deriving Repr, DecidableEq

/-- A module with its submodules. -/
inductive Mod where
  | mk (b : Body) (subs : List Mod)
  deriving Repr

/-- The module without its submodules. -/
def Mod.body : Mod → Body
  | .mk b _ => b

mutual
/-- All modules of a tree, in the order of `generate_forward_declarations` (module.py:625-645). -/
def Mod.bodies : Mod → List Body
  | .mk b subs => b :: bodiesAll subs
/-- The same for a list of modules. -/
def bodiesAll : List Mod → List Body
  | [] => []
  | m :: ms => m.bodies ++ bodiesAll ms
end

/-! ## State -/

/-- The state of a generation: what was written so far, the one-time definitions (of the root module), the
prototypes waiting in `Module.header`, and the sections whose file has the `#include`
(`_already_initialized_sections`). -/
structure St where
  out : List (File × Ev)
  once : List Sym
  hdr : List Sym
  inited : List Str
  deriving Repr, DecidableEq

/-- Write to a file. -/
def emit (f : File) (es : List Ev) (st : St) : St := { st with out := st.out ++ es.map (fun e => (f, e)) }

/-- The main section's name (module.py:271, 291). -/
def mainName : Str := "__main__".toList

/-- `get_code_sink_for_wrapper` (module.py:141-151 and 171-172): the file of a section and the state after its
`#include` was written, once.  As in tests/foomodulegen4.py:27-29 the factory gives the main file for `__main__`. -/
def sinkFor (g : Cfg) (sect : Str) (st : St) : File × St :=
  if g.multi = false ∨ sect = mainName then (.main, st)
  else if sect ∈ st.inited then (.sect sect, st)
  else (.sect sect, emit (.sect sect) [.incl] { st with inited := st.inited ++ [sect] })

/-- `generate_python_to_c_type_converter`, `generate_c_to_python_type_converter` (module.py:941-967, 980-1006):
the first time a type is asked for, the prototype goes to `Module.header` and the function to the current file. -/
def genConv (g : Cfg) (f : File) (c : Conv) (st : St) : St :=
  if c.sym ∈ st.once then st
  else emit f (.defn c.sym false :: usesOf g c.refs)
    { st with once := st.once ++ [c.sym], hdr := st.hdr ++ [c.sym] }

/-- All converters a class or container asks for. -/
def genConvs (g : Cfg) (f : File) (cs : List Conv) (st : St) : St :=
  cs.foldl (fun st c => genConv g f c st) st

/-! ## Forward declarations -/

/-- `CppClass.generate_forward_declarations` (cppclass.py:1845-1873), `CppClassContainerTraits` (117),
`StdMapWrapperRegistry` (79-82), helper class (cppclass.py:420-464). -/
def Item.fwd (g : Cfg) (c : Item) : List Sym :=
  [c.cls.info.typeSym] ++
  (if c.cls.info.imported = false ∧ c.static then [.metaT [] c.cls.info.name] else []) ++
  (if c.cls.info.imported then [] else c.helper.map (.helper c.cls.info.name)) ++
  (if c.cls.hasMap then [c.cls.info.mapSym] else []) ++
  (if c.iter then [.iter c.cls.info.name] else []) ++
  (if c.cls.isRoot ∧ g.registry then [c.cls.info.regSym] else [])

/-- `Container.generate_forward_declarations` (container.py:311-323). -/
def Cont.fwd (c : Cont) : List Sym := [.type c.name, .iter c.name, .conv .py2c c.ctype]

/-- `CppException.generate_forward_declarations` (cppexception.py:130-136). -/
def Exc.fwd (e : Exc) : List Sym := [.exc e.name]

/-- Imported classes first (module.py:632-636, 759-768). -/
def Body.ordered (b : Body) : List Item :=
  b.classes.filter (·.cls.info.imported) ++ b.classes.filter (fun c => !c.cls.info.imported)

/-- `generate_forward_declarations` of one module (module.py:632-641). -/
def Body.fwd (g : Cfg) (b : Body) : List Sym :=
  b.ordered.flatMap (Item.fwd g) ++ b.conts.flatMap Cont.fwd ++ b.excs.flatMap Exc.fwd

/-- `declare_one_time_definition` for each container (container.py:318, module.py:600-623): `KeyError` if two
containers have the same converter. -/
def declareAll : List Sym → List Sym → PyRes (List Sym)
  | once, [] => .ok once
  | once, s :: ss => if s ∈ once then .error .keyError else declareAll (once ++ [s]) ss

/-- The converters of the containers of a module. -/
def Body.contConvs (b : Body) : List Sym := b.conts.map (fun c => .conv .py2c c.ctype)

/-! ## Generation -/

/-- The wrappers of an overload set that could be generated, with their numbers (overloading.py:167-193). -/
def Fn.done (fn : Fn) : List (Nat × Part) :=
  (fn.parts.zipIdx.map (fun x => (x.2, x.1))).filter (fun x => x.2.ok)

/-- `OverloadedWrapper.generate` (overloading.py:139-250): `none` is `SkipWrapper`.  One wrapper is written under
the function's name; several get numbers and a function calling them. -/
def Fn.code (g : Cfg) (m : Str) (fn : Fn) : Option (List Ev) :=
  match fn.parts with
  | [] => none
  | [p] => if p.ok then some (.defn (.fn m fn.name) false :: usesOf g p.refs) else none
  | _ =>
    if fn.done = [] then none
    else some (fn.done.flatMap (fun x => .defn (.part m fn.name x.1) false :: usesOf g x.2.refs) ++
      .defn (.fn m fn.name) false :: fn.done.map (fun x => .use (.part m fn.name x.1)))

/-- `OverloadedWrapper.get_section` (overloading.py:327-334): the section of the first function. -/
def Fn.sect (fn : Fn) : Str :=
  match fn.parts with
  | [] => mainName
  | p :: _ => p.sect

/-- One function of a module (module.py:729-743): the wrapper goes to the file of its section, a declaration to
the main file. -/
def genFn (g : Cfg) (m : Str) (st : St) (fn : Fn) : St :=
  let r := sinkFor g fn.sect st
  match fn.code g m with
  | none => r.2
  | some es => emit .main [.decl (.fn m fn.name)] (emit r.1 es r.2)

/-- The functions that are in the table (module.py:734-742). -/
def Body.tabled (g : Cfg) (b : Body) : List Fn := b.fns.filter (fun fn => (fn.code g b.name).isSome)

/-- The part of `CppClass.generate` before the operators (cppclass.py:1942-2018): typeid map, registry, helper
class, attributes, metaclass, constructors, methods. -/
def Item.before (g : Cfg) (c : Item) : List Ev :=
  let n := c.cls.info.name
  (if c.cls.hasMap then [.defn (.typemap n) false] else []) ++
  (if c.cls.isRoot ∧ g.registry then [.defn (.registry n) false] else []) ++
  c.helper.map (fun m => .defn (.helper n m) false) ++
  (if c.static then [.defn (.metaT g.pfx n) false] else []) ++
  c.locals.map (fun l => .defn (.loc n l) true) ++
  usesOf g (.cls c.cls :: c.refs)

/-- The rest (cppclass.py:2026-2038): operators, iterator type, type structure. -/
def Item.after (c : Item) : List Ev :=
  let n := c.cls.info.name
  c.convs.map (fun v => .use v.sym) ++
  (if c.iter then [.use (.iter n), .defn (.iter n) false] else []) ++
  (c.locals.map (fun l => .use (.loc n l)) ++ c.helper.map (fun m => .use (.helper n m))) ++
  [.defn (.type n) false]

/-- What `_generate_import_from_module` defines (cppclass.py:1899, 1913, 1927). -/
def Item.importCode (g : Cfg) (c : Item) : List Ev :=
  let n := c.cls.info.name
  [.defn (.typePtr n) false] ++ (if c.cls.hasMap then [.defn (.typemapPtr n) false] else []) ++
  (if c.cls.isRoot ∧ g.registry then [.defn (.registryPtr n) false] else [])

/-- `CppClass.generate` (cppclass.py:1935-2038). -/
def genItem (g : Cfg) (st : St) (c : Item) : St :=
  let r := sinkFor g c.sect st
  if c.cls.info.imported then emit r.1 (c.importCode g) r.2
  else emit r.1 c.after (genConvs g r.1 c.convs (emit r.1 (c.before g) r.2))

/-- `Container.generate` (container.py:345-372, 513-597). -/
def genCont (g : Cfg) (st : St) (c : Cont) : St :=
  let r := sinkFor g c.sect st
  emit r.1 (c.convs.map (fun v => .use v.sym) ++ [.use (.type c.name), .defn (.conv .py2c c.ctype) false] ++
      c.locals.map (fun l => .use (.loc c.name l)) ++ [.defn (.type c.name) false, .defn (.iter c.name) false])
    (genConvs g r.1 c.convs
      (emit r.1 (c.locals.map (fun l => .defn (.loc c.name l) true) ++
        usesOf g (.cont c.name c.ctype :: c.refs)) r.2))

/-- `CppException.generate` (cppexception.py:139-146). -/
def genExc (g : Cfg) (st : St) (e : Exc) : St :=
  let r := sinkFor g e.sect st
  emit r.1 [.defn (.exc e.name) false] r.2

/-- What a class adds to the init function (cppclass.py:1888-1929; 1944-2006; wrapper_registry.py:87-101;
cppattribute.py:331-340; cppclass_container.py:137-147). -/
def Item.initUses (g : Cfg) (c : Item) : List Sym :=
  let n := c.cls.info.name
  [c.cls.info.typeSym] ++
  (if c.cls.hasMap then [c.cls.info.mapSym] else []) ++
  (if c.cls.isRoot ∧ g.registry then [c.cls.info.regSym] else []) ++
  (if c.cls.info.imported then [] else
    (match c.cls.narrowingRoot with | some r => [r.info.mapSym] | none => []) ++
    (match c.cls with | .root _ => [] | .sub _ p => [p.info.typeSym]) ++
    c.bases.map (·.info.typeSym) ++
    (if c.static then [.metaT g.pfx n] else []) ++
    (if c.iter then [.iter n] else []) ++
    (match c.outer with | some o => [o.info.typeSym] | none => []))

/-- What a container adds to it (container.py:351-369). -/
def Cont.initUses (c : Cont) : List Sym :=
  [.type c.name, .iter c.name] ++ (match c.outer with | some o => [o.info.typeSym] | none => [])

/-- What an exception adds to it (cppexception.py:149-167). -/
def Exc.initUses (e : Exc) : List Sym :=
  [.exc e.name] ++ (match e.parent with | some p => [.exc p] | none => []) ++
  (match e.outer with | some o => [o.info.typeSym] | none => [])

/-- The init function of a module: its table and definition, its types, its submodules (module.py:704-720,
755-816, 824-875). -/
def Body.initUses (g : Cfg) (b : Body) (subs : List Str) : List Sym :=
  [.moddef b.name, .table b.name] ++ b.ordered.flatMap (Item.initUses g) ++ b.conts.flatMap Cont.initUses ++
  b.excs.flatMap Exc.initUses ++ b.typedefs.map (·.info.typeSym) ++ b.enumOuter.map (·.info.typeSym) ++
  subs.map .init

/-- Flush `Module.header` to the header (module.py:819). -/
def flushHeader (st : St) : St := { emit .header (st.hdr.map .decl) st with hdr := [] }

/-- The end of `do_generate`: flush the header, then the module definition and the init function go to the main
file (module.py:818-875). -/
def finish (g : Cfg) (root : Bool) (b : Body) (subs : List Str) (st : St) : St :=
  emit .main ([.use (.table b.name), .defn (.moddef b.name) true, .defn (.init b.name) (!root)] ++
    (b.initUses g subs).map .use) (flushHeader st)

/-- The function table (module.py:745-753). -/
def genTable (g : Cfg) (b : Body) (st : St) : St :=
  emit .main (((b.tabled g).map (fun fn => .use (.fn b.name fn.name))) ++ [.defn (.table b.name) true]) st

/-- `do_generate` after the submodules (module.py:722-875). -/
def genBody (g : Cfg) (root : Bool) (b : Body) (subs : List Str) (st : St) : St :=
  finish g root b subs
    (b.excs.foldl (genExc g)
      (b.conts.foldl (genCont g)
        (b.ordered.foldl (genItem g)
          (genTable g b (b.fns.foldl (genFn g b.name) st)))))

mutual
/-- `do_generate`: the submodules first (module.py:700-702). -/
def genMod (g : Cfg) (root : Bool) : Mod → St → St
  | .mk b subs, st => genBody g root b (subs.map (·.body.name)) (genMods g subs st)
/-- All submodules. -/
def genMods (g : Cfg) : List Mod → St → St
  | [], st => st
  | m :: ms, st => genMods g ms (genMod g false m st)
end

/-- The state after the sink manager was made and the forward declarations were written (module.py:132-139,
681-695). -/
def initial (g : Cfg) (p : Mod) (once : List Sym) : St :=
  { out := (if g.multi then [(.main, .incl)] else []) ++
      (p.bodies.flatMap (Body.fwd g)).map (fun s => (.header, .decl s))
    once := once, hdr := [], inited := [] }

/-- `Module.generate` (module.py:910-929). -/
def generate (g : Cfg) (p : Mod) : PyRes St :=
  (declareAll [] (p.bodies.flatMap Body.contConvs)).map (fun once => genMod g true p (initial g p once))

/-! ## Translation units -/

/-- What is in a file, in order. -/
def evs (out : List (File × Ev)) (f : File) : List Ev := out.filterMap (fun x => if x.1 = f then some x.2 else none)

/-- The files that are compiled. -/
def St.files (st : St) : List File := .main :: st.inited.map .sect

/-- What the compiler sees: the header is put where it is included; a single file begins with it
(`_MonolithicSinkManager.close`, module.py:177-179). -/
def St.unit (g : Cfg) (st : St) (f : File) : List Ev :=
  if g.multi then (evs st.out f).flatMap (fun e => if e = .incl then evs st.out .header else [e])
  else evs st.out .header ++ evs st.out f

/-- All translation units. -/
def St.units (g : Cfg) (st : St) : List (List Ev) := st.files.map (st.unit g)

end Verif.Sections
