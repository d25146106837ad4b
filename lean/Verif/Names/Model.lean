import Verif.Module.Props

/-!
# Names of generated things

C++ names and C symbols of classes (pybindgen/cppclass.py:1160-1214), exceptions
(pybindgen/cppexception.py:74-127), functions (pybindgen/function.py:180-210) and enums
(pybindgen/enum.py:63-78, 139-180).
-/
namespace Verif.Names
open Verif

def dcolon : Str := "::".toList

/-- `cpp_namespace_prefix` of a module with this namespace path, module.py:245-248. -/
def namespacePrefix (path : List Str) : Str :=
  pyJoin dcolon (if path.head? = some dcolon then path.tail else path)

/-- `name`, or `ns::name`, cppclass.py:1168-1174 (the same in cppexception.py:82-88 and
enum.py:71-77); `pre` is `cpp_namespace_prefix`. -/
def inNamespace (pre name : Str) : Str :=
  if pre = [] then name
  else if pre = dcolon then dcolon ++ name
  else pre ++ dcolon ++ name

/-- `"< %s >" % ', '.join(template_parameters)`, cppclass.py:1196; nothing without parameters. -/
def templateSuffix (targs : List Str) : Str :=
  if targs = [] then [] else "< ".toList ++ pyJoin ", ".toList targs ++ " >".toList

/-- A class as far as its name is concerned: at namespace level, in a module with namespace path
`path`, with `foreign_cpp_namespace` (empty: none); or inside another class (where a
foreign namespace is refused, cppclass.py:1176). -/
inductive ClassDecl where
  | top (path : List Str) (foreign name : Str) (targs : List Str)
  | nested (outer : ClassDecl) (name : Str) (targs : List Str)
  deriving Repr, DecidableEq

def ClassDecl.name : ClassDecl → Str
  | .top _ _ n _ => n
  | .nested _ n _ => n

def ClassDecl.targs : ClassDecl → List Str
  | .top _ _ _ t => t
  | .nested _ _ t => t

/-- `full_name`, cppclass.py:1164-1177 and 1195-1196. -/
def ClassDecl.fullName : ClassDecl → Str
  | .top path foreign name targs =>
    (if foreign ≠ [] then foreign ++ dcolon ++ name else inNamespace (namespacePrefix path) name)
      ++ templateSuffix targs
  | .nested outer name targs => pyJoin dcolon [outer.fullName, name] ++ templateSuffix targs

/-- `full_name` before the template parameters are appended, cppclass.py:1164-1177; this is what is
mangled at 1193. -/
def ClassDecl.bareFullName : ClassDecl → Str
  | .top path foreign name _ =>
    if foreign ≠ [] then foreign ++ dcolon ++ name else inNamespace (namespacePrefix path) name
  | .nested outer name _ => pyJoin dcolon [outer.fullName, name]

/-- `make_upper`, cppclass.py:1179-1183.  `str.islower`/`upper` are modelled for ASCII letters. -/
def makeUpper : Str → Str
  | [] => []
  | c :: s => if c.isLower then c.toUpper :: s else c :: s

/-- `flatten`, cppclass.py:1188-1190. -/
def flatten (name : Str) : Str :=
  ((Module.splitColons name).map (fun s => makeUpper (Utils.mangleName s))).flatten

/-- The template part of the mangled names, cppclass.py:1197-1199. -/
def mangledTemplate (targs : List Str) : Str :=
  if targs = [] then [] else "__".toList ++ pyJoin "_".toList (targs.map flatten)

/-- `mangled_full_name`, cppclass.py:1193, 1199. -/
def ClassDecl.mangledFullName (c : ClassDecl) : Str := flatten c.bareFullName ++ mangledTemplate c.targs

/-- `_pystruct`, cppclass.py:1201; `pre` is `settings.name_prefix.capitalize()`. -/
def ClassDecl.pystruct (pre : Str) (c : ClassDecl) : Str := "Py".toList ++ pre ++ c.mangledFullName

/-- `metaclass_name`, cppclass.py:1202. -/
def ClassDecl.metaclassName (c : ClassDecl) : Str := c.mangledFullName ++ "Meta".toList

/-- `pytypestruct`, cppclass.py:1203. -/
def ClassDecl.pytypestruct (pre : Str) (c : ClassDecl) : Str :=
  "Py".toList ++ pre ++ c.mangledFullName ++ "_Type".toList

/-- The C++ name called for a function, function.py:182-193 and 199-212. -/
def functionName (path : List Str) (foreign name : Str) (targs : List Str) : Str :=
  (if foreign ≠ [] then foreign ++ dcolon
   else if namespacePrefix path ≠ [] then namespacePrefix path ++ dcolon
   else []) ++ name ++ templateSuffix targs

/-! ## Enums -/

/-- An enumerator: a name, or a name with a C expression (enum.py:153-155). -/
inductive EnumVal where
  | plain (name : Str)
  | expr (name value : Str)
  deriving Repr, DecidableEq

/-- `Enum`, enum.py:22-57. `cppNamespace` empty: none. -/
structure EnumDecl where
  name : Str
  values : List EnumVal
  valuesPrefix : Str := []
  cppNamespace : Str := []
  outer : Option ClassDecl := none
  path : List Str
  imported : Bool := false

/-- `full_name`, enum.py:70-78. -/
def EnumDecl.fullName (e : EnumDecl) : Str :=
  match e.outer with
  | none => inNamespace (namespacePrefix e.path) e.name
  | some c => pyJoin dcolon [c.fullName, e.name]

/-- One statement of the module's init function that defines a constant: on the module, or in the
dictionary of the type object of a class. -/
inductive ConstStmt where
  | onModule (name expr : Str)
  | onClass (cls : ClassDecl) (name expr : Str)
  deriving Repr, DecidableEq

/-- `Enum.generate`, enum.py:139-180. -/
def EnumDecl.generate (e : EnumDecl) : List ConstStmt :=
  if e.imported then []
  else match e.outer with
    | none =>
      let ns := (if namespacePrefix e.path = [] then [] else [namespacePrefix e.path]) ++
        (if e.cppNamespace = [] then [] else [e.cppNamespace])
      e.values.map fun v =>
        match v with
        | .expr n x => .onModule n x
        | .plain n => .onModule n (pyJoin dcolon (ns ++ [e.valuesPrefix ++ n]))
    | some c => e.values.map fun v =>
        match v with
        | .expr n x => .onClass c n x
        | .plain n => .onClass c n (c.fullName ++ dcolon ++ n)

/-! ## Exceptions -/

/-- `CppException`, cppexception.py:7-55 (without what is not about names). -/
structure ExcDecl where
  name : Str
  path : List Str
  foreign : Str := []
  outer : Option ClassDecl := none
  customName : Option Str := none
  isStandard : Bool := false

/-- `full_name`, cppexception.py:78-91. -/
def ExcDecl.fullName (e : ExcDecl) : Str :=
  match e.outer with
  | none => if e.foreign ≠ [] then e.foreign ++ dcolon ++ e.name else inNamespace (namespacePrefix e.path) e.name
  | some c => pyJoin dcolon [c.fullName, e.name]

/-- `python_name`, cppexception.py:112-118. -/
def ExcDecl.pythonName (e : ExcDecl) : Str := e.customName.getD e.name

/-- `pytypestruct`, cppexception.py:105-110. -/
def ExcDecl.pytypestruct (pre : Str) (e : ExcDecl) : Str :=
  if e.isStandard then "PyExc_".toList ++ e.pythonName
  else "Py".toList ++ pre ++ Utils.mangleName e.fullName ++ "_Type".toList

end Verif.Names
