import Verif.PyDict
import Verif.Utils.Model

/-!
# Modules and namespaces  (pybindgen/module.py)

One tree of modules.  Modules are numbered in creation order, the root is 0.
-/
namespace Verif.Module
open Verif

/-- `s.split('::')`. -/
def splitColons : Str → List Str
  | [] => [[]]
  | ':' :: ':' :: r => [] :: splitColons r
  | c :: r =>
    match splitColons r with
    | [] => [[c]]
    | l :: ls => (c :: l) :: ls

/-- A module's own fields, module.py:223-271.  `W` are type wrappers, `F` functions. -/
structure Mod (W F : Type) where
  name : Str
  parent : Option Nat
  /-- `cpp_namespace`; `None` and the empty string behave alike (module.py:658, 669) -/
  ns : Str
  /-- the dictionary base class of `ModuleBase` -/
  types : Dict Str W
  /-- `functions`, an `OrderedDict` of overload sets -/
  functions : List (Str × List F)
  /-- `submodules` -/
  subs : List Nat
  /-- the prefix given to `set_strip_prefix`, module.py:259 -/
  stripPrefix : Str

/-- A module tree; what submodules share with the root by reference (module.py:260-271) is kept
here once. -/
structure World (W F : Type) where
  mods : List (Mod W F)
  oneTime : List Str
  includes : List Str
  /-- `_current_section` of the root -/
  section_ : Str

variable {W F : Type}

def mainSection : Str := "__main__".toList

/-- `Module(name, cpp_namespace=ns)`, module.py:213-271. -/
def newRoot (name ns : Str) : World W F :=
  { mods := [{ name := name, parent := none, ns := ns, types := [], functions := [], subs := [],
               stripPrefix := name ++ "_".toList }],
    oneTime := [], includes := [], section_ := mainSection }

/-- Replace module `i`. -/
def World.upd (w : World W F) (i : Nat) (f : Mod W F → Mod W F) : World W F :=
  { w with mods := w.mods.modify i f }

/-- `SubModule(name, parent, cpp_namespace=ns)`, module.py:223-271, 1017.  The new module is appended
to the parent's `submodules` (237). -/
def newSub (w : World W F) (parent : Nat) (name ns : Str) : World W F × Nat :=
  let id := w.mods.length
  let w := w.upd parent (fun m => { m with subs := m.subs ++ [id] })
  ({ w with mods := w.mods ++ [{ name := name, parent := some parent, ns := ns, types := [],
                                 functions := [], subs := [], stripPrefix := name ++ "_".toList }] }, id)

/-- `submodule.name == submodule_name`, module.py:328. -/
def hasName (w : World W F) (name : Str) (i : Nat) : Bool :=
  match w.mods[i]? with
  | some s => s.name = name
  | none => false

/-- `get_submodule`, module.py:325-330; `none` is the `ValueError`. -/
def getSubmodule (w : World W F) (m : Nat) (name : Str) : Option Nat :=
  match w.mods[m]? with
  | none => none
  | some md => md.subs.find? (hasName w name)

/-- `add_cpp_namespace`, module.py:513-531. -/
def addNamespace (w : World W F) (m : Nat) (name : Str) : World W F × Nat :=
  match getSubmodule w m name with
  | some i => (w, i)
  | none => newSub w m name name

/-- The chain of a module and its parents, nearest first: the `while parent is not None` loops of
module.py:335, 441, 651, 668.  `fuel` bounds the walk; parents are older than their submodules, so
`i + 1` steps always suffice. -/
def chainAux (w : World W F) : Nat → Nat → List Nat
  | 0, _ => []
  | fuel + 1, i =>
    match w.mods[i]? with
    | none => []
    | some m =>
      match m.parent with
      | none => [i]
      | some p => i :: chainAux w fuel p

def chain (w : World W F) (i : Nat) : List Nat := chainAux w (i + 1) i

/-- `get_root`, module.py:332-337. -/
def getRoot (w : World W F) (i : Nat) : Option Nat := (chain w i).getLast?

/-- `get_module_path`, module.py:647-654. -/
def modulePath (w : World W F) (i : Nat) : List Str :=
  ((chain w i).reverse.filterMap (fun j => w.mods[j]?)).map (·.name)

/-- The components one module contributes, module.py:658-666 and 669-673. -/
def nsComponents (ns : Str) : List Str :=
  if ns = [] ∨ ns = "::".toList then []
  else match splitColons ns with
    | [] :: r => r
    | l => l

/-- `get_namespace_path`, module.py:656-675. -/
def namespacePath (w : World W F) (i : Nat) : List Str :=
  ((chain w i).reverse.filterMap (fun j => w.mods[j]?)).flatMap (fun m => nsComponents m.ns)

/-- `prefix`, module.py:313-321 (computed when the name is set, from the parent's prefix). -/
def modPrefix (w : World W F) (i : Nat) : Str :=
  match (chain w i).reverse.filterMap (fun j => w.mods[j]?) with
  | [] => []
  | r :: ms => Utils.replace1 '.' "_".toList r.name ++ ms.flatMap (fun m => '_' :: m.name)

/-- `begin_section`, module.py:277-294. -/
def beginSection (w : World W F) (m : Nat) (name : Str) : PyRes (World W F) :=
  if w.section_ ≠ mainSection then .error .valueError
  else if name = mainSection then .error .valueError
  else if (w.mods[m]?.bind (·.parent)).isSome then .error .assertionError
  else .ok { w with section_ := name }

/-- `end_section`, module.py:296-308. -/
def endSection (w : World W F) (m : Nat) (name : Str) : PyRes (World W F) :=
  if (w.mods[m]?.bind (·.parent)).isSome then .error .assertionError
  else if w.section_ ≠ name then .error .valueError
  else .ok { w with section_ := mainSection }

/-- The assertions of `add_include`, module.py:370-371. -/
def includeOk (s : Str) : Bool :=
  (s.head? == some '"' || s.head? == some '<') && (s.getLast? == some '"' || s.getLast? == some '>')

/-- `add_include`, module.py:362-373. -/
def addInclude (w : World W F) (s : Str) : PyRes (World W F) :=
  if includeOk s then
    if w.includes.contains s then .ok w else .ok { w with includes := w.includes ++ [s] }
  else .error .assertionError

/-- `declare_one_time_definition`, module.py:600-623. -/
def declareOneTime (w : World W F) (name : Str) : PyRes (World W F) :=
  if w.oneTime.contains name then .error .keyError
  else .ok { w with oneTime := name :: w.oneTime }

/-- `register_type`, module.py:427-443; empty names count as absent. -/
def registerType (w : World W F) (m : Nat) (name full : Str) (t : W) : World W F :=
  let w' := if name = [] then w else w.upd m (fun md => { md with types := md.types.set name t })
  if full = [] then w'
  else (chain w' m).foldl (fun w j => w.upd j (fun md => { md with types := md.types.set full t })) w'

/-- `m[key]`, dictionary access on a module. -/
def lookupType (w : World W F) (m : Nat) (key : Str) : Option W :=
  (w.mods[m]?).bind (fun md => md.types.get key)

/-- `strip_prefix`, module.py:344-350. -/
def stripPrefix (pre name : Str) : Str := if pre.isPrefixOf name then name.drop pre.length else name

/-- `overload = self.functions[name]`, created when missing; then `overload.add(wrapper)`,
module.py:381-388. -/
def addOverload (fs : List (Str × List F)) (name : Str) (f : F) : List (Str × List F) :=
  match fs with
  | [] => [(name, [f])]
  | (n, l) :: r => if n = name then (n, l ++ [f]) :: r else (n, l) :: addOverload r name f

/-- The Python name of a function, module.py:377-380. -/
def pyFunctionName (strip : Str) (custom : Option Str) (cName : Str) (targs : List Str) : Str :=
  match custom with
  | some n => n
  | none => Utils.getMangledName (stripPrefix strip cName) targs

/-- `_add_function_obj`, module.py:375-388; the function also remembers the current section (387). -/
def addFunction (w : World W F) (m : Nat) (custom : Option Str) (cName : Str) (targs : List Str)
    (f : Str → F) : World W F :=
  w.upd m fun md => { md with
    functions := addOverload md.functions (pyFunctionName md.stripPrefix custom cName targs) (f w.section_) }

/-- Calls on a tree of modules. -/
inductive Op (W F : Type) where
  | newSub (m : Nat) (name ns : Str)
  | addNamespace (m : Nat) (name : Str)
  | beginSection (m : Nat) (name : Str)
  | endSection (m : Nat) (name : Str)
  | addInclude (m : Nat) (s : Str)
  | declareOneTime (m : Nat) (name : Str)
  | registerType (m : Nat) (name full : Str) (t : W)
  | addFunction (m : Nat) (custom : Option Str) (cName : Str) (targs : List Str) (f : Str → F)

/-- The module a call is made on. -/
def Op.target : Op W F → Nat
  | .newSub m .. => m
  | .addNamespace m _ => m
  | .beginSection m _ => m
  | .endSection m _ => m
  | .addInclude m _ => m
  | .declareOneTime m _ => m
  | .registerType m .. => m
  | .addFunction m .. => m

/-- What a call raises, if anything, and the new state.  A call on a module that does not exist
can not be written in Python; it is `nameError` here and changes nothing. -/
def step (w : World W F) (op : Op W F) : Option PyErr × World W F :=
  if op.target < w.mods.length then
    match op with
    | .newSub m n ns => (none, (newSub w m n ns).1)
    | .addNamespace m n => (none, (addNamespace w m n).1)
    | .beginSection m n => match beginSection w m n with
      | .ok w' => (none, w') | .error e => (some e, w)
    | .endSection m n => match endSection w m n with
      | .ok w' => (none, w') | .error e => (some e, w)
    | .addInclude _ s => match addInclude w s with
      | .ok w' => (none, w') | .error e => (some e, w)
    | .declareOneTime _ n => match declareOneTime w n with
      | .ok w' => (none, w') | .error e => (some e, w)
    | .registerType m n f t => (none, registerType w m n f t)
    | .addFunction m c n ts f => (none, addFunction w m c n ts f)
  else (some .nameError, w)

/-- The state after a history (calls that raise leave it as it was). -/
def after (w : World W F) (h : List (Op W F)) : World W F := h.foldl (fun w op => (step w op).2) w

end Verif.Module
