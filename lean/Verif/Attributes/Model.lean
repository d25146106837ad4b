import Verif.Wrapper.Reverse
import Verif.Utils.Model

/-!
# Attributes of wrapped classes

`add_instance_attribute`, `add_custom_instance_attribute`, `add_static_attribute`
(pybindgen/cppclass.py:1689-1784), the getters, setters and getset tables of
pybindgen/cppattribute.py and pybindgen/cppcustomattribute.py, and their place in the generation of a
class (cppclass.py:1959-1961).

A getter and a setter share the `ReturnValue` object the attribute was declared with, and write its
`value` and `REQUIRES_ASSIGNMENT_CONSTRUCTOR`; so these objects live in a heap, and an attribute
refers to its object by a number.  Type specifications given as text stand for objects of their own.
Not modelled: `stack_where_defined`, the deprecated order of arguments (cppclass.py:1697-1700,
1731-1734, 1765-1768), a type specification whose evaluation is skipped (the declaration then has no
effect, 1702-1705), the text of the function heads and the layout of the table's text.
-/
namespace Verif.Attr
open Verif Verif.Wrap Verif.Flow Verif.Params Verif.DeclScope Verif.Utils

/-- A return value class as attributes use it: its `ctype`, and its conversions with the `value` and
`REQUIRES_ASSIGNMENT_CONSTRUCTOR` of the object. -/
structure VType where
  ctype : Str
  toPy : Str → Gen1
  toC : Str → Bool → Gen1

/-- A `ReturnValue` object, base.py:1138, 1181. -/
structure Obj where
  type : VType
  value : Str := "retval".toList
  needsCtor : Bool := false

abbrev Heap := Nat → Obj

def Heap.put (h : Heap) (i : Nat) (o : Obj) : Heap := fun j => if j = i then o else h j

/-- How an attribute is accessed: the three methods declaring attributes and their arguments. -/
inductive Access where
  /-- `add_instance_attribute(getter=, setter=)` -/
  | member (getter setter : Option Str)
  /-- `add_custom_instance_attribute(getter, setter=, getter_template_parameters=,
  setter_template_parameters=)` -/
  | custom (getter : Str) (getterArgs : List Str) (setter : Option Str) (setterArgs : List Str)
  /-- `add_static_attribute` -/
  | static
  deriving DecidableEq

/-- An attribute declaration; `rv` is the `ReturnValue` object. -/
structure Decl where
  name : Str
  rv : Nat
  access : Access
  isConst : Bool := false
  customName : Option Str := none

/-- The class: `pystruct` and `full_name`. -/
structure Cls where
  pystruct : Str
  fullName : Str

/-- `"%s<%s" % (f, args[0])`, `", %s " % x` for the others, `">"`: cppcustomattribute.py:27-31 and
109-113; nothing without arguments. -/
def templated (f : Str) : List Str → Str
  | [] => f
  | a :: as => f ++ "<".toList ++ a ++ as.flatMap (fun x => ", ".toList ++ x ++ " ".toList) ++ ">".toList

/-- `*((%s *)self)->obj`. -/
def selfObj (c : Cls) : Str := "*((".toList ++ c.pystruct ++ " *)self)->obj".toList

/-- The `value` given to the `ReturnValue` by the getter's constructor: cppattribute.py:59-62, 98,
cppcustomattribute.py:24-31. -/
def getterValue (c : Cls) (d : Decl) : Str :=
  match d.access with
  | .member none _ => "self->obj->".toList ++ d.name
  | .member (some g) _ => "self->obj->".toList ++ g ++ "()".toList
  | .custom g args _ _ => templated g args ++ "(".toList ++ selfObj c ++ ")".toList
  | .static => c.fullName ++ "::".toList ++ d.name

/-- The setter method or function given, if any. -/
def Access.setter : Access → Option Str
  | .member _ s => s
  | .custom _ _ s _ => s
  | .static => none

/-- Heap and the two `PyGetSetDef.attributes` lists. -/
structure St where
  heap : Heap
  inst : List Decl := []
  stat : List Decl := []

/-- Declaring an attribute: cppclass.py:1707-1715, 1741-1752, 1775-1784, with the constructors of
getter and setter (cppattribute.py:52-62, 92-98, 133-139, 206-213; cppcustomattribute.py:17-31,
63-70) and `add_attribute` (358-367).  The getter is constructed before the assertion on `setter`. -/
def add (c : Cls) (s : St) (d : Decl) : St × Option PyErr :=
  let h := s.heap.put d.rv { s.heap d.rv with value := getterValue c d }
  match d.access with
  | .static =>
    let h := if d.isConst then h else h.put d.rv { h d.rv with value := getterValue c d, needsCtor := false }
    ({ s with heap := h, stat := s.stat ++ [d] }, none)
  | a =>
    if d.isConst ∧ a.setter ≠ none then ({ s with heap := h }, some .assertionError)
    else ({ s with heap := h, inst := s.inst ++ [d] }, none)

/-- A sequence of declarations; the caller catches whatever is raised. -/
def addAll (c : Cls) (s : St) (ds : List Decl) : St := ds.foldl (fun s d => (add c s d).1) s

/-- `c_function_name` of getters and setters: cppattribute.py:57-58, 96-97, 138-139, 210-211,
cppcustomattribute.py:22-23, 69-70. -/
def getterName (c : Cls) (d : Decl) : Str := "_wrap_".toList ++ c.pystruct ++ "__get_".toList ++ d.name
def setterName (c : Cls) (d : Decl) : Str := "_wrap_".toList ++ c.pystruct ++ "__set_".toList ++ d.name

/-- The body of a getter: `ForwardWrapperBase.__init__` with `no_c_retval` and `generate_body` with a
`generate_call` that does nothing, cppattribute.py:64-73, 100-109; cppcustomattribute.py:33-42. -/
def getterBody (h : Heap) (d : Decl) : PyRes W := do
  let w ← initState true none {}
  generateBody { call := .ok, ret := some ((h d.rv).type.toPy (h d.rv).value) } w

/-- The first lines of `generate` in the setters, cppattribute.py:146-149, 220-223. -/
def setterStart : Gen1 := fun w => do
  let (w, _) ← w.declare "PyObject*".toList "py_retval".toList none none
  let w := w.op (.write 0 "py_retval = Py_BuildValue((char *) \"(O)\", value);".toList)
  pure (w.op (.add 0 "Py_DECREF(py_retval);".toList))

/-- Where the value goes, cppattribute.py:151-161, cppcustomattribute.py:82-92; the static setter
keeps what is in the object. -/
def setterTarget (d : Decl) (o : Obj) (w : W) : PyRes (W × Obj) :=
  match d.access with
  | .static => .ok (w, o)
  | a =>
    if a.setter ≠ none then
      if !o.needsCtor then
        match w.declare o.type.ctype "tmp_value".toList none none with
        | .error e => .error e
        | .ok (w, v) => .ok (w, { o with value := v })
      else .ok (w.reserve "tmp_value".toList, { o with value := (w.decls.reserve "tmp_value".toList).2 })
    else .ok (w, { o with value := "self->obj->".toList ++ d.name, needsCtor := false })

/-- The call of the setter, cppattribute.py:175, cppcustomattribute.py:106-113. -/
def setterCall (c : Cls) (d : Decl) (v : Str) : Option Str :=
  match d.access with
  | .member _ (some s) => some ("self->obj->".toList ++ s ++ "(".toList ++ v ++ ");".toList)
  | .custom _ _ (some s) args =>
    some (templated s args ++ "(".toList ++ selfObj c ++ ", ".toList ++ v ++ ");".toList)
  | _ => none

/-- The rest of `generate`, cppattribute.py:163-179, 224-234, cppcustomattribute.py:94-118.  The
assertion at 167 cannot fail, the first parameter being the quoted format. -/
def setterEnd (c : Cls) (d : Decl) (o : Obj) : Gen1 := fun w => do
  let w ← o.type.toC o.value o.needsCtor w
  let ps ← getParameters w.parse
  let w := w.op (.check 0 (callText "!PyArg_ParseTuple" ("py_retval".toList :: castFirst ps)) none)
  let w := match setterCall c d o.value with
    | some t => w.op (.write 1 t)
    | none => w
  pure ((w.op (.cleanup 1)).op (.ret 1 "return 0;".toList))

/-- A setter: what it leaves in the heap, and its body. -/
def setterBody (c : Cls) (h : Heap) (d : Decl) : Heap × PyRes W :=
  match setterStart {} with
  | .error e => (h, .error e)
  | .ok w =>
    match setterTarget d (h d.rv) w with
    | .error e => (h, .error e)
    | .ok (w, o) => (h.put d.rv o, setterEnd c d o w)

/-- A function written to the output, and a row of the table (`none` is `NULL`). -/
structure Fn where
  name : Str
  body : W

structure Row where
  pyName : Str
  getter : Option Str
  setter : Option Str
  deriving DecidableEq

/-- `custom_name or name`, cppattribute.py:407. -/
def pyName (d : Decl) : Str :=
  match d.customName with
  | some (x :: xs) => x :: xs
  | _ => d.name

/-- `call_with_error_handling(...)` with `SkipWrapper` caught, cppattribute.py:383-388, 393-398: the
function written, if any. -/
def attempt {X : Type} (handler : Handler X) (x : X) (name : Str) (r : PyRes W) : PyRes (List Fn) :=
  match callWithErrorHandling handler defaultHandled x r with
  | .ok w => .ok [⟨name, w⟩]
  | .error .skipWrapper => .ok []
  | .error e => .error e

/-- The setter of an attribute, if it is to have one. -/
def genSetter (handler : Handler (Bool × Decl)) (c : Cls) (h : Heap) (d : Decl) : Heap × PyRes (List Fn) :=
  if d.isConst then (h, .ok [])
  else ((setterBody c h d).1, attempt handler (true, d) (setterName c d) (setterBody c h d).2)

/-- The state of `PyGetSetDef.generate`: heap, functions written, rows with their attribute names. -/
structure Out where
  heap : Heap
  fns : List Fn := []
  rows : List (Str × Row) := []

/-- One round of the loop, cppattribute.py:378-400. -/
def genOne (handler : Handler (Bool × Decl)) (c : Cls) (o : Out) (d : Decl) : PyRes Out :=
  match attempt handler (false, d) (getterName c d) (getterBody o.heap d) with
  | .error e => .error e
  | .ok g =>
    match (genSetter handler c o.heap d).2 with
    | .error e => .error e
    | .ok s =>
      if d.name ∈ o.rows.map Prod.fst then .error .assertionError
      else .ok { heap := (genSetter handler c o.heap d).1
                 fns := o.fns ++ g ++ s
                 rows := o.rows ++ [(d.name, ⟨pyName d, g.head?.map Fn.name, s.head?.map Fn.name⟩)] }

/-- The loop. -/
def genLoop (handler : Handler (Bool × Decl)) (c : Cls) : Out → List Decl → PyRes Out
  | o, [] => .ok o
  | o, d :: ds =>
    match genOne handler c o d with
    | .error e => .error e
    | .ok o => genLoop handler c o ds

/-- `PyGetSetDef.generate`, cppattribute.py:369-428: the heap, the functions written, and the table;
`none` is the answer `'0'`. -/
def genTable (handler : Handler (Bool × Decl)) (c : Cls) (h : Heap) (ds : List Decl) :
    PyRes (Heap × List Fn × Option (List Row)) :=
  match genLoop handler c { heap := h } ds with
  | .error e => .error e
  | .ok o => .ok (o.heap, o.fns, if ds = [] then none else some (o.rows.map Prod.snd))

/-- The attribute part of `CppClass.generate`, cppclass.py:1959-1961: instance attributes first. -/
def genClass (handler : Handler (Bool × Decl)) (c : Cls) (s : St) :
    PyRes (List Fn × Option (List Row) × Option (List Row)) :=
  match genTable handler c s.heap s.inst with
  | .error e => .error e
  | .ok (h, f1, t1) =>
    match genTable handler c h s.stat with
    | .error e => .error e
    | .ok (_, f2, t2) => .ok (f1 ++ f2, t1, t2)

/-! ## The types used in the theorems -/

/-- Types whose value is parsed in place, e.g. `IntReturn` (inttype.py:122-126): see `rReturn`. -/
def inPlace (ctype fmt : Str) (toPy : Str → Gen1) : VType :=
  { ctype, toPy
    toC := fun v _ w => .ok (w.addParse ⟨fmt, ['&' :: v], none, false⟩ true) }

/-- Types whose value is parsed through a variable, possibly checked, and then assigned, e.g.
`UInt16Return` (inttype.py:256-265): see `rReturnVia`. -/
def viaVar (ctype type base fmt : Str) (chk : Option (Str → Str)) (conv : Str → Str) (toPy : Str → Gen1) :
    VType :=
  { ctype, toPy
    toC := fun v _ w => do
      let (w, x) ← w.declare type base none none
      let w := w.addParse ⟨fmt, ['&' :: x], none, false⟩ true
      let w := match chk with
        | some f => w.op (.check 1 (f x) (some "PyErr_SetString(PyExc_ValueError, \"Out of range\");".toList))
        | none => w
      pure (w.op (.write 1 (v ++ " = ".toList ++ conv x ++ ";".toList))) }

end Verif.Attr
