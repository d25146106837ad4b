import Verif.Wrapper.Proxy
import Verif.Wrapper.Values

/-!
# Strings exchanged with Python overrides

The reverse direction of the string handlers (pybindgen/typehandlers/stringtype.py): what
`convert_c_to_python` of the parameters and `convert_python_to_c` of the return value make a virtual
method proxy do, as text, and what that text does to the strings, the object returned by Python and the
memory allocated by `PyArg_ParseTuple`.
-/
namespace Verif.Exchange
open Verif Verif.Flow Verif.Params Verif.DeclScope Verif.Wrap

/-! ## The handlers -/

/-- A type handler of reverse wrappers, with holes for the names `declare_variable` returns: variables,
statements written to `before_call`, format unit and expressions passed to Python, format unit and addresses
for what comes back, statements written to `after_call`. -/
structure RevD where
  /-- `self.value` -/
  name : Str
  /-- the name handed to `parse_params.add_parameter` -/
  pname : Option Str := none
  vars : List DVar := []
  before : List Tmpl := []
  pass : Option (Str × List Tmpl) := none
  back : Option (Str × List Tmpl) := none
  /-- `prepend=True` -/
  front : Bool := false
  after : List Tmpl := []
  deriving DecidableEq, Repr

def RevD.builds (d : RevD) (vs : List Str) : List BItem :=
  d.pass.toList.map (fun o => ⟨o.1, o.2.map (Wrap.render vs), none⟩)

def RevD.items (d : RevD) (vs : List Str) : List PItem :=
  d.back.toList.map (fun o => ⟨o.1, o.2.map (Wrap.render vs), d.pname, false⟩)

/-- The conversion method; the order of calls on different objects (declarations, blocks, parser, builder)
is not kept. -/
def RevD.convert (d : RevD) : Gen1 := fun w => do
  let (w, vs) ← declareAll d.vars w
  pure { w with build := w.build ++ d.builds vs
                parse := if d.front then d.items vs ++ w.parse else w.parse ++ d.items vs
                ops := w.ops ++ (d.before.map (fun t => .write 0 (Wrap.render vs t)) ++
                  d.after.map (fun t => .write 1 (Wrap.render vs t))) }

/-- `const char *name_ptr` -/
def ptrVar (name : Str) : DVar := { ctype := "const char *".toList, base := name ++ "_ptr".toList }
/-- `Py_ssize_t name_len` -/
def lenVar (name : Str) : DVar := { ctype := "Py_ssize_t".toList, base := name ++ "_len".toList }

/-- `name_ptr = (name).c_str(); name_len = (name).size();` -/
def refBefore (name : Str) (size : String) : List Tmpl :=
  [[.var 0, tx " = (", .text name, tx ").c_str();"], [.var 1, tx " = (", .text name, tx size]]

/-- `name_ptr = name->c_str(); name_len = name->size();` -/
def ptrBefore (name : Str) (size : String) : List Tmpl :=
  [[.var 0, tx " = ", .text name, tx "->c_str();"], [.var 1, tx " = ", .text name, tx size]]

def sharp : Str := "s#".toList

/-- What `std::string` output parameters parse, stringtype.py:107, 165. -/
def stdBack : Str × List Tmpl := (sharp, [[tx "&", .var 0], [tx "&", .var 1]])
/-- What `Glib::ustring` output parameters parse, stringtype.py:316, 358. -/
def glibBack : Str × List Tmpl := ("et".toList, [[tx "\"utf-8\""], [tx "&", .var 0]])

/-- The string parameter classes and their options. -/
inductive PK where
  | cstr
  | char
  | std
  | stdRef (isIn isOut : Bool)
  | stdPtr (isIn isOut transfer : Bool)
  | glib
  | glibRef (isIn isOut : Bool)
  | glibPtr (isIn isOut transfer : Bool)
  deriving DecidableEq, Repr

/-- `convert_c_to_python` of `CStringParam` (stringtype.py:16-18), `CharParam` (37-39), `StdStringParam`
(56-64), `StdStringRefParam` (88-109), `StdStringPtrParam` (148-168), `GlibStringParam` (270-278),
`GlibStringRefParam` (300-318), `GlibStringPtrParam` (342-361). -/
def PK.desc (name : Str) : PK → RevD
  | .cstr => { name, pname := some name, pass := some ("s".toList, [[.text name]]) }
  | .char => { name, pname := some name, pass := some ("c".toList, [[.text name]]) }
  | .std =>
    { name, pname := some name, vars := [ptrVar name, lenVar name], before := refBefore name ").size();"
      pass := some (sharp, [[.var 0], [.var 1]]) }
  | .stdRef i o =>
    { name, pname := some name, vars := if i || o then [ptrVar name, lenVar name] else []
      before := if i then refBefore name ").size();" else []
      pass := if i then some (sharp, [[.var 0], [.var 1]]) else none
      back := if o then some stdBack else none
      after := if o then [[.text name, tx " = std::string(", .var 0, tx ", ", .var 1, tx ");"]] else [] }
  | .stdPtr i o t =>
    { name, pname := some name, vars := if i || o then [ptrVar name, lenVar name] else []
      before := if i then ptrBefore name "->size();" else []
      pass := if i then some (sharp, [[.var 0], [.var 1]]) else none
      back := if o then some stdBack else none
      after := (if o then [[tx "*", .text name, tx " = std::string(", .var 0, tx ", ", .var 1, tx ");"]] else []) ++
        (if t then [[tx "delete ", .text name, tx ";"]] else []) }
  | .glib =>
    { name, pname := some name, vars := [ptrVar name, lenVar name], before := refBefore name ").bytes();"
      pass := some (sharp, [[.var 0], [.var 1]]) }
  | .glibRef i o =>
    { name, pname := some name
      vars := if i then [ptrVar name, lenVar name] else if o then [ptrVar name] else []
      before := if i then refBefore name ").bytes();" else []
      pass := if i then some (sharp, [[.var 0], [.var 1]]) else none
      back := if o then some glibBack else none
      after := if o then [[.text name, tx " = Glib::ustring(", .var 0, tx ");"]] else [] }
  | .glibPtr i o t =>
    { name, pname := some name
      vars := if i then [ptrVar name, lenVar name] else if o then [ptrVar name] else []
      before := if i then ptrBefore name "->bytes();" else []
      pass := if i then some (sharp, [[.var 0], [.var 1]]) else none
      back := if o then some glibBack else none
      after := (if o then [[tx "*", .text name, tx " = Glib::ustring(", .var 0, tx ");"]] else []) ++
        (if t then [[tx "delete ", .text name, tx ";"]] else []) }

/-- The return classes. -/
inductive RK where
  | void
  | char
  | cstr
  | std
  | glib
  deriving DecidableEq, Repr

def retval : Str := "retval".toList

/-- `convert_python_to_c` of `VoidReturn` (voidtype.py), `CharReturn` (stringtype.py:201-202), `CStringReturn`
(219-220), `StdStringReturn` (236-241), `GlibStringReturn` (393-397). -/
def RK.desc : RK → RevD
  | .void => { name := retval }
  | .char => { name := retval, back := some ("c".toList, [[tx "&", .text retval]]), front := true }
  | .cstr => { name := retval, back := some ("s".toList, [[tx "&", .text retval]]) }
  | .std =>
    { name := retval, vars := [ptrVar retval, lenVar retval], back := some stdBack
      after := [[.text retval, tx " = std::string(", .var 0, tx ", ", .var 1, tx ");"]] }
  | .glib =>
    { name := retval, vars := [ptrVar retval], back := some glibBack
      after := [[.text retval, tx " = Glib::ustring(", .var 0, tx ");"]] }

/-! ## The body of a proxy, as statements with a meaning

`Plan` lists the statements of the function body in order.  `Props.lean` proves that the text the generator
produces is the text of the plan. -/

/-- Conditions under which the body is left early. -/
inductive Cond where
  /-- there is no Python override -/
  | noOverride
  /-- `py_retval == NULL` -/
  | failed
  /-- `py_retval != Py_None` -/
  | notNone
  /-- `!PyArg_ParseTuple(...)` -/
  | parse
  deriving DecidableEq, Repr

/-- Statements. -/
inductive St where
  /-- a statement that does not concern the strings -/
  | code (s : Str)
  /-- a cleanup falls due -/
  | due (n : Nat) (s : Str)
  /-- the statements written to `before_call` by the parameters -/
  | befores
  /-- `py_retval = PyObject_CallMethod(...)` -/
  | call
  /-- the statements written to `before_call` by the return value -/
  | retBefore
  /-- `if (cond) { pre; cleanups; return r }` -/
  | exit (c : Cond) (pre : List Str) (cleanups : List (Nat × Str)) (r : Str)
  /-- the statements written to `after_call`: parameters, return value -/
  | afters
  | clean (n : Nat) (s : Str)
  | ret (s : Str)
  deriving DecidableEq, Repr

/-- The handlers of a method with the names of their variables. -/
structure Named where
  params : List (RevD × List Str)
  ret : RevD × List Str

def Named.parse (h : Named) : List PItem :=
  let ps := h.params.flatMap (fun d => d.1.items d.2)
  if h.ret.1.front then h.ret.1.items h.ret.2 ++ ps else ps ++ h.ret.1.items h.ret.2

def Named.units (h : Named) : List BItem := h.params.flatMap (fun d => d.1.builds d.2)

/-- The cleanup that puts the `obj` pointer back, cppmethod.py:1121. -/
def objText (p : Proxy) : Str := "reinterpret_cast< ".toList ++ p.pystruct ++ "* >(m_pyself)->obj".toList

/-- The object returned by Python is given up by a cleanup, base.py:636. -/
def decrefText : Str := "Py_DECREF(py_retval);".toList

/-- The shape of the body of a proxy (cppmethod.py:1067-1127, base.py:605-660): texts `t`, cleanups `c`, error
return `er`. -/
def shape (t1 c1 t2 c2 : Str) (pre : List Str) (r0 t3 t4 c3 c4 er rt none' : Str) (empty : Bool) : List St :=
  [.code t1, .due 1 c1, .code t2, .due 2 c2, .exit .noOverride pre [(2, c2), (1, c1)] r0, .code t3, .code t4, .due 3 c3,
   .befores, .call, .exit .failed ["PyErr_Print();".toList] [(3, c3), (2, c2), (1, c1)] er, .due 4 c4, .retBefore] ++
  (if empty then [.exit .notNone [none'] [(4, c4), (3, c3), (2, c2), (1, c1)] er]
   else [.code wrapText, .exit .parse ["PyErr_Print();".toList] [(4, c4), (3, c3), (2, c2), (1, c1)] er]) ++
  [.afters, .clean 4 c4, .clean 3 c3, .clean 2 c2, .clean 1 c1, .ret rt]

/-- What is said to an override that returns something although nothing is expected, base.py:642. -/
def noneText : Str := "PyErr_SetString(PyExc_TypeError, \"function/method should return None\");".toList

/-- The body of a proxy; `gil`, `m`, `o` are the names of three variables. -/
def plan (p : Proxy) (gil m o : Str) (h : Named) : List St :=
  shape (ensureText gil) (releaseText gil) (lookupText m p.pyName) ("Py_XDECREF(".toList ++ m ++ ");".toList)
    (if p.isVoid ∧ !p.noParent then [p.parentCall] else [])
    (if p.isVoid then "return;".toList else p.newError.getD p.errorReturn)
    (o ++ " = ".toList ++ objText p ++ ";".toList)
    (objText p ++ " = ".toList ++
      (if p.isConst then "const_cast< ".toList ++ p.cls ++ "* >((const ".toList ++ p.cls ++ "*) this)".toList
        else "(".toList ++ p.cls ++ "*) this".toList) ++ ";".toList)
    (objText p ++ " = ".toList ++ o ++ ";".toList) decrefText (p.newError.getD p.errorReturn)
    (if p.isVoid then "return;".toList else "return retval;".toList) noneText h.parse.isEmpty

/-- The text of a condition. -/
def Cond.text (m : Str) (h : Named) : Cond → Str
  | .noOverride => noOverrideTest m
  | .failed => "py_retval == NULL".toList
  | .notNone => "py_retval != Py_None".toList
  | .parse => callText "!PyArg_ParseTuple" ("py_retval".toList ::
      ("(char *) \"".toList ++ h.parse.flatMap (·.template) ++ "\"".toList) :: h.parse.flatMap (·.values))

/-- The text of a statement. -/
def St.text (p : Proxy) (m : Str) (h : Named) : St → List Stmt
  | .code s => [.act (.code s)]
  | .due n s => [.acq 0 n s]
  | .befores => h.params.flatMap (fun d => d.1.before.map (fun t => .act (.code (Wrap.render d.2 t))))
  | .call => [.act (.code ("py_retval = PyObject_CallMethod(m_pyself, (char *) \"".toList ++ p.pyName ++
      "\", (char *) \"".toList ++ h.units.flatMap (·.template) ++ "\"".toList ++
      (h.units.flatMap (·.values)).flatMap (fun e => ", ".toList ++ e) ++ ");".toList))]
  | .retBefore => h.ret.1.before.map (fun t => .act (.code (Wrap.render h.ret.2 t)))
  | .exit c pre cl r => [.exit (c.text m h) (pre.map .code ++ cl.map (fun x => .clean 0 x.1 x.2) ++ [.ret r])]
  | .afters => (h.params ++ [h.ret]).flatMap (fun d => d.1.after.map (fun t => .act (.code (Wrap.render d.2 t))))
  | .clean n s => [.act (.clean 0 n s)]
  | .ret s => [.act (.ret s)]

/-! ## Meaning -/

/-- C++ types of the parameters and of the return value. -/
inductive CT where
  | void
  | charPtr
  | char
  | std
  | stdPtr
  | glib
  | glibPtr
  deriving DecidableEq, Repr

/-- What a pointer points to: the characters of the argument itself, of the object Python returned, of a
block allocated by `PyArg_ParseTuple`; or a length. -/
inductive RV where
  | toArg
  | toResult
  | toBuf (k : Nat)
  | size (n : Nat)
  deriving DecidableEq, Repr

/-- An argument of the C++ method, or its return value: the characters held (or pointed to). -/
structure Cell where
  ty : CT
  bytes : Bytes := []
  /-- a null `char *` -/
  null : Bool := false
  /-- `char *` return values: what they point to -/
  ptr : Option RV := none
  /-- number of times the string was deleted -/
  deleted : Nat := 0
  deriving DecidableEq, Repr

/-- A handler at work: the argument and the handler's variables. -/
structure HS where
  d : RevD
  cell : Cell
  env : Nat → Option RV := fun _ => none

def HS.set (h : HS) (i : Nat) (v : RV) : HS := { h with env := fun j => if j = i then some v else h.env j }

variable {T D : Type}

/-- Memory outside the arguments. -/
structure Heap (T D : Type) where
  /-- the object returned by Python and its characters -/
  res : Option (PyV T D × Bytes) := none
  /-- the reference to it is still held -/
  held : Bool := false
  /-- blocks allocated by the `et` unit -/
  bufs : List Bytes := []

/-- The bytes a pointer leads to; `none` if they are gone. -/
def Heap.read (g : Heap T D) (c : Cell) : RV → Option Bytes
  | .toArg => if c.deleted = 0 then some c.bytes else none
  | .toResult => if g.held then g.res.map (·.2) else none
  | .toBuf k => g.bufs[k]?
  | .size _ => none

def Cell.isStr (c : Cell) : Bool := c.ty == .std || c.ty == .glib
def Cell.isPtr (c : Cell) : Bool := c.ty == .stdPtr || c.ty == .glibPtr

/-- A statement written before the call: `v = (name).c_str();` and so on.  Members: `size()` counts
characters in a `Glib::ustring`, `bytes()` is not a member of `std::string`. -/
def HS.before (h : HS) (t : Tmpl) : Option HS :=
  match t with
  | [.var i, .text a, .text n, .text b] =>
    if n = h.d.name ∧ h.cell.deleted = 0 ∧
        ((a = " = (".toList ∧ h.cell.isStr = true) ∨ (a = " = ".toList ∧ h.cell.isPtr = true)) then
      let g := if a = " = (".toList then ").".toList else "->".toList
      if b = g ++ "c_str();".toList then some (h.set i .toArg)
      else if b = g ++ "size();".toList then
        some (h.set i (.size (if h.cell.ty = .std ∨ h.cell.ty = .stdPtr then h.cell.bytes.length
          else charCount h.cell.bytes)))
      else if b = g ++ "bytes();".toList ∧ (h.cell.ty = .glib ∨ h.cell.ty = .glibPtr) then
        some (h.set i (.size h.cell.bytes.length))
      else none
    else none
  | _ => none

/-- All of a handler's statements before the call. -/
def HS.befores (h : HS) : List Tmpl → Option HS
  | [] => some h
  | t :: ts => (h.before t).bind (fun h => h.befores ts)

/-- The value a handler passes to Python: `some none` if `Py_BuildValue` fails on it (text that is not
UTF-8), `none` if the expression has no meaning. -/
def HS.pass (L : Codec T) (g : Heap T D) (h : HS) (u : Str × List Tmpl) : Option (Option (PyV T D)) :=
  if u.1 = "s".toList then
    match u.2 with
    | [[.text n]] =>
      if n = h.d.name ∧ h.cell.ty = .charPtr then
        if h.cell.null then some (some .none) else some ((L.dec (cut h.cell.bytes)).map .str)
      else none
    | _ => none
  else if u.1 = "c".toList then
    match u.2 with
    | [[.text n]] => if n = h.d.name ∧ h.cell.ty = .char then some (some (.bytes h.cell.bytes)) else none
    | _ => none
  else if u.1 = sharp then
    match u.2 with
    | [[.var i], [.var j]] =>
      match h.env i, h.env j with
      | some p, some (.size n) =>
        ((g.read h.cell p).bind (fun b => takeBytes b n)).map (fun b => (L.dec b).map .str)
      | _, _ => none
    | _ => none
  else none

/-- The characters of a Python object as units `s`, `s#`, `et` see them. -/
def chars (L : Codec T) : PyV T D → Option Bytes
  | .str s => L.enc s
  | .bytes b => some b
  | _ => none

/-- What `PyArg_ParseTuple` does with the object returned: `some none` if it refuses it, `none` if an address is
not one. -/
def HS.parse (L : Codec T) (g : Heap T D) (h : HS) (x : PyV T D) (u : Str × List Tmpl) :
    Option (Option (HS × Heap T D)) :=
  if u.1 = "s".toList then
    match u.2 with
    | [[.text a, .text n]] =>
      if a = "&".toList ∧ n = h.d.name ∧ h.cell.ty = .charPtr then
        match x with
        | .str s => some ((L.enc s).bind (fun b => if 0 ∈ b then none else
            some ({ h with cell := { h.cell with ptr := some .toResult } }, g)))
        | _ => some none
      else none
    | _ => none
  else if u.1 = "c".toList then
    match u.2 with
    | [[.text a, .text n]] =>
      if a = "&".toList ∧ n = h.d.name ∧ h.cell.ty = .char then
        match x with
        | .bytes [c] => some (some ({ h with cell := { h.cell with bytes := [c] } }, g))
        | _ => some none
      else none
    | _ => none
  else if u.1 = sharp then
    match u.2 with
    | [[.text a, .var i], [.text b, .var j]] =>
      if a = "&".toList ∧ b = "&".toList ∧ i ≠ j then
        some ((chars L x).map (fun c => ((h.set i .toResult).set j (.size c.length), g)))
      else none
    | _ => none
  else if u.1 = "et".toList then
    match u.2 with
    | [[.text c], [.text a, .var i]] =>
      if c = "\"utf-8\"".toList ∧ a = "&".toList then
        some ((chars L x).bind (fun c => if 0 ∈ c then none else
          some (h.set i (.toBuf g.bufs.length), { g with bufs := g.bufs ++ [c] })))
      else none
    | _ => none
  else none

/-- Assigning to the string. -/
def HS.store (h : HS) (b : Option Bytes) : Option HS :=
  if h.cell.deleted = 0 then b.map (fun b => { h with cell := { h.cell with bytes := b } }) else none

/-- `std::string(p, n)` -/
def HS.mkStd (g : Heap T D) (h : HS) (i j : Nat) : Option Bytes :=
  match h.env i, h.env j with
  | some p, some (.size n) => (g.read h.cell p).bind (fun b => takeBytes b n)
  | _, _ => none

/-- `Glib::ustring(p)` -/
def HS.mkU (g : Heap T D) (h : HS) (i : Nat) : Option Bytes :=
  match h.env i with
  | some p => (g.read h.cell p).map cut
  | none => none

/-- A statement written after the call. -/
def HS.after (g : Heap T D) (h : HS) (t : Tmpl) : Option HS :=
  match t with
  | [.text n, .text a, .var i, .text b, .var j, .text c] =>
    if n = h.d.name ∧ a = " = std::string(".toList ∧ b = ", ".toList ∧ c = ");".toList ∧ h.cell.ty = .std then
      h.store (h.mkStd g i j) else none
  | [.text s, .text n, .text a, .var i, .text b, .var j, .text c] =>
    if s = "*".toList ∧ n = h.d.name ∧ a = " = std::string(".toList ∧ b = ", ".toList ∧ c = ");".toList ∧
        h.cell.ty = .stdPtr then h.store (h.mkStd g i j) else none
  | [.text n, .text a, .var i, .text b] =>
    if n = h.d.name ∧ a = " = Glib::ustring(".toList ∧ b = ");".toList ∧ h.cell.ty = .glib then
      h.store (h.mkU g i) else none
  | [.text s, .text n, .text a, .var i, .text b] =>
    if s = "*".toList ∧ n = h.d.name ∧ a = " = Glib::ustring(".toList ∧ b = ");".toList ∧ h.cell.ty = .glibPtr then
      h.store (h.mkU g i) else none
  | [.text s, .text n, .text b] =>
    if s = "delete ".toList ∧ n = h.d.name ∧ b = ";".toList ∧ h.cell.isPtr = true ∧ h.cell.deleted = 0 then
      some { h with cell := { h.cell with deleted := 1 } } else none
  | _ => none

def HS.afters (g : Heap T D) (h : HS) : List Tmpl → Option HS
  | [] => some h
  | t :: ts => (h.after g t).bind (fun h => h.afters g ts)

/-- State of the proxy. -/
structure M (T D : Type) where
  params : List HS
  ret : HS
  heap : Heap T D := {}
  /-- the arguments the override was called with -/
  given : Option (List (PyV T D)) := none
  /-- the C++ implementation was called with the arguments -/
  parent : Bool := false

/-- What a `return` statement hands to the C++ caller. -/
inductive Back where
  | nothing
  /-- the value of `retval` -/
  | value (b : Bytes)
  /-- a pointer to memory that is gone, or a variable never assigned -/
  | dangling
  /-- the value given by another statement -/
  | other (s : Str)
  deriving DecidableEq, Repr

/-- Result of a run. -/
structure Fin (T D : Type) where
  given : Option (List (PyV T D))
  cells : List Cell
  parent : Bool
  /-- blocks allocated and not freed -/
  leaked : List Bytes
  back : Back

/-- The return statement. -/
def M.leave (p : Proxy) (m : M T D) (s : Str) : Fin T D :=
  { given := m.given, cells := m.params.map (·.cell)
    parent := m.parent || (!p.noParent && s == "return ".toList ++ p.parentCall)
    leaked := m.heap.bufs
    back :=
      if s = "return;".toList then .nothing
      else if s = "return retval;".toList then
        match m.ret.cell.ty with
        | .charPtr => match m.ret.cell.ptr.bind (m.heap.read m.ret.cell) with
          | some b => .value b
          | none => .dangling
        | _ => .value m.ret.cell.bytes
      else .other s }

/-- A cleanup: only `Py_DECREF(py_retval)` concerns the strings (no other reference to the object is known,
so its memory is gone). -/
def M.clean (m : M T D) (s : Str) : M T D :=
  if s = decrefText then { m with heap := { m.heap with held := false } } else m

/-- A statement in front of an early return: calling the C++ implementation hands the arguments on. -/
def M.code (p : Proxy) (m : M T D) (s : Str) : M T D :=
  if s = p.parentCall then { m with parent := true } else m

/-- All values passed to Python: `some none` if one of them cannot be made. -/
def passAll (L : Codec T) (g : Heap T D) : List HS → Option (Option (List (PyV T D)))
  | [] => some (some [])
  | h :: hs =>
    match h.d.pass with
    | none => passAll L g hs
    | some u => (h.pass L g u).bind (fun x => (passAll L g hs).map (fun xs => x.bind (fun x => xs.map (x :: ·))))

/-- Parsing the one-element tuple made of the object returned: with one unit it is converted, several are
refused before any conversion. -/
def M.parse (L : Codec T) (m : M T D) : Option (Option (M T D)) :=
  match m.heap.res with
  | none => none
  | some (x, _) =>
    match (m.params.filter (fun h => h.d.back.isSome)), m.ret.d.back with
    | [], some u => (m.ret.parse L m.heap x u).map (fun r => r.map (fun r => { m with ret := r.1, heap := r.2 }))
    | [_], none =>
      let rec go : List HS → Option (Option (List HS × Heap T D))
        | [] => none
        | h :: hs =>
          match h.d.back with
          | some u => (h.parse L m.heap x u).map (fun r => r.map (fun r => (r.1 :: hs, r.2)))
          | none => (go hs).map (fun r => r.map (fun r => (h :: r.1, r.2)))
      (go m.params).map (fun r => r.map (fun r => { m with params := r.1, heap := r.2 }))
    | _, _ => some none

/-- The object is `None`. -/
def isNone : PyV T D → Bool
  | .none => true
  | _ => false

/-- Whether the body is left, and the state; `none` if the condition has no meaning. -/
def M.test (L : Codec T) (over : Option (List (PyV T D) → Option (PyV T D))) (m : M T D) :
    Cond → Option (M T D × Bool)
  | .noOverride => some (m, over.isNone)
  | .failed => some (m, m.heap.res.isNone)
  | .notNone => m.heap.res.map (fun y => (m, !isNone y.1))
  | .parse => (m.parse L).map (fun r => match r with
    | some m => (m, false)
    | none => (m, true))

/-- A conversion for every element. -/
def mapHS (f : HS → Option HS) : List HS → Option (List HS)
  | [] => some []
  | h :: hs => (f h).bind (fun h => (mapHS f hs).map (h :: ·))

/-- `PyObject_CallMethod`; `none` as `over`: the attribute is gone between the lookup and the call (not
considered). -/
def M.call (L : Codec T) (over : Option (List (PyV T D) → Option (PyV T D))) (m : M T D) : Option (M T D) :=
  (passAll L m.heap m.params).bind (fun xs =>
    match xs, over with
    | none, _ => some m
    | some xs, some f =>
      match f xs with
      | none => some { m with given := some xs }
      | some x => some { m with given := some xs, heap := { m.heap with res := some (x, (chars L x).getD []), held := true } }
    | some _, none => none)

/-- Running the body. -/
def exec (L : Codec T) (p : Proxy) (over : Option (List (PyV T D) → Option (PyV T D))) :
    List St → M T D → Option (Fin T D)
  | [], _ => none
  | .code _ :: rest, m => exec L p over rest m
  | .due _ _ :: rest, m => exec L p over rest m
  | .befores :: rest, m =>
    (mapHS (fun h => h.befores h.d.before) m.params).bind (fun hs => exec L p over rest { m with params := hs })
  | .call :: rest, m => (m.call L over).bind (exec L p over rest)
  | .retBefore :: rest, m =>
    (m.ret.befores m.ret.d.before).bind (fun r => exec L p over rest { m with ret := r })
  | .exit c pre cl r :: rest, m =>
    (m.test L over c).bind (fun t =>
      if t.2 then
        some (((cl.map (·.2)).foldl M.clean (pre.foldl (M.code p) t.1)).leave p r)
      else exec L p over rest t.1)
  | .afters :: rest, m =>
    (mapHS (fun h => h.afters m.heap h.d.after) m.params).bind (fun hs =>
      (m.ret.afters m.heap m.ret.d.after).bind (fun r => exec L p over rest { m with params := hs, ret := r }))
  | .clean _ s :: rest, m => exec L p over rest (m.clean s)
  | .ret s :: _, m => some (m.leave p s)

end Verif.Exchange
