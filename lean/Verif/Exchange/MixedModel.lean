import Verif.Exchange.C102

/-!
# Booleans, numbers, containers and Python objects exchanged with Python overrides, beside strings

The reverse direction of the other handlers that do not concern wrapped classes: booltype.py, container.py,
pyobjecttype.py and the number handlers that use one format unit.  A virtual method may mix them with the string
handlers of Model.lean.
-/
namespace Verif.Exchange
open Verif Verif.Flow Verif.Params Verif.DeclScope Verif.Wrap

/-! ## The handlers -/

/-- A wrapped container: its name, the generated structures, the full C++ name and the converter function
(container.py:103-175). -/
structure Cont where
  name : Str
  pystruct : Str
  pytype : Str
  full : Str
  conv : Str
  deriving DecidableEq, Repr

/-- `PyObject *py_name` -/
def objVar (base : Str) : DVar := { ctype := "PyObject *".toList, base }
/-- `PyFoo* py_Foo` -/
def contVar (c : Cont) : DVar := { ctype := c.pystruct ++ "*".toList, base := "py_".toList ++ c.name }

/-- `py_Foo = PyObject_New(PyFoo, &PyFoo_Type);` -/
def contNew (c : Cont) : Tmpl :=
  [.var 0, tx " = PyObject_New(", .text c.pystruct, tx ", &", .text c.pytype, tx ");"]
/-- `py_Foo->obj = new Foo(name);` -/
def contCopy (c : Cont) (name : Str) : Tmpl :=
  [.var 0, tx "->obj = new ", .text c.full, tx "(", .text name, tx ");"]
/-- `py_Foo->obj = new Foo;` -/
def contEmpty (c : Cont) : Tmpl := [.var 0, tx "->obj = new ", .text c.full, tx ";"]

/-- Parameters that are not strings. -/
inductive VK where
  | bool
  | boolPtr (isIn isOut : Bool)
  | boolRef (isIn isOut : Bool)
  | cont (c : Cont)
  | contRef (c : Cont) (isIn isOut : Bool)
  | obj (transfer : Bool)
  | num (fmt : Str)
  | numPtr (fmt : Str) (isIn isOut : Bool)
  deriving DecidableEq, Repr

/-- `convert_c_to_python` of `BoolParam` (booltype.py:13-15), `BoolPtrParam` (56-65), `BoolRefParam` (88-97),
`ContainerParameter` (container.py:689-701), `ContainerRefParameter` (736-754), `PyObjectParam`
(pyobjecttype.py:25-30), number parameters by value (`FloatParam`, floattype.py:14-16, and alike) and by pointer
(`FloatPtrParam`, floattype.py:49-54, and alike). -/
def VK.desc (name : Str) : VK → RevD
  | .bool => { name, pass := some ("N".toList, [[tx "PyBool_FromLong(", .text name, tx ")"]]) }
  | .boolPtr i o =>
    { name, pname := some name, vars := if o then [objVar ("py_".toList ++ name)] else []
      pass := if i then some ("N".toList, [[tx "PyBool_FromLong(*", .text name, tx ")"]]) else none
      back := if o then some ("O".toList, [[tx "&", .var 0]]) else none
      after := if o then [[tx "*", .text name, tx " = PyObject_IsTrue(", .var 0, tx ");"]] else [] }
  | .boolRef i o =>
    { name, pname := some name, vars := if o then [objVar ("py_".toList ++ name)] else []
      pass := if i then some ("N".toList, [[tx "PyBool_FromLong(", .text name, tx ")"]]) else none
      back := if o then some ("O".toList, [[tx "&", .var 0]]) else none
      after := if o then [[.text name, tx " = PyObject_IsTrue(", .var 0, tx ");"]] else [] }
  | .cont c =>
    { name, vars := [contVar c], before := [contNew c, contCopy c name], pass := some ("N".toList, [[.var 0]]) }
  | .contRef c i o =>
    { name, pname := some name, vars := [contVar c]
      before := [contNew c, if i then contCopy c name else contEmpty c]
      pass := some ("N".toList, [[.var 0]])
      back := if o then some ("O&".toList, [[.text c.conv], [tx "&", .text name]]) else none }
  | .obj t => { name, pass := some (if t then "N".toList else "O".toList, [[.text name]]) }
  | .num fmt => { name, pass := some (fmt, [[.text name]]) }
  | .numPtr fmt i o =>
    { name, pname := some name
      pass := if i then some (fmt, [[tx "*", .text name]]) else none
      back := if o then some (fmt, [[.text name]]) else none }

/-- Return values that are not strings. -/
inductive VR where
  | bool
  | cont (c : Cont) (ctype : Str)
  | obj (owned : Bool)
  | num (fmt : Str)
  deriving DecidableEq, Repr

/-- `convert_python_to_c` of `BoolReturn` (booltype.py:41-45), `ContainerReturnValue` (container.py:863-869),
`PyObjectReturnValue` (pyobjecttype.py:57-60), number return values (`FloatReturn`, floattype.py:33-34, and
alike). -/
def VR.desc : VR → RevD
  | .bool =>
    { name := retval, vars := [objVar "py_boolretval".toList], back := some ("O".toList, [[tx "&", .var 0]]), front := true
      after := [[.text retval, tx " = PyObject_IsTrue(", .var 0, tx ");"]] }
  | .cont c ctype =>
    { name := retval, vars := [{ ctype, base := retval }]
      back := some ("O&".toList, [[.text c.conv], [tx "&", .text retval]]) }
  | .obj owned =>
    { name := retval, back := some ("O".toList, [[tx "&", .text retval]]), front := true
      after := if owned then [[tx "Py_INCREF((PyObject*) ", .text retval, tx ");"]] else [] }
  | .num fmt => { name := retval, back := some (fmt, [[tx "&", .text retval]]), front := true }

/-- `convert_python_to_c` with the refusal of reference types (container.py:865-866) and the assertion that the variable
declared is `retval` (container.py:868). -/
def VR.convert (r : VR) : Gen1 := fun w =>
  match r with
  | .cont _ ctype =>
    if '&' ∈ ctype then .error .notSupportedError
    else
      match declareAll r.desc.vars w with
      | .ok (_, vs) => if vs = [retval] then r.desc.convert w else .error .assertionError
      | .error e => .error e
  | _ => r.desc.convert w

/-- Any parameter, any return value. -/
inductive K where
  | s (k : PK)
  | v (k : VK)
  deriving DecidableEq, Repr

inductive R where
  | s (k : RK)
  | v (k : VR)
  deriving DecidableEq, Repr

def K.desc (name : Str) : K → RevD
  | .s k => k.desc name
  | .v k => k.desc name

def R.desc : R → RevD
  | .s k => k.desc
  | .v k => k.desc

def R.convert : R → Gen1
  | .s k => k.desc.convert
  | .v k => k.convert

/-! ## Meaning -/

/-- C++ types; references have the type of what they refer to. -/
inductive VT where
  | bool
  | boolPtr
  | cont (c : Cont)
  | obj
  | num (fmt : Str)
  | numPtr (fmt : Str)
  deriving DecidableEq, Repr

variable {T D N : Type}

/-- The library: besides `Wrap.Lib`, numbers `N` with their format units, contents of containers and the
generated converters.  A converter empties the container before it fills it (container.py:540-541), so it may change it
although it refuses the object; it returns whether it accepts and the new content. -/
structure XLib (T D N : Type) where
  lib : Lib T D
  conv : Str → PyV T D → Nat → Bool × Nat
  empty : Str → Nat
  numOut : Str → N → PyV T D
  numIn : Str → PyV T D → Option N

/-- What a variable of such a type holds (or points to). -/
inductive CVal (T D N : Type) where
  | unset
  | bool (b : Bool)
  | cont (k : Nat)
  /-- `none`: a null pointer -/
  | obj (o : Option (PyV T D))
  | num (n : N)

/-- An argument or the return value. -/
structure VCell (T D N : Type) where
  ty : VT
  val : CVal T D N
  /-- references of the caller's that were used up -/
  taken : Nat := 0
  /-- references added for the caller -/
  added : Nat := 0

/-- Variables of a handler: a new wrapper and the content of its container, or the object Python returned. -/
inductive WV (T D : Type) where
  | fresh (content : Option Nat)
  | obj (x : PyV T D)

structure VS (T D N : Type) where
  d : RevD
  cell : VCell T D N
  env : Nat → Option (WV T D) := fun _ => none

def VS.set (h : VS T D N) (i : Nat) (v : WV T D) : VS T D N :=
  { h with env := fun j => if j = i then some v else h.env j }

/-- Memory, and whether an exception is set. -/
structure G (T D : Type) where
  h : Heap T D := {}
  pending : Bool := false

/-- A statement written before the call. -/
def VS.before (L : XLib T D N) (h : VS T D N) (t : Tmpl) : Option (VS T D N) :=
  match h.cell.ty with
  | .cont c =>
    match t with
    | [.var i, .text a, .text b, .text e, .text f, .text g] =>
      if a = " = PyObject_New(".toList then
        if b = c.pystruct ∧ e = ", &".toList ∧ f = c.pytype ∧ g = ");".toList then some (h.set i (.fresh none)) else none
      else if a = "->obj = new ".toList then
        if b = c.full ∧ e = "(".toList ∧ f = h.d.name ∧ g = ");".toList then
          match h.env i, h.cell.val with
          | some (.fresh none), .cont k => some (h.set i (.fresh (some k)))
          | _, _ => none
        else none
      else none
    | [.var i, .text a, .text b, .text e] =>
      if a = "->obj = new ".toList ∧ b = c.full ∧ e = ";".toList then
        match h.env i with
        | some (.fresh none) => some (h.set i (.fresh (some (L.empty c.full))))
        | _ => none
      else none
    | _ => none
  | _ => none

def VS.befores (L : XLib T D N) (h : VS T D N) : List Tmpl → Option (VS T D N)
  | [] => some h
  | t :: ts => (h.before L t).bind (fun h => h.befores L ts)

/-- A `PyObject *` as argument: a null pointer makes `Py_BuildValue` fail.  With `N` a reference is used up, whether or
not the other arguments can be built. -/
def VS.passObj (h : VS T D N) (n : Str) (steal : Bool) : Option (Option (PyV T D) × VS T D N) :=
  if n = h.d.name ∧ h.cell.ty = .obj then
    match h.cell.val with
    | .obj none => some (none, h)
    | .obj (some x) => some (some x, if steal then { h with cell := { h.cell with taken := h.cell.taken + 1 } } else h)
    | _ => none
  else none

/-- The value a handler passes to Python: `none` inside if it cannot be built. -/
def VS.pass (L : XLib T D N) (h : VS T D N) (u : Str × List Tmpl) : Option (Option (PyV T D) × VS T D N) :=
  if u.1 = "N".toList then
    match u.2 with
    | [[.text a, .text n, .text e]] =>
      if n = h.d.name ∧ e = ")".toList ∧ ((a = "PyBool_FromLong(".toList ∧ h.cell.ty = .bool) ∨
          (a = "PyBool_FromLong(*".toList ∧ h.cell.ty = .boolPtr)) then
        match h.cell.val with
        | .bool b => some (some (.bool b), h)
        | _ => none
      else none
    | [[.var i]] =>
      match h.env i with
      | some (.fresh (some k)) => some (some (.wrapper k), h)
      | _ => none
    | [[.text n]] => h.passObj n true
    | _ => none
  else if u.1 = "O".toList then
    match u.2 with
    | [[.text n]] => h.passObj n false
    | _ => none
  else
    match u.2 with
    | [[.text n]] =>
      if n = h.d.name ∧ h.cell.ty = .num u.1 then
        match h.cell.val with
        | .num x => some (some (L.numOut u.1 x), h)
        | _ => none
      else none
    | [[.text a, .text n]] =>
      if a = "*".toList ∧ n = h.d.name ∧ h.cell.ty = .numPtr u.1 then
        match h.cell.val with
        | .num x => some (some (L.numOut u.1 x), h)
        | _ => none
      else none
    | _ => none

/-- Storing a number, if the object is one that fits. -/
def VS.storeNum (L : XLib T D N) (h : VS T D N) (fmt : Str) (x : PyV T D) : Bool × VS T D N :=
  match L.numIn fmt x with
  | some n => (true, { h with cell := { h.cell with val := .num n } })
  | none => (false, h)

/-- What `PyArg_ParseTuple` does with the object returned: whether it accepts it; `none` if an address is not
one. -/
def VS.parse (L : XLib T D N) (h : VS T D N) (x : PyV T D) (u : Str × List Tmpl) : Option (Bool × VS T D N) :=
  if u.1 = "O".toList then
    match u.2 with
    | [[.text a, .var i]] => if a = "&".toList then some (true, h.set i (.obj x)) else none
    | [[.text a, .text n]] =>
      if a = "&".toList ∧ n = h.d.name ∧ h.cell.ty = .obj then
        some (true, { h with cell := { h.cell with val := .obj (some x) } }) else none
    | _ => none
  else if u.1 = "O&".toList then
    match u.2, h.cell.ty, h.cell.val with
    | [[.text f], [.text a, .text n]], .cont c, .cont k =>
      if f = c.conv ∧ a = "&".toList ∧ n = h.d.name then
        some ((L.conv f x k).1, { h with cell := { h.cell with val := .cont (L.conv f x k).2 } }) else none
    | _, _, _ => none
  else
    match u.2 with
    | [[.text a, .text n]] =>
      if a = "&".toList ∧ n = h.d.name ∧ h.cell.ty = .num u.1 then some (h.storeNum L u.1 x) else none
    | [[.text n]] => if n = h.d.name ∧ h.cell.ty = .numPtr u.1 then some (h.storeNum L u.1 x) else none
    | _ => none

/-- `v = PyObject_IsTrue(o)`: `-1` becomes `true`, and the exception stays set. -/
def VS.isTrue (L : XLib T D N) (g : G T D) (h : VS T D N) (i : Nat) : Option (VS T D N × G T D) :=
  match h.env i with
  | some (.obj x) =>
    if g.h.held then
      some ({ h with cell := { h.cell with val := .bool (L.lib.isTrueC x) } },
        { g with pending := g.pending || (L.lib.truth x).isNone })
    else none
  | _ => none

/-- A statement written after the call. -/
def VS.after (L : XLib T D N) (g : G T D) (h : VS T D N) (t : Tmpl) : Option (VS T D N × G T D) :=
  match t with
  | [.text n, .text a, .var i, .text e] =>
    if n = h.d.name ∧ a = " = PyObject_IsTrue(".toList ∧ e = ");".toList ∧ h.cell.ty = .bool then h.isTrue L g i else none
  | [.text s, .text n, .text a, .var i, .text e] =>
    if s = "*".toList ∧ n = h.d.name ∧ a = " = PyObject_IsTrue(".toList ∧ e = ");".toList ∧ h.cell.ty = .boolPtr then
      h.isTrue L g i else none
  | [.text a, .text n, .text e] =>
    if a = "Py_INCREF((PyObject*) ".toList ∧ n = h.d.name ∧ e = ");".toList ∧ h.cell.ty = .obj ∧ g.h.held = true then
      some ({ h with cell := { h.cell with added := h.cell.added + 1 } }, g) else none
  | _ => none

def VS.afters (L : XLib T D N) (g : G T D) (h : VS T D N) : List Tmpl → Option (VS T D N × G T D)
  | [] => some (h, g)
  | t :: ts => (h.after L g t).bind (fun r => r.1.afters L r.2 ts)

/-! ## Mixed handlers -/

/-- A handler at work. -/
inductive X (T D N : Type) where
  | s (h : HS)
  | v (h : VS T D N)

/-- An argument. -/
inductive XC (T D N : Type) where
  | s (c : Cell)
  | v (c : VCell T D N)

def X.d : X T D N → RevD
  | .s h => h.d
  | .v h => h.d

def X.cell : X T D N → XC T D N
  | .s h => .s h.cell
  | .v h => .v h.cell

def X.befores (L : XLib T D N) : X T D N → Option (X T D N)
  | .s h => (h.befores h.d.before).map .s
  | .v h => (h.befores L h.d.before).map .v

def X.pass (L : XLib T D N) (g : G T D) (u : Str × List Tmpl) : X T D N → Option (Option (PyV T D) × X T D N)
  | .s h => (h.pass L.lib.codec g.h u).map (fun x => (x, .s h))
  | .v h => (h.pass L u).map (fun r => (r.1, .v r.2))

def X.parse (L : XLib T D N) (g : G T D) (x : PyV T D) (u : Str × List Tmpl) : X T D N → Option (Bool × X T D N × G T D)
  | .s h => (h.parse L.lib.codec g.h x u).map (fun r => match r with
    | none => (false, .s h, g)
    | some r => (true, .s r.1, { g with h := r.2 }))
  | .v h => (h.parse L x u).map (fun r => (r.1, .v r.2, g))

def X.afters (L : XLib T D N) (g : G T D) : X T D N → Option (X T D N × G T D)
  | .s h => (h.afters g.h h.d.after).map (fun h => (.s h, g))
  | .v h => (h.afters L g h.d.after).map (fun r => (.v r.1, r.2))

def beforesAll (L : XLib T D N) : List (X T D N) → Option (List (X T D N))
  | [] => some []
  | h :: hs => (h.befores L).bind (fun h => (beforesAll L hs).map (h :: ·))

/-- All values passed to Python: `none` inside if one of them cannot be made. -/
def passX (L : XLib T D N) (g : G T D) : List (X T D N) → Option (Option (List (PyV T D)) × List (X T D N))
  | [] => some (some [], [])
  | h :: hs =>
    match h.d.pass with
    | none => (passX L g hs).map (fun r => (r.1, h :: r.2))
    | some u => (h.pass L g u).bind (fun x => (passX L g hs).map (fun r => (x.1.bind (fun y => r.1.map (y :: ·)), x.2 :: r.2)))

/-- Parsing into the first parameter that expects something. -/
def parseOne (L : XLib T D N) (g : G T D) (x : PyV T D) : List (X T D N) → Option (Bool × List (X T D N) × G T D)
  | [] => none
  | h :: hs =>
    match h.d.back with
    | some u => (h.parse L g x u).map (fun r => (r.1, r.2.1 :: hs, r.2.2))
    | none => (parseOne L g x hs).map (fun r => (r.1, h :: r.2.1, r.2.2))

def aftersAll (L : XLib T D N) (g : G T D) : List (X T D N) → Option (List (X T D N) × G T D)
  | [] => some ([], g)
  | h :: hs => (h.afters L g).bind (fun r => (aftersAll L r.2 hs).map (fun q => (r.1 :: q.1, q.2)))

/-- State of the proxy. -/
structure MX (T D N : Type) where
  params : List (X T D N)
  ret : X T D N
  g : G T D := {}
  given : Option (List (PyV T D)) := none
  parent : Bool := false

/-- What the C++ caller gets. -/
inductive BackX (T D N : Type) where
  | nothing
  | bytes (b : Bytes)
  | value (v : CVal T D N)
  | dangling
  | other (s : Str)

structure FinX (T D N : Type) where
  given : Option (List (PyV T D))
  cells : List (XC T D N)
  parent : Bool
  leaked : List Bytes
  /-- an exception is set when the call returns -/
  pending : Bool
  back : BackX T D N

/-- The value of `retval`: a `PyObject *` for which no reference was added is that of an object which nobody is known to
hold any more. -/
def retValue (g : G T D) : X T D N → BackX T D N
  | .s h =>
    match h.cell.ty with
    | .charPtr => match h.cell.ptr.bind (g.h.read h.cell) with
      | some b => .bytes b
      | none => .dangling
    | _ => .bytes h.cell.bytes
  | .v h =>
    match h.cell.ty with
    | .obj => if h.cell.added = 0 ∧ g.h.held = false then .dangling else .value h.cell.val
    | _ => .value h.cell.val

def MX.leave (p : Proxy) (m : MX T D N) (s : Str) : FinX T D N :=
  { given := m.given, cells := m.params.map (·.cell)
    parent := m.parent || (!p.noParent && s == "return ".toList ++ p.parentCall)
    leaked := m.g.h.bufs, pending := m.g.pending
    back :=
      if s = "return;".toList then .nothing
      else if s = "return retval;".toList then retValue m.g m.ret
      else .other s }

def MX.clean (m : MX T D N) (s : Str) : MX T D N :=
  if s = decrefText then { m with g := { m.g with h := { m.g.h with held := false } } } else m

/-- A statement in front of an early return: the C++ implementation is called, or the exception printed, which clears
it, or one is set. -/
def MX.code (p : Proxy) (m : MX T D N) (s : Str) : MX T D N :=
  if s = p.parentCall then { m with parent := true }
  else if s = "PyErr_Print();".toList then { m with g := { m.g with pending := false } }
  else if s = noneText then { m with g := { m.g with pending := true } } else m

/-- Parsing the one-element tuple made of the object returned. -/
def MX.parse (L : XLib T D N) (m : MX T D N) : Option (MX T D N × Bool) :=
  match m.g.h.res with
  | none => none
  | some (x, _) =>
    match (m.params.filter (fun h => h.d.back.isSome)), m.ret.d.back with
    | [], some u => (m.ret.parse L m.g x u).map (fun r => ({ m with ret := r.2.1, g := r.2.2 }, !r.1))
    | [_], none => (parseOne L m.g x m.params).map (fun r => ({ m with params := r.2.1, g := r.2.2 }, !r.1))
    | _, _ => some (m, true)

/-- Conditions.  `PyObject_CallMethod` and `PyArg_ParseTuple` set an exception when they fail. -/
def MX.test (L : XLib T D N) (over : Option (List (PyV T D) → Option (PyV T D))) (m : MX T D N) : Cond → Option (MX T D N × Bool)
  | .noOverride => some (m, over.isNone)
  | .failed => some (m, m.g.h.res.isNone)
  | .notNone => m.g.h.res.map (fun y => (m, !isNone y.1))
  | .parse => (m.parse L).map (fun r => (if r.2 then { r.1 with g := { r.1.g with pending := true } } else r.1, r.2))

/-- `PyObject_CallMethod` -/
def MX.call (L : XLib T D N) (over : Option (List (PyV T D) → Option (PyV T D))) (m : MX T D N) : Option (MX T D N) :=
  (passX L m.g m.params).bind (fun r =>
    match r.1, over with
    | none, _ => some { m with params := r.2, g := { m.g with pending := true } }
    | some xs, some f =>
      match f xs with
      | none => some { m with params := r.2, given := some xs, g := { m.g with pending := true } }
      | some x =>
        some { m with params := r.2, given := some xs
                      g := { m.g with h := { m.g.h with res := some (x, (chars L.lib.codec x).getD []), held := true } } }
    | some _, none => none)

/-- Running the body. -/
def execX (L : XLib T D N) (p : Proxy) (over : Option (List (PyV T D) → Option (PyV T D))) :
    List St → MX T D N → Option (FinX T D N)
  | [], _ => none
  | .code _ :: rest, m => execX L p over rest m
  | .due _ _ :: rest, m => execX L p over rest m
  | .befores :: rest, m => (beforesAll L m.params).bind (fun hs => execX L p over rest { m with params := hs })
  | .call :: rest, m => (m.call L over).bind (execX L p over rest)
  | .retBefore :: rest, m => (m.ret.befores L).bind (fun r => execX L p over rest { m with ret := r })
  | .exit c pre cl r :: rest, m =>
    (m.test L over c).bind (fun t =>
      if t.2 then some (((cl.map (·.2)).foldl MX.clean (pre.foldl (MX.code p) t.1)).leave p r)
      else execX L p over rest t.1)
  | .afters :: rest, m =>
    (aftersAll L m.g m.params).bind (fun r =>
      (m.ret.afters L r.2).bind (fun q => execX L p over rest { m with params := r.1, ret := q.1, g := q.2 }))
  | .clean _ s :: rest, m => execX L p over rest (m.clean s)
  | .ret s :: _, m => some (m.leave p s)

end Verif.Exchange
