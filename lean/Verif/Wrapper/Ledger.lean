import Verif.Handlers.ArgsDesc
import Verif.Handlers.Returns

/-!
# What a call of a wrapper acquires and gives away

A ledger over the handlers written as data (`Wrapper/Desc.lean`, `Handlers/ArgsDesc.lean`): for every variable of a handler
the number of C++ objects, buffers and Python references the wrapper function has acquired through it and not yet freed,
handed to the C++ function or put into the result.  It is computed from the texts the handlers write.

The entry of a resource acquired by nobody else is 0 at the end of the call; a positive one is memory nobody owns, a
negative one memory that is freed although somebody else owns it.

Modelled: declarations with an initializer `new …`; the buffer `PyArg_ParseTuple` allocates for `et` (freed by it if it
fails); `PyObject_New`, `PyObject_GC_New`, `PyList_New`; `Py_INCREF`; the `write_incref` of a memory policy; moving an
object into a wrapper (`py->obj = v;`); taking it out of one (`py->obj = NULL;`); format unit `N` of `Py_BuildValue`, which
takes over the reference, also if it fails; `free(retval)`.  What the C++ function takes over is what the handler's
`transfer_ownership` says.  Objects created and passed on in one expression are not in the ledger.
-/
namespace Verif.Ledger
open Verif Verif.Wrap Verif.Handlers

/-- An entry of `z` for variable `i`. -/
def one (i : Nat) (z : Int) : Nat → Int := fun j => if j = i then z else 0

def zero : Nat → Int := fun _ => 0

/-- Does the initializer allocate? -/
def isNew (s : Str) : Bool := "new ".toList.isPrefixOf s

/-- Declarations. -/
def declEff (d : Desc) : Nat → Int := fun i =>
  match d.vars[i]? with
  | some v => if v.init.any isNew then 1 else 0
  | none => 0

/-- A format unit, with an argument given for it. -/
def unitEff (u : Wrap.PUnit) : Nat → Int := fun i => if u.fmt = "et".toList ∧ PArg.addr i ∈ u.args then 1 else 0

/-- Does what follows the variable assign a new object to it? -/
def creates (s : Str) : Bool :=
  s == " = PyObject_New(".toList || s == " = PyObject_GC_New(".toList || s == " = PyList_New(".toList

/-- The variable a text starts with, if it does. -/
def headEff (z : Int) : Tmpl → Nat → Int
  | .var k :: _ => one k z
  | _ => zero

/-- A statement `v<s><rest>`. -/
def varEff (i : Nat) (s : Str) (rest : Tmpl) : Nat → Int :=
  if creates s then one i 1
  else if s = "->obj = NULL;".toList then one i 1
  else if s = "->obj = ".toList then headEff (-1) rest
  else zero

/-- A statement `<s><rest>`; `inc` is the text of `memory_policy.write_incref` for the handler's Python object. -/
def textEff (inc : Option Str) (s : Str) (rest : Tmpl) : Nat → Int :=
  if s = "Py_INCREF((PyObject*) ".toList then headEff 1 rest
  else if s = "self".toList ∧ rest = [tx "->obj = NULL;"] then one 0 1
  else if inc = some s then one 0 1
  else zero

/-- A statement. -/
def writeEff (inc : Option Str) : Tmpl → Nat → Int
  | .var i :: .text s :: rest => varEff i s rest
  | .text s :: rest => textEff inc s rest
  | _ => zero

def opEff (inc : Option Str) : TOp → Nat → Int
  | .write t => writeEff inc t
  | .check _ _ => zero

/-- Several of them. -/
def sumEff {α : Type} (f : α → Nat → Int) (l : List α) : Nat → Int := fun i => (l.map (fun x => f x i)).sum

/-- The calls on `before_call`, in order. -/
def ops (d : Desc) : List TOp := d.before.flatMap (·.ops)

/-- The statements after the call. -/
def posts (d : Desc) : List Tmpl := d.after.flatMap (·.texts)

/-- `Py_BuildValue`. -/
def outEff : Option (Str × List Tmpl) → Nat → Int
  | some (f, [[.var i]]) => if f = "N".toList then one i (-1) else zero
  | _ => zero

/-- How a call ends. -/
inductive End where
  /-- `PyArg_ParseTuple` fails -/
  | parse
  /-- an error check before the call fires: `j` calls of the handler of parameter `k`, and all of those before it, have been
  made (`k` beyond the last parameter: the deprecation warning) -/
  | before (k j : Nat)
  /-- the C++ function throws an exception the wrapper translates -/
  | threw
  | done
  deriving DecidableEq, Repr

/-- Is the C++ function called? -/
def End.called : End → Bool
  | .threw => true
  | .done => true
  | _ => false

/-- A handler, what the function takes over from it, the text of `write_incref`. -/
structure Arg where
  d : Desc
  takes : List Nat := []
  inc : Option Str := none

/-- The calls on `before_call` made by parameter `pos`. -/
def Arg.executed (a : Arg) (pos : Nat) : End → List TOp
  | .parse => []
  | .before k j => if pos < k then ops a.d else if pos = k then (ops a.d).take j else []
  | _ => ops a.d

/-- What parsing acquires. -/
def Arg.parsed (a : Arg) (given : Bool) (e : End) (i : Nat) : Int :=
  match e, a.d.unit with
  | .parse, _ => 0
  | _, some u => if given then unitEff u i else 0
  | _, none => 0

/-- The ledger of one parameter; `given`: the caller gave an argument for it. -/
def Arg.balance (a : Arg) (given : Bool) (pos : Nat) (e : End) (i : Nat) : Int :=
  declEff a.d i +
  a.parsed given e i +
  sumEff (opEff a.inc) (a.executed pos e) i +
  (if e.called && a.takes.contains i then -1 else 0) +
  (if e = .done then sumEff (writeEff a.inc) (posts a.d) i + outEff a.d.out i else 0)

/-! ## The handlers and what they declare -/

/-- `write_allocate_pystruct` (cppclass.py:2646-2664) as texts with holes: the allocation, then the policy's init code and
`inst_dict` (`rest`). -/
def allocTmpl (c : Returns.RCls) (rest : List Tmpl) : List Tmpl :=
  [.var 0, tx (if c.subclassing then " = PyObject_GC_New(" else " = PyObject_New("), .text c.pystruct, tx ", &",
    .text c.pytype, tx ");"] :: rest

/-- Parameter handlers of forward wrappers. -/
inductive H where
  | scalar (s : Scalar)
  | bool (ctype name : Str) (dflt : Option Str)
  | boolRef (ctype name : Str) (isIn isOut byPtr : Bool)
  | cstring (ctype name : Str) (dflt : Option Str)
  | char (ctype name : Str) (dflt : Option Str)
  | stdString (name : Str) (dflt : Option Str)
  | stdStringRef (name : Str) (isIn isOut : Bool) (dflt : Option Str)
  | stdStringPtr (name : Str) (isIn isOut transfer : Bool)
  | glib (name : Str) (dflt : Option Str)
  | glibRef (name : Str) (isIn isOut : Bool)
  | glibPtr (name : Str) (isIn isOut transfer : Bool)
  | pyObject (ctype name : Str) (transfer : Bool)
  | container (full conv pystruct pytype short name : Str) (isIn isOut : Bool) (dflt : Option Str)
  | containerPtrIn (full conv name : Str) (transfer : Bool)
  | containerPtrOut (full pystruct pytype short name : Str)
  | array (ctype name : Str) (len : Nat) (isIn isOut : Bool) (elemCheck get mk : Tmpl → Tmpl)
  | refOut (c : Returns.RCls) (name : Str) (rest : List Tmpl) (create : Tmpl) (register post : List Tmpl)
  /-- a class parameter (direction in or inout), with the handler's code and the text of `write_unregister_wrapper` -/
  | cls (p : Par) (s : Snip) (unregister : Option Str)

def H.desc : H → Desc
  | .scalar s => s.desc
  | .bool t n d => boolDesc t n d
  | .boolRef t n i o p => boolRefDesc t n i o p
  | .cstring t n d => cstringDesc t n d
  | .char t n d => charDesc t n d
  | .stdString n d => stdStringDesc n d
  | .stdStringRef n i o d => stdStringRefDesc n i o d
  | .stdStringPtr n i o t => stdStringPtrDesc n i o t
  | .glib n d => glibDesc n d
  | .glibRef n i o => glibRefDesc n i o
  | .glibPtr n i o t => glibPtrDesc n i o t
  | .pyObject c n t => pyObjectDesc c n t
  | .container f c ps pt s n i o d => containerDesc f c ps pt s n i o d
  | .containerPtrIn f c n t => containerPtrInDesc f c n t
  | .containerPtrOut f ps pt s n => containerPtrOutDesc f ps pt s n
  | .array c n l i o e g m => arrayDesc c n l i o e g m
  | .refOut c n r cr rg po => refOutDesc c.pystruct n (allocTmpl c r) cr rg po c.subclassing
  | .cls p s u => s.desc p.name u

/-- The variables whose content `transfer_ownership` gives to the C++ function: the string, the Python object, the object of
the wrapper.  (A container is copied for the function in the call expression.) -/
def H.takes : H → List Nat
  | .stdStringPtr _ _ _ true => [2]
  | .glibPtr _ _ _ true => [1]
  | .pyObject _ _ true => [0]
  | .cls p _ _ =>
    match p.kind with
    | .ptr _ true _ => [0]
    | _ => []
  | _ => []

/-- The text of `write_incref`. -/
def H.inc : H → Option Str
  | .cls p _ _ =>
    match p.kind with
    | .ptr _ true (some t) => some t
    | _ => none
  | _ => none

def H.arg (h : H) : Arg := ⟨h.desc, h.takes, h.inc⟩

/-- The texts the user gives as default values and the class configuration as statements: they allocate nothing.  The code
of a class parameter is the one its handler makes. -/
def H.Plain : H → Prop
  | .scalar s => (∀ x, s.init = some x → isNew x = false) ∧ s.fmt ≠ "et".toList ∧ s.fmt ≠ "N".toList
  | .cstring _ _ d => ∀ x, d = some x → isNew x = false
  | .char _ _ d => ∀ x, d = some x → isNew x = false
  | .container _ _ _ _ _ _ _ _ d => ∀ x, d = some x → isNew x = false
  | .refOut _ _ r cr rg po => ∀ t ∈ r ++ cr :: rg ++ po, writeEff none t = zero
  | .cls p s u => (∃ num, p.snip num = .ok s) ∧ (∀ d, p.dflt = some d → isNew d = false) ∧ (∀ t, u = some t →
      t ≠ "Py_INCREF((PyObject*) ".toList ∧ (H.cls p s u).inc ≠ some t) ∧
      (∀ t, (H.cls p s u).inc = some t → t ∉ ["if (".toList, "}".toList, "Py_INCREF((PyObject*) ".toList])
  | _ => True

/-- Handlers that acquire something before the call. -/
def H.eager : H → Bool
  | .stdStringPtr _ _ _ t => t
  | .glib _ _ => true
  | .glibRef _ i _ => i
  | .glibPtr _ i _ t => i || t
  | .pyObject _ _ t => t
  | .containerPtrOut _ _ _ _ _ => true
  | .refOut _ _ _ _ _ _ => true
  | .cls p _ _ =>
    match p.kind with
    | .ptr _ t _ => t
    | _ => false
  | _ => false

/-- Handlers of `Glib::ustring` that read the argument. -/
def H.glibIn : H → Bool
  | .glib _ _ => true
  | .glibRef _ i _ => i
  | .glibPtr _ i _ _ => i
  | _ => false

/-! ## Return values -/

/-- A return value handler and whether the caller owns what the function returns. -/
structure Ret where
  d : RDesc
  owned : Bool
  /-- the variable the value is in -/
  value : Str := "retval".toList

def ropEff : ROp → Nat → Int
  | .write t => writeEff none t
  | .add _ => zero

/-- What happens to the value returned. -/
def Ret.resultEff (r : Ret) : Int :=
  (if r.owned then 1 else 0) +
  (if r.d.ops.contains (.add [tx "free(retval);"]) then -1 else 0) +
  (match r.d.out with
   | some (f, [[.text v]]) => if f = "N".toList ∧ v = r.value then -1 else 0
   | _ => 0)

/-- The ledger of the handler's variables when the call returns. -/
def Ret.varEff (r : Ret) (i : Nat) : Int := sumEff ropEff r.d.ops i + outEff r.d.out i

/-- Return value handlers. -/
inductive RH where
  | void
  | scalar (fmt : Str)
  | char
  | cstring (ctype function : Str) (freeAfterCopy : Bool)
  | string (size : String)
  | pyObject (owned : Bool)
  | container (ctype full pystruct pytype short : Str)
  | cls (c : Returns.RCls) (short : Str) (rest : List Tmpl) (create : Tmpl) (register post : List Tmpl)

def RH.ret : RH → Ret
  | .void => ⟨voidRet, false, "retval".toList⟩
  | .scalar f => ⟨scalarRet f "retval".toList, false, "retval".toList⟩
  | .char => ⟨charRet "retval".toList, false, "retval".toList⟩
  | .cstring c f b => ⟨cstringRet "retval".toList c f b, b, "retval".toList⟩
  | .string s => ⟨stringRet "retval".toList s, false, "retval".toList⟩
  | .pyObject o => ⟨pyObjectRet "retval".toList o, o, "retval".toList⟩
  | .container c f ps pt s => ⟨containerRet c f ps pt s, false, "retval".toList⟩
  | .cls c s r cr rg po => ⟨classRet c.pystruct s (allocTmpl c r) c.subclassing cr rg po, false, "retval".toList⟩

def RH.Plain : RH → Prop
  | .scalar f => f ≠ "N".toList
  | .cls _ _ r cr rg po => ∀ t ∈ r ++ cr :: rg ++ po, writeEff none t = zero
  | _ => True

/-- **Nothing is left over** at the end of a call: of no parameter, and nothing of the result. -/
def Clean (l : List (H × Bool)) (r : RH) (e : End) : Prop :=
  (∀ (pos : Nat) (h : H) (given : Bool), l[pos]? = some (h, given) → ∀ i, h.arg.balance given pos e i = 0) ∧
  (e = .done → r.ret.resultEff = 0 ∧ ∀ i, r.ret.varEff i = 0)

end Verif.Ledger
