import Verif.Overload.Props

/-!
# The code of helper classes

`CppHelperClass` (pybindgen/cppclass.py:266-524): the methods added to it, the class written by
`generate_forward_declarations` and the definitions written by `generate`, with
`OverloadedWrapper.generate_class_declaration` (overloading.py:305-325), the parent callers
(cppmethod.py:877-935) and the declarations of overrides (cppmethod.py:1041-1065, base.py:665-673).

Simplifications: a class that is not imported from another module; no custom methods and no code added
by hooks (cppclass.py:466-467, 472-475, 520-522); constructors (C97), `set_pyobj` and the destructor are
left out; names of static functions are written without the prefix `Helper::` which line 312 of
overloading.py removes.  The body of a function is not modelled here (C41, C43, C56, C71), only whether
generating it raises an exception, which does not depend on when it is done.
-/
namespace Verif.HelperCode
open Verif Verif.Utils Verif.Overload

inductive Vis where
  | pub | prot | priv
  deriving DecidableEq, Repr

/-- A virtual method given to `add_virtual_method`. -/
structure VMeth where
  /-- `class_.full_name` -/
  owner : Str
  /-- `method_name`, the name in C++ -/
  name : Str
  /-- `mangled_name`: the custom name if there is one -/
  mangled : Str
  ret : Str
  /-- types and names of the parameters -/
  params : List (Str × Str) := []
  isConst : Bool := false
  isPure : Bool := false
  vis : Vis := .pub
  throws : List Str := []
  /-- a `CppDummyMethod` -/
  dummy : Bool := false
  /-- the exception raised when the override is generated, if any -/
  proxyFails : Option PyErr := none
  /-- the exception raised when the parent caller is generated, if any -/
  callerFails : Option PyErr := none
  /-- the parent caller alone needs no arguments -/
  noArgs : Bool := false
  deriving DecidableEq, Repr

/-- `matches_signature`, cppmethod.py:183-193. -/
def VMeth.matches (a b : VMeth) : Bool :=
  a.mangled = b.mangled ∧ a.params.map (·.1) = b.params.map (·.1) ∧ a.isConst = b.isConst

/-- `matches_signature` between parent callers, which are made from name, return value and parameters only
(cppmethod.py:883-887): `is_const` is false and there is no custom name. -/
def VMeth.callerMatches (a b : VMeth) : Bool :=
  mangleName a.name = mangleName b.name ∧ a.params.map (·.1) = b.params.map (·.1)

/-- A value of `virtual_parent_callers`: an overload set of parent callers. -/
structure PSet where
  name : Str
  wrappers : List VMeth
  /-- `force_parse` has been set by `_normalize_py_method_flags`, overloading.py:95-96 -/
  multi : Bool := false
  /-- code has been generated since the last `reset_code_generation_state` -/
  used : Bool := false
  deriving DecidableEq, Repr

/-- A `CppVirtualMethodProxy`. -/
structure Proxy where
  meth : VMeth
  used : Bool := false
  deriving DecidableEq, Repr

/-- `CppHelperClass`, cppclass.py:272-283. -/
structure Helper where
  methods : List VMeth := []
  sets : List PSet := []
  proxies : List Proxy := []
  /-- `cannot_be_constructed` -/
  cannot : Bool := false
  deriving DecidableEq, Repr

/-- `add_virtual_parent_caller`, cppclass.py:315-337, on the dict. -/
def addCaller (m : VMeth) : List PSet → List PSet
  | [] => [{ name := m.name, wrappers := [m] }]
  | s :: rest =>
    if s.name = m.name then
      (if s.wrappers.any (fun e => m.callerMatches e) then s else { s with wrappers := s.wrappers ++ [m] }) :: rest
    else s :: addCaller m rest

/-- The visibilities that get a parent caller, cppclass.py:299-303; `dep` is
`settings._get_deprecated_virtuals()`. -/
def hasCaller (dep : Bool) (m : VMeth) : Bool :=
  !m.isPure && (m.vis = .prot || (dep && m.vis = .pub))

/-- `add_virtual_method`, cppclass.py:285-312. -/
def Helper.add (dep : Bool) (H : Helper) (m : VMeth) : Helper :=
  if H.methods.any (fun e => m.matches e) then H
  else if m.dummy then (if m.isPure then { H with cannot := true } else H)
  else
    { H with
      methods := H.methods ++ [m]
      sets := if hasCaller dep m then addCaller m H.sets else H.sets
      proxies := H.proxies ++ [⟨m, false⟩] }

def build (dep : Bool) (ms : List VMeth) : Helper := ms.foldl (Helper.add dep) {}

/-! ## The class -/

inductive Kind where
  /-- a static member function -/
  | wrapper
  | virt
  /-- defined in the class -/
  | inl
  deriving DecidableEq, Repr

/-- A member function: what its declaration says. -/
structure Fn where
  kind : Kind
  ret : Str
  name : Str
  /-- the types of the parameters (of static functions: the texts of the parameters) -/
  types : List Str
  names : List Str := []
  isConst : Bool := false
  throws : List Str := []
  /-- the body, of a function defined in the class: class, method and arguments called, and whether the
  result is returned -/
  body : Option (Str × Str × List Str × Bool) := none
  deriving DecidableEq, Repr

/-- A definition outside the class; `copies` is how many times its body is there. -/
structure Def where
  fn : Fn
  copies : Nat
  deriving DecidableEq, Repr

/-- The objects given to the error handler. -/
inductive Obj where
  | set (name : Str)
  | caller (m : VMeth)
  | proxy (m : VMeth)

/-- The handler `settings.error_handler`, and the names used. -/
structure Env where
  handler : Handler Obj
  /-- `class_.pystruct` -/
  pystruct : Str

def outcome : Option PyErr → PyRes Unit
  | none => .ok ()
  | some e => .error e

def varargs : List Str := ["METH_VARARGS".toList, "METH_KEYWORDS".toList]

def flagsOf (m : VMeth) : PyRes (List Str) :=
  match m.callerFails with
  | none => .ok varargs
  | some e => .error e

/-- The parent callers as wrappers of an overload set: the flags are found by generating the body
(base.py:966-985). -/
def ops (E : Env) : Ops VMeth where
  flags := flagsOf
  gen := fun m => outcome m.callerFails
  needsIface := fun _ => false
  docstring := fun _ => none
  handler := E.handler.map fun h m e => h (.caller m) e

/-- The name of the C++ function of a set, without the class: cppmethod.py:176. -/
def wrapName (n : Str) : Str := "_wrap_".toList ++ n

/-- `OverloadedWrapper.generate`. -/
def PSet.generate (E : Env) (s : PSet) : PyRes (Out VMeth) :=
  Overload.generate (ops E) (wrapName s.name) E.pystruct s.wrappers

/-- The set after `generate`.  (When an exception leaves the loop over the flags, the wrappers removed
before are still removed; the others raise the same exception again.) -/
def PSet.after (E : Env) (s : PSet) : PSet :=
  match normalize (ops E) s.wrappers with
  | .ok l => { s with wrappers := l, multi := s.multi || decide (s.wrappers.length ≠ 1), used := true }
  | .error _ => { s with multi := true, used := true }

/-- `reset_code_generation_state`, overloading.py:322-325. -/
def PSet.reset (s : PSet) : PSet := { s with used := false }

/-- `get_wrapper_signature` of a parent caller, cppmethod.py:333-376. -/
def callerArgs (E : Env) (multi : Bool) (m : VMeth) : List Str :=
  if m.noArgs ∧ multi = false then
    [E.pystruct ++ " *self".toList, "PyObject *PYBINDGEN_UNUSED(_args)".toList,
     "PyObject *PYBINDGEN_UNUSED(_kwargs)".toList]
  else [E.pystruct ++ " *self".toList, "PyObject *args".toList, "PyObject *kwargs".toList]

def static (name : Str) (args : List Str) : Fn :=
  { kind := .wrapper, ret := "PyObject *".toList, name := name, types := args }

/-- A delegate of the main function, overloading.py:179, 186-189. -/
def delegateFn (E : Env) (n : Str) (m : VMeth) (k : Nat) : Fn :=
  static (delegateName (wrapName n) k) (callerArgs E true m ++ ["PyObject **return_exception".toList])

/-- The function the Python method calls: the only wrapper, or the dispatcher. -/
def mainFn (E : Env) (n : Str) (multi : Bool) : Out VMeth → Fn
  | .single m => static (wrapName n) (callerArgs E multi m)
  | .dispatcher args _ _ => static (wrapName n) args

/-- The loop of overloading.py:316-318: a wrapper that has not been generated has no name. -/
def delegateDecls (E : Env) (n : Str) : Nat → List VMeth → PyRes (List Fn)
  | _, [] => .ok []
  | k, m :: ms =>
    match m.callerFails with
    | some _ => .error .attributeError
    | none =>
      match delegateDecls E n (k + 1) ms with
      | .error e => .error e
      | .ok l => .ok (delegateFn E n m k :: l)

/-- `generate_class_declaration` after its call of `generate`, overloading.py:309-318; `s` is the set
after that call. -/
def classDecls (E : Env) (s : PSet) (out : Out VMeth) : PyRes (List Fn) :=
  if 1 < s.wrappers.length then
    match delegateDecls E s.name 0 s.wrappers with
    | .error e => .error e
    | .ok l => .ok (mainFn E s.name s.multi out :: l)
  else .ok [mainFn E s.name s.multi out]

/-- `generate_parent_caller_method`, cppmethod.py:920-934. -/
def inlineFn (m : VMeth) : Fn :=
  { kind := .inl, ret := m.ret, name := m.name ++ "__parent_caller".toList, types := m.params.map (·.1),
    names := m.params.map (·.2), body := some (m.owner, m.name, m.params.map (·.2), decide (m.ret ≠ "void".toList)) }

def guardSet (E : Env) (s : PSet) (r : PyRes (Out VMeth)) : PyRes (Out VMeth) :=
  callWithErrorHandling E.handler defaultHandled (.set s.name) r

/-- One turn of the loop over the parent callers, cppclass.py:422-440: what is declared, and the set
afterwards. -/
def declareSet (E : Env) (s : PSet) : PyRes (List Fn × PSet) :=
  let s0 := s.reset
  match guardSet E s0 (s0.generate E) with
  | .error .skipWrapper => .ok ([], (s0.after E).reset)
  | .error e => .error e
  | .ok _ =>
    let s1 := (s0.after E).reset
    match s1.generate E with
    | .error e => .error e
    | .ok out =>
      let s2 := s1.after E
      match classDecls E s2 out with
      | .error e => .error e
      | .ok l => .ok (l ++ s2.wrappers.map inlineFn, s2.reset)

def declareSets (E : Env) : List PSet → PyRes (List Fn × List PSet)
  | [] => .ok ([], [])
  | s :: rest =>
    match declareSet E s with
    | .error e => .error e
    | .ok (l, s') =>
      match declareSets E rest with
      | .error e => .error e
      | .ok (l', r) => .ok (l ++ l', s' :: r)

/-- `CppVirtualMethodProxy.generate`, cppmethod.py:1057-1127, base.py:614-661: generating twice without
a reset fails an assertion (base.py:620). -/
def Proxy.generate (p : Proxy) : PyRes Unit :=
  if p.used then .error .assertionError else outcome p.meth.proxyFails

def guardProxy (E : Env) (p : Proxy) (r : PyRes Unit) : PyRes Unit :=
  callWithErrorHandling E.handler defaultHandled (.proxy p.meth) r

/-- The declaration of an override, cppmethod.py:1041-1054, and the head of its definition,
cppmethod.py:1059-1065, base.py:666-673. -/
def virtFn (m : VMeth) : Fn :=
  { kind := .virt, ret := m.ret, name := m.name, types := m.params.map (·.1), names := m.params.map (·.2),
    isConst := m.isConst, throws := m.throws }

/-- The loop of cppclass.py:444-464; `none` is `return False`. -/
def declareProxies (E : Env) : List Proxy → PyRes (Option (List Fn) × List Proxy)
  | [] => .ok (some [], [])
  | p :: rest =>
    let p0 := { p with used := false }
    match guardProxy E p0 p0.generate with
    | .error .skipWrapper =>
      if p.meth.isPure then .ok (none, p0 :: rest)
      else
        match declareProxies E rest with
        | .error e => .error e
        | .ok (l, r) => .ok (l, p0 :: r)
    | .error e => .error e
    | .ok () =>
      match declareProxies E rest with
      | .error e => .error e
      | .ok (l, r) => .ok (l.map (virtFn p.meth :: ·), p0 :: r)

/-- `generate_forward_declarations`, cppclass.py:359-477: the member functions of the class, or `none`
if nothing is written and `cannot_be_constructed` is set. -/
def declare (E : Env) (H : Helper) : PyRes (Option (List Fn) × Helper) :=
  match declareSets E H.sets with
  | .error e => .error e
  | .ok (l, sets) =>
    match declareProxies E H.proxies with
    | .error e => .error e
    | .ok (none, ps) => .ok (none, { H with sets := sets, proxies := ps, cannot := true })
    | .ok (some l', ps) => .ok (some (l ++ l'), { H with sets := sets, proxies := ps })

/-! ## The definitions -/

/-- The delegates defined, overloading.py:167-193. -/
def delegateDefs (E : Env) (n : Str) (copies : Nat) : Nat → List VMeth → List Def
  | _, [] => []
  | k, m :: ms =>
    match m.callerFails with
    | some _ => delegateDefs E n copies (k + 1) ms
    | none => ⟨delegateFn E n m k, copies⟩ :: delegateDefs E n copies (k + 1) ms

/-- What a successful `generate` of a set writes; `s` is the set after it, `copies` counts the bodies
left from before.  The dispatcher itself is written directly. -/
def setDefs (E : Env) (s : PSet) (copies : Nat) : Out VMeth → List Def
  | .single m => [⟨mainFn E s.name s.multi (.single m), copies⟩]
  | .dispatcher args ds body =>
    delegateDefs E s.name copies 0 s.wrappers ++ [⟨mainFn E s.name s.multi (.dispatcher args ds body), 1⟩]

/-- An entry of the method table: the Python name and the function. -/
abbrev Entry := Str × Fn

/-- One turn of the loop, cppclass.py:489-504. -/
def defineSet (E : Env) (dep : Bool) (s : PSet) : PyRes (List Def × List Entry) :=
  match guardSet E s (s.generate E) with
  | .error .skipWrapper => .ok ([], [])
  | .error e => .error e
  | .ok out =>
    let s' := s.after E
    .ok (setDefs E s' (if s.used then 2 else 1) out,
         [((if dep then '_' :: s.name else s.name), mainFn E s'.name s'.multi out)])

def defineSets (E : Env) (dep : Bool) : List PSet → PyRes (List Def × List Entry)
  | [] => .ok ([], [])
  | s :: rest =>
    match defineSet E dep s with
    | .error e => .error e
    | .ok (d, t) =>
      match defineSets E dep rest with
      | .error e => .error e
      | .ok (d', t') => .ok (d ++ d', t ++ t')

/-- The loop of cppclass.py:507-518. -/
def defineProxies (E : Env) : List Proxy → PyRes (List Def)
  | [] => .ok []
  | p :: rest =>
    match guardProxy E p p.generate with
    | .error .skipWrapper => if p.meth.isPure then .error .assertionError else defineProxies E rest
    | .error e => .error e
    | .ok () =>
      match defineProxies E rest with
      | .error e => .error e
      | .ok l => .ok (⟨virtFn p.meth, 1⟩ :: l)

/-- `CppHelperClass.generate`, cppclass.py:479-524. -/
def define (E : Env) (dep : Bool) (H : Helper) : PyRes (List Def × List Entry) :=
  match defineSets E dep H.sets with
  | .error e => .error e
  | .ok (d, t) =>
    match defineProxies E H.proxies with
    | .error e => .error e
    | .ok d' => .ok (d ++ d', t)

end Verif.HelperCode
