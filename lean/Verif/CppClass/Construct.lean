import Verif.Overload.Props

/-!
# Constructors

`CppConstructor`, `CppFunctionAsConstructor`, `CppNoConstructor` (pybindgen/cppmethod.py:536-872), the choice
of `tp_init` (`CppClass._generate_constructor`, pybindgen/cppclass.py:2247-2289), creation of instances
(cppclass.py:243-264, 1080-1122; typehandlers/smart_ptr.py:74-134), the constructors of helper classes
(cppclass.py:383-401) and `inherit_default_constructors` (cppclass.py:1268-1281).

Not modelled here: the code that parses the arguments (`Wrapper/Forward.lean`; C41 says which values the
argument expressions have), cleanups (C42), the GIL (C44) and the translation of C++ exceptions (C73).
-/
namespace Verif.Construct
open Verif Verif.Utils Verif.Overload

inductive Vis where
  | pub | prot | priv
  deriving DecidableEq, Repr

/-- The type of the member `obj` of the wrapper structure: a plain pointer, `boost::shared_ptr` or
`std::shared_ptr`. -/
inductive Ptr where
  | raw | boost | std
  deriving DecidableEq, Repr

/-- One class of a hierarchy, as far as creating instances is concerned. -/
structure Level where
  /-- `instance_creation_function`, a function of the user -/
  custom : Option Str := none
  /-- the memory policy: none, or one with members of the given type (reference counting and free
  functions use plain pointers) -/
  policy : Option Ptr := none
  deriving DecidableEq, Repr

/-- The type of `obj` a policy leads to. -/
def ptrOf (p : Option Ptr) : Ptr := p.getD .raw

/-- How instances are created. -/
inductive Create where
  | plain (p : Ptr)
  | custom (f : Str)
  deriving DecidableEq, Repr

/-- `get_instance_creation_function`, cppclass.py:1080-1086, over the classes of `get_mro()`: after the loop
`cls` is the last of them. -/
def creationOf (mro : List Level) : Create :=
  match mro.findSome? (·.custom) with
  | some f => .custom f
  | none =>
    match mro.getLast? with
    | some l => .plain (ptrOf l.policy)
    | none => .plain .raw

structure Helper where
  name : Str
  /-- `cannot_be_constructed` -/
  cannot : Bool := false
  deriving DecidableEq, Repr

/-- A wrapped class. -/
structure Cls where
  full : Str
  name : Str
  pytype : Str
  /-- the class itself and what `get_mro()` gives after it -/
  own : Level := {}
  above : List Level := []
  incomplete : Bool := false
  /-- `cannot_be_constructed`: the reason, if any -/
  cannot : Str := []
  /-- `have_pure_virtual_methods` -/
  abstract : Bool := false
  helper : Option Helper := none
  /-- `post_instance_creation_function`, a function of the user -/
  post : Option Str := none
  deriving DecidableEq, Repr

def Cls.mro (K : Cls) : List Level := K.own :: K.above

/-- What `generate_forward_declarations` decides about the helper class, cppclass.py:1855-1864. -/
def Cls.prepare (K : Cls) : Cls :=
  let K := if K.helper.any (·.cannot) then { K with helper := none } else K
  if K.abstract && K.helper.isNone then
    { K with cannot := "have pure virtual methods but no helper class".toList }
  else K

/-- `get_construct_name`, cppclass.py:1114-1122. -/
def Cls.constructName (K : Cls) : PyRes Str :=
  if K.cannot ≠ [] then .error .codeGenerationError
  else if K.abstract then .error .codeGenerationError
  else .ok K.full

/-- A constructor. -/
structure Ctor where
  vis : Vis := .pub
  /-- types and names of the parameters -/
  params : List (Str × Str) := []
  /-- `call_params`: the expressions passed -/
  args : List Str := []
  /-- the exception raised by a type handler, if a parameter cannot be converted -/
  fails : Option PyErr := none
  /-- `throw` -/
  throws : List Str := []
  /-- the C function, for `add_function_as_constructor` -/
  function : Option Str := none
  deriving DecidableEq, Repr

/-! ## The code of a constructor -/

/-- Statements of the call part. -/
inductive Stmt where
  /-- `self->obj = new T(args);`, `self->obj.reset (new T(args));`, `self->obj = std::make_shared<T>(args);` -/
  | create (k : Create) (type : Str) (args : List Str)
  /-- `self->obj = f(args);` -/
  | callFn (f : Str) (args : List Str)
  /-- `self->flags = PYBINDGEN_WRAPPER_FLAG_NONE;` -/
  | own
  /-- `((H*) self->obj)->set_pyobj((PyObject *)self);` -/
  | setPyobj (helper : Str)
  /-- code written by the user's function -/
  | post (f : Str)
  | comment (v : Vis)
  /-- `PyErr_SetString(PyExc_TypeError, "class '...' cannot be constructed");` -/
  | raise (cls : Str)
  /-- `return -1;` -/
  | fail
  deriving DecidableEq, Repr

/-- The call part: straight code, or a decision on `Py_TYPE(self) != &pytype`. -/
inductive Body where
  | straight (l : List Stmt)
  | bySub (pytype : Str) (sub exact : List Stmt)
  deriving DecidableEq, Repr

/-- `write_create_instance` with the creation functions, cppclass.py:1094-1098, 258-264,
smart_ptr.py:88-95, 124-134; a function of the user is trusted not to raise. -/
def createStmt (K : Cls) (type : Str) (args : List Str) : PyRes Stmt :=
  match creationOf K.mro with
  | .custom f => .ok (.create (.custom f) type args)
  | .plain p => if K.incomplete then .error .codeGenerationError else .ok (.create (.plain p) type args)

/-- `write_post_instance_creation_code`, cppclass.py:1100-1106. -/
def postStmts (K : Cls) : List Stmt := (K.post.map Stmt.post).toList

/-- `CppConstructor.generate_call`, cppmethod.py:644-692, and `CppFunctionAsConstructor.generate_call`,
812-821, without the `try` around it. -/
def callBody (K : Cls) (c : Ctor) : PyRes Body :=
  match c.function with
  | some f =>
    if K.helper.isSome then .error .assertionError
    else .ok (.straight [.callFn f c.args, .own])
  | none =>
    match K.helper with
    | none => do
      let n ← K.constructName
      let s ← createStmt K n c.args
      pure (.straight (s :: postStmts K ++ [.own]))
    | some h => do
      let s ← createStmt K h.name c.args
      let exact ← match (if c.vis ≠ .pub then .error .codeGenerationError else K.constructName) with
        | .error _ => pure [.comment c.vis, .raise K.name, .fail]
        | .ok n => do
          let e ← createStmt K n c.args
          pure ([.comment c.vis, e, .own] ++ postStmts K)
      pure (.bySub K.pytype ([s, .own, .setPyobj h.name] ++ postStmts K) exact)

/-- `generate_body` of a constructor: the parameters are converted first, base.py:871-878. -/
def genBody (K : Cls) (c : Ctor) : PyRes Body :=
  match c.fails with
  | some e => .error e
  | none => callBody K c

/-- `CppConstructor.generate`, cppmethod.py:715-757. -/
def generate (K : Cls) (c : Ctor) : PyRes Body :=
  match c.vis with
  | .priv => .error .skipWrapper
  | .prot => if K.helper.isNone then .error .skipWrapper else genBody K c
  | .pub => genBody K c

/-! ## `tp_init` -/

/-- What overload sets of constructors ask of them. -/
def ctorOps (handler : Handler Ctor) (K : Cls) : Ops Ctor :=
  { flags := fun c => (genBody K c).map (fun _ => ["METH_VARARGS".toList, "METH_KEYWORDS".toList])
    gen := fun c => (generate K c).map (fun _ => ())
    needsIface := fun _ => false
    docstring := fun _ => none
    handler := handler }

/-- The constructors an overload set has code for, in the order in which they are tried. -/
def written (o : Ops Ctor) (cs : List Ctor) : List Ctor :=
  match normalize o cs with
  | .ok kept => kept.filter (fun c => match o.gen c with
    | .ok _ => true
    | .error _ => false)
  | .error _ => []

/-- The slot `tp_init`. -/
inductive Slot where
  /-- `NULL` -/
  | null
  /-- `CppNoConstructor`, cppmethod.py:852-872 -/
  | refuse (reason : Str)
  /-- these constructors -/
  | ctors (cs : List Ctor)
  deriving DecidableEq, Repr

/-- `_generate_constructor`, cppclass.py:2247-2289. -/
def tpInit (handler : Handler Ctor) (base pystruct : Str) (K : Cls) (cs : List Ctor) : PyRes Slot :=
  if cs ≠ [] ∧ (K.cannot = [] ∨ K.helper.any (fun h => !h.cannot)) then
    match Overload.generate (ctorOps handler K) base pystruct cs with
    | .ok _ => .ok (.ctors (written (ctorOps handler K) cs))
    | .error .skipWrapper => .ok .null
    | .error e => .error e
  else .ok (.refuse K.cannot)

/-! ## What C++ makes of it -/

/-- May an instance created this way be stored in a member of the type? -/
def Create.fits : Create → Ptr → Bool
  | .plain .raw, p => p = .raw
  | .plain .boost, p => p ≠ .raw          -- `reset` is a member of both
  | .plain .std, p => p = .std
  | .custom _, _ => true

/-- Does a statement of the constructor `c` compile?  `T` must be a type that can be instantiated here:
the class itself if it is complete, not abstract, and the constructor public; the helper class if the
constructor is accessible to derived classes. -/
def Stmt.compiles (K : Cls) (c : Ctor) : Stmt → Bool
  | .create k t _ => k.fits (ptrOf K.own.policy) &&
      ((t = K.full && !K.abstract && c.vis = .pub) || (K.helper.any (·.name = t) && c.vis ≠ .priv))
  | .callFn _ _ => ptrOf K.own.policy = .raw
  | .setPyobj _ => ptrOf K.own.policy = .raw
  | _ => true

def Body.compiles (K : Cls) (c : Ctor) : Body → Bool
  | .straight l => l.all (Stmt.compiles K c)
  | .bySub _ a b => a.all (Stmt.compiles K c) && b.all (Stmt.compiles K c)

/-! ## Running it -/

/-- A C++ object: the class it was created as (or the function it came from), the arguments, and whether
it knows its Python object. -/
structure Inst where
  type : Str
  args : List Str
  pyself : Bool := false
  deriving DecidableEq, Repr

/-- The Python object being initialized. -/
structure Self where
  obj : Option Inst := none
  /-- `flags` is `PYBINDGEN_WRAPPER_FLAG_NONE` -/
  owns : Bool := true
  /-- objects that were owned through a plain pointer that has been overwritten -/
  lost : List Inst := []
  deriving DecidableEq, Repr

/-- How `tp_init` ends. -/
inductive End where
  /-- `return 0;` -/
  | done (s : Self)
  /-- an exception is set -/
  | raised (s : Self)
  /-- a C++ exception left the constructor of the object -/
  | thrown (s : Self)
  deriving DecidableEq, Repr

/-- Storing a new object in `obj`: shared pointers let go of the old one. -/
def Self.store (p : Ptr) (s : Self) (i : Inst) : Self :=
  { s with obj := some i
           lost := if p = .raw then s.lost ++ s.obj.toList else s.lost }

/-- Straight code; `throws` says whether creating the object throws. -/
def run (p : Ptr) (throws : Bool) : List Stmt → Self → End
  | [], s => .done s
  | .create _ t args :: l, s => if throws then .thrown s else run p throws l (s.store p ⟨t, args, false⟩)
  | .callFn f args :: l, s => if throws then .thrown s else run p throws l (s.store p ⟨f, args, false⟩)
  | .own :: l, s => run p throws l { s with owns := true }
  | .setPyobj _ :: l, s => run p throws l { s with obj := s.obj.map (fun i => { i with pyself := true }) }
  | .post _ :: l, s => run p throws l s
  | .comment _ :: l, s => run p throws l s
  | .raise _ :: l, s => run p throws l s
  | .fail :: _, s => .raised s

/-- The constructor applied to an object; `sub`: its Python type is not the type of the class itself. -/
def Body.run (p : Ptr) (sub throws : Bool) (s : Self) : Body → End
  | .straight l => Construct.run p throws l s
  | .bySub _ a b => Construct.run p throws (if sub then a else b) s

/-! ## Calling a type -/

/-- A wrapped class with its slot. -/
structure Wrapped where
  K : Cls
  slot : Slot

/-- What calling a type gives. -/
inductive Result where
  | exception (s : Self)
  | object (s : Self)
  /-- the program does not exist: the constructor could not be generated or compiled -/
  | undefined
  deriving DecidableEq, Repr

/-- What `tp_init` of a class does; `accepts` says which constructors accept the arguments of the call (the
first one that does is called, C23), `throws` whether creating the object throws (the exception is
translated or, if it is not declared, ends the process; only the former is a result). -/
def Wrapped.call (x : Wrapped) (accepts : Ctor → Bool) (sub throws : Bool) (s : Self) : Option Result :=
  match x.slot with
  | .null => none
  | .refuse _ => some (.exception s)
  | .ctors cs =>
    match cs.find? accepts with
    | none => some (.exception s)
    | some c =>
      match generate x.K c with
      | .error _ => some .undefined
      | .ok b =>
        match b.run (ptrOf x.K.own.policy) sub throws s with
        | .done s => some (.object s)
        | .raised s => some (.exception s)
        | .thrown s => some (.exception s)

/-- Calling the Python type of the first class, or a Python subclass of it (`sub`): an empty slot is
inherited from the next class (`inherit_slots` of CPython's typeobject.c), `sub` then holds in any case;
the last one is `object`, whose `tp_init` does nothing. -/
def callType (accepts : Ctor → Bool) (throws : Bool) (s : Self) : List Wrapped → Bool → Result
  | [], _ => .object s
  | x :: xs, sub =>
    match x.call accepts sub throws s with
    | some r => r
    | none => callType accepts throws s xs true

/-! ## Constructors of the helper class -/

/-- A constructor of the helper class: its parameters, and what it passes to the constructor of the class. -/
structure HCtor where
  params : List (Str × Str)
  passes : List Str
  deriving DecidableEq, Repr

/-- cppclass.py:383-401; the argument is `implemented_constructor_signatures`. -/
def helperCtors : List (List Str) → List Ctor → List HCtor
  | _, [] => []
  | seen, c :: cs =>
    let sig := c.params.map Prod.fst
    if sig ∈ seen then helperCtors seen cs
    else ⟨c.params, c.params.map Prod.snd⟩ :: helperCtors (seen ++ [sig]) cs

/-! ## Inherited constructors -/

/-- A constructor of a base class as `inherit_default_constructors` sees it: visibility, number of
parameters, and the class whose reference parameter handler the first one has, if any. -/
structure BCtor where
  vis : Vis
  nparams : Nat
  refTo : Option Nat := none
  deriving DecidableEq, Repr

/-- What is added. -/
inductive Added where
  | default (v : Vis)
  | copy (v : Vis)
  deriving DecidableEq, Repr

/-- `inherit_default_constructors`, cppclass.py:1268-1281; bases by number, the first one is `self.parent`. -/
def inheritDefaults (bases : List (Nat × List BCtor)) : List Added :=
  bases.flatMap fun b => b.2.filterMap fun c =>
    if c.nparams = 0 then some (.default c.vis)
    else if c.nparams = 1 ∧ c.refTo.isSome ∧ c.refTo = (bases.head?).map Prod.fst then some (.copy c.vis)
    else none

end Verif.Construct
