import Verif.Handlers.ReturnsProps
import Verif.Wrapper.ProxyRelease
import Verif.Runtime.LifetimeProps

/-!
# Objects returned by Python overrides of virtual methods

`convert_python_to_c` of the return value handlers of classes: `CppClassReturnValue` (cppclass.py:3276-3288),
`CppClassRefReturnValue` (3354-3369), `CppClassPtrReturnValue` (3794-3846) and
`CppClassSharedPtrReturnValue` (smart_ptr.py:353-364).  They run in the proxy of a virtual method
(base.py:636-661) after the Python override has returned.

As in `Handlers/Returns.lean` the statements are kept as a syntax tree, which is rendered (`Stmt.text`) and
executed (`Stmt.exec`).

Simplifications: value transformations are the identity (`NullTypeTransformation`); the branch for
`REQUIRES_ASSIGNMENT_CONSTRUCTOR` false, which no return value of a virtual method takes (the flag is cleared
for static methods and attributes only), is left out; a custom `instance_creation_function` is not modelled,
the code of a `post_instance_creation_function` is opaque.  An object's contents are one number, its dynamic
class another.
-/
namespace Verif.Replies
open Verif Verif.Flow Verif.Params Verif.Wrap
open Verif.Returns (RCls Pol copyValue)
open Verif.Lifetime (World Cls upd)

/-- The handlers. -/
inductive Form where
  /-- `CppClassReturnValue`; `ref`: the type is a reference -/
  | value (ref : Bool)
  /-- `CppClassRefReturnValue`; `const`: the target is constant -/
  | ref (const : Bool)
  /-- `CppClassPtrReturnValue`; `own` is `caller_owns_return` -/
  | ptr (own const : Bool)
  /-- `CppClassSharedPtrReturnValue` -/
  | shared
  deriving DecidableEq, Repr

/-- Statements written to `after_call`; `tmp` is the variable the Python object was parsed into. -/
inductive Stmt where
  /-- `K retval = *tmp->obj;` -/
  | copyLocal
  /-- `retval = new K(*tmp->obj);` -/
  | create
  /-- the post instance creation code -/
  | post
  /-- `retval = tmp->obj;` -/
  | take
  /-- `retval = const_cast< K* >(tmp->obj);` -/
  | takeConst
  /-- `tmp->obj = NULL;` -/
  | clearObj
  /-- the policy's `write_incref` on `tmp->obj` -/
  | incref
  /-- `// dangerous!`, `retval = tmp->obj;` -/
  | danger
  deriving DecidableEq, Repr

/-- `write_post_instance_creation_code`, cppclass.py:1100-1106. -/
def postStmts (c : RCls) : List Stmt := if c.post.isSome then [.post] else []

/-- `convert_python_to_c`: the exceptions raised and the statements written. -/
def Form.code (f : Form) (c : RCls) : PyRes (List Stmt) :=
  match f with
  | .value isRef => if isRef then .error .notSupportedError else .ok [.copyLocal]
  | .ref const => if !const then .error .notSupportedError else .ok [.copyLocal]
  | .ptr own const =>
    if own then
      if !c.policy.counted then
        match copyValue c with
        | .ok _ => .ok (.create :: postStmts c)
        | .error e => if e = .codeGenerationError then .ok [.take, .clearObj] else .error e
      else .ok [.incref, if const then .takeConst else .take]
    else .ok [.danger]
  | .shared => .ok [.take]

/-- `get_c_error_return`, cppclass.py:3245-3249, 3313-3320, 3758-3760, smart_ptr.py:322-324. -/
def Form.errorReturn (f : Form) (c : RCls) : PyRes Str :=
  match f with
  | .value isRef => if isRef then .error .notSupportedError else .ok ("return ".toList ++ c.fullName ++ "();".toList)
  | .ref const =>
    if !const then .error .notSupportedError
    else .ok ("{static ".toList ++ c.fullName ++ " __err; return __err;}".toList)
  | .ptr _ _ => .ok "return NULL;".toList
  | .shared => .ok "return NULL;".toList

/-- The text of a statement; `v` is the name of the variable. -/
def Stmt.text (c : RCls) (v : Str) : Stmt → Str
  | .copyLocal => c.fullName ++ " retval = *".toList ++ v ++ "->obj;".toList
  | .create => "retval = new ".toList ++ c.fullName ++ "(*".toList ++ v ++ "->obj);".toList
  | .post => c.post.getD []
  | .take => "retval = ".toList ++ v ++ "->obj;".toList
  | .takeConst => "retval = const_cast< ".toList ++ c.fullName ++ "* >(".toList ++ v ++ "->obj);".toList
  | .clearObj => v ++ "->obj = NULL;".toList
  | .incref =>
    match c.policy with
    | .methods i _ => v ++ "->obj->".toList ++ i ++ "();".toList
    | .functions i _ => i ++ "(".toList ++ v ++ "->obj);".toList
    | _ => []
  | .danger => "// dangerous!\nretval = ".toList ++ v ++ "->obj;".toList

/-- `convert_python_to_c`: the variable, the parse unit (at the end, not at the front as for numbers), the
statements. -/
def Form.convert (f : Form) (c : RCls) : Gen1 := fun w => do
  let _ ← f.errorReturn c
  let (w, v) ← w.declare (c.pystruct ++ "*".toList) ("tmp_".toList ++ c.name) none none
  let w := w.addParse ⟨"O!".toList, ['&' :: c.pytype, '&' :: v], none, false⟩ false
  let code ← f.code c
  pure (writes 1 (code.map (Stmt.text c v)) w)

/-! ## Run time -/

/-- One call: the override returned the wrapper `py`; a copy goes to `fresh`; `stat` is the declared class. -/
structure Env where
  py : Nat
  fresh : Nat
  stat : Nat

/-- The process, the contents and dynamic classes of the C++ objects, the variables of the proxy; `null` is
set when a null pointer is followed. -/
structure M where
  world : World
  val : Nat → Nat
  dyn : Nat → Nat
  ptr : Option Nat
  loc : Option (Nat × Nat)
  null : Bool

/-- `*tmp->obj` is used by `k`. -/
def M.deref (m : M) (w : Nat) (k : Nat → M) : M :=
  match (m.world.ws w).obj with
  | none => { m with null := true }
  | some a => if m.world.heap a = none then { m with world := { m.world with bad := true } } else k a

/-- The effect of a statement.  Copying an object through its static type makes an object of that class. -/
def Stmt.exec (c : RCls) (e : Env) (m : M) : Stmt → M
  | .copyLocal => m.deref e.py (fun a => { m with loc := some (m.val a, e.stat) })
  | .create => m.deref e.py (fun a =>
      { m with world := Lifetime.alloc m.world e.fresh none
               val := upd m.val e.fresh (m.val a)
               dyn := upd m.dyn e.fresh e.stat
               ptr := some e.fresh })
  | .post => m
  | .take =>
    if c.policy.isSmart then
      match (m.world.ws e.py).obj with
      | none => { m with ptr := none }
      | some a => { m with world := Lifetime.incref m.world a, ptr := some a }
    else { m with ptr := (m.world.ws e.py).obj }
  | .takeConst => { m with ptr := (m.world.ws e.py).obj }
  | .clearObj => { m with world := Lifetime.setObj m.world e.py none }
  | .incref => m.deref e.py (fun a => { m with world := Lifetime.incref m.world a })
  | .danger => { m with ptr := (m.world.ws e.py).obj }

/-- Statements in sequence; nothing happens after a null pointer was followed. -/
def execAll (c : RCls) (e : Env) : M → List Stmt → M
  | m, [] => m
  | m, s :: ss => if m.null then m else execAll c e (s.exec c e m) ss

/-- What the C++ caller gets. -/
inductive Got where
  /-- the override's result was refused: the error return is taken -/
  | refused
  /-- an object by value: contents and class -/
  | value (v d : Nat)
  | pointer (p : Option Nat)
  /-- a reference to the proxy's local variable, which is gone -/
  | dangling
  deriving DecidableEq, Repr

/-- `return retval;`, base.py:661: for a reference return type this is a reference to `retval`. -/
def Form.result (f : Form) (m : M) : Got :=
  match f with
  | .value _ => match m.loc with
    | some (v, d) => .value v d
    | none => .refused
  | .ref _ => .dangling
  | .ptr _ _ => .pointer m.ptr
  | .shared => .pointer m.ptr

/-- The caller is told that what it gets is its own. -/
def Form.gives : Form → Bool
  | .ptr own _ => own
  | .shared => true
  | _ => false

/-- History variable: the caller counts the pointer it gets as one of its references. -/
def Form.hand (f : Form) (m : M) : M :=
  if f.gives then
    match m.ptr with
    | some a => { m with world := Lifetime.cppGains m.world a 1 }
    | none => m
  else m

/-- What a Python override may return. -/
inductive PyVal where
  | none
  | inst (w : Nat)
  | other

/-- The conversion of what the override returned: `O!` (`PyArg_ParseTuple`) accepts instances of the declared
class and its subclasses only, `isa` saying which wrappers are. -/
def convertResult (f : Form) (c : RCls) (code : List Stmt) (isa : Nat → Bool) (fresh stat : Nat) (m : M) :
    PyVal → M × Got
  | .none => (m, .refused)
  | .other => (m, .refused)
  | .inst w =>
    if isa w then
      let m' := execAll c ⟨w, fresh, stat⟩ { m with ptr := none, loc := none } code
      (f.hand m', f.result m')
    else (m, .refused)

/-! ## Histories -/

/-- What can happen: an event of `Runtime/Lifetime.lean`, after which the objects may have any contents; or
an override returns wrapper `w` to C++ through the handler `f`. -/
inductive Act where
  | ev (e : Lifetime.Ev) (val dyn : Nat → Nat)
  | over (f : Form) (w fresh stat : Nat)

/-- The class as the run time model sees it; smart pointers count references. -/
def cls (c : RCls) (sing dtor : Bool) : Cls :=
  { c.cls sing dtor with policy := if c.policy.isSmart then .refcount else (c.cls sing dtor).policy }

/-- One thing that happens. -/
def step (c : RCls) (sing dtor : Bool) (m : M) : Act → M
  | .ev e val dyn => { m with world := Lifetime.step (cls c sing dtor) m.world e, val, dyn }
  | .over f w fresh stat =>
    match f.code c with
    | .error _ => m
    | .ok code => (convertResult f c code (fun _ => true) fresh stat m (.inst w)).1

/-- A history. -/
def run (c : RCls) (sing dtor : Bool) : M → List Act → M
  | m, [] => m
  | m, x :: xs => run c sing dtor (step c sing dtor m x) xs

/-- The process after module initialisation. -/
def start : M := ⟨Lifetime.init, fun _ => 0, fun _ => 0, none, none, false⟩

/-- The object `w` is alive and has an object that is alive. -/
def Usable (s : World) (w : Nat) : Prop :=
  (s.ws w).live = true ∧ ∃ a, (s.ws w).obj = some a ∧ s.heap a ≠ none

/-- What the generated code gets right.  Pointers of smart pointer classes are returned by smart pointer, and
only those; an override returns Python objects that have a C++ object; and where no copy can be made, ones
that own it. -/
def Good (c : RCls) (sing dtor : Bool) (m : M) : Act → Prop
  | .ev e _ _ => Lifetime.Ok (cls c sing dtor) m.world e ∧ Lifetime.GoodMem (cls c sing dtor) m.world e
  | .over f w fresh _ =>
    (∃ code, f.code c = .ok code) ∧ Usable m.world w ∧ m.world.heap fresh = none ∧
    (f = .shared ↔ c.policy.isSmart = true) ∧
    (f.gives = true → c.policy.isSmart = false → c.policy.counted = false →
      copyValue c = .error .codeGenerationError → (m.world.ws w).notOwned = false)

/-- Every step of the history is one the generated code gets right. -/
def GoodAll (c : RCls) (sing dtor : Bool) : M → List Act → Prop
  | _, [] => True
  | m, x :: xs => Good c sing dtor m x ∧ GoodAll c sing dtor (step c sing dtor m x) xs

end Verif.Replies
