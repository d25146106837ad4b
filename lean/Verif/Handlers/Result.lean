import Verif.Handlers.CallbackProps
import Verif.Handlers.ReturnsProps
import Verif.Wrapper.Reverse

/-!
# Objects returned by Python overrides (Python to C++)

`convert_python_to_c` of the return value handlers of classes: `CppClassReturnValue`
(cppclass.py:3276-3288), `CppClassRefReturnValue` (3354-3369), `CppClassPtrReturnValue` (3794-3846) and
`CppClassSharedPtrReturnValue` (smart_ptr.py:353-364).  The code they write goes to the `after_call`
block of a reverse wrapper (block 1 of `Verif.Wrap.reverseGenerate`); it runs after the result of the
Python method has been parsed, and is followed by the cleanups, which drop that result
(cppmethod.py:1039).

Simplifications: as in `Handlers/Returns.lean`; transformations of the value are left out.  The content
of a C++ object is one number, which copying copies.
-/
namespace Verif.Overrides
open Verif Verif.Lifetime Verif.Handlers
open Verif.Wrap (Gen1 W)
open Verif.Returns (RCls)

/-- The return value of a virtual method. -/
inductive RKind where
  /-- `CppClassReturnValue`; `isRef` is `type_traits.type_is_reference` -/
  | value (isRef : Bool)
  /-- `CppClassRefReturnValue`; `const` is `type_traits.target_is_const` -/
  | ref (isRef const : Bool)
  /-- `CppClassPtrReturnValue` -/
  | ptr (own const : Bool)
  /-- `CppClassSharedPtrReturnValue` -/
  | shared
  deriving DecidableEq, Repr

/-- Statements around `retval` and the wrapper variable `tmp`. -/
inductive J where
  /-- `K retval = *tmp->obj;` (`REQUIRES_ASSIGNMENT_CONSTRUCTOR` is true for both handlers) -/
  | copyLocal
  /-- `retval = new K(*tmp->obj);` (`write_create_instance`) -/
  | newCopy
  /-- the post instance creation code -/
  | post
  /-- `retval = tmp->obj;` -/
  | assign
  /-- `retval = const_cast< K* >(tmp->obj);` -/
  | castAssign
  /-- the same after a comment, `// dangerous!` -/
  | dangerous
  /-- `tmp->obj = NULL;` -/
  | clearObj
  /-- the policy's `write_incref` on `tmp->obj` -/
  | increfObj
  deriving DecidableEq, Repr

/-- The statements written to `after_call`. -/
def RKind.code (k : RKind) (c : RCls) : PyRes (List J) :=
  match k with
  | .value isRef => if isRef then .error .notSupportedError else .ok [.copyLocal]
  | .ref isRef const => if isRef && !const then .error .notSupportedError else .ok [.copyLocal]
  | .ptr own const =>
    if own then
      if !c.policy.counted then
        match Returns.copyValue c with
        | .ok _ => .ok (.newCopy :: if c.post.isSome then [.post] else [])
        | .error .codeGenerationError => .ok [.assign, .clearObj]
        | .error x => .error x
      else .ok [.increfObj, if const then .castAssign else .assign]
    else .ok [.dangerous]
  | .shared => .ok [.assign]

/-- `get_c_error_return`, cppclass.py:3245-3249, 3313-3320, 3758-3760, smart_ptr.py:322-324; called when
the reverse wrapper is created (base.py:564-565). -/
def RKind.errorReturn (k : RKind) (c : RCls) : PyRes Str :=
  match k with
  | .value isRef => if isRef then .error .notSupportedError else .ok ("return ".toList ++ c.fullName ++ "();".toList)
  | .ref isRef const =>
    if isRef && !const then .error .notSupportedError
    else .ok ("{static ".toList ++ c.fullName ++ " __err; return __err;}".toList)
  | _ => .ok "return NULL;".toList

/-- The text handed to `write_code`. -/
def J.text (c : RCls) (tmp : Str) : J → Str
  | .copyLocal => c.fullName ++ " retval = *".toList ++ tmp ++ "->obj;".toList
  | .newCopy =>
    match c.policy with
    | .smart true => "retval = std::make_shared<".toList ++ c.fullName ++ ">(*".toList ++ tmp ++ "->obj);".toList
    | .smart false => "retval.reset (new ".toList ++ c.fullName ++ "(*".toList ++ tmp ++ "->obj));".toList
    | _ => "retval = new ".toList ++ c.fullName ++ "(*".toList ++ tmp ++ "->obj);".toList
  | .post => c.post.getD []
  | .assign => "retval = ".toList ++ tmp ++ "->obj;".toList
  | .castAssign => "retval = const_cast< ".toList ++ c.fullName ++ "* >(".toList ++ tmp ++ "->obj);".toList
  | .dangerous => "// dangerous!\nretval = ".toList ++ tmp ++ "->obj;".toList
  | .clearObj => tmp ++ "->obj = NULL;".toList
  | .increfObj =>
    match c.policy with
    | .methods i _ => tmp ++ "->obj->".toList ++ i ++ "();".toList
    | .functions i _ => i ++ "(".toList ++ tmp ++ "->obj);".toList
    | _ => []

/-- `convert_python_to_c`. -/
def RKind.convert (k : RKind) (c : RCls) : Gen1 := fun w => do
  let code ← k.code c
  let (w, tmp) ← w.declare (c.pystruct ++ "*".toList) ("tmp_".toList ++ c.name) none none
  let w := w.addParse ⟨"O!".toList, ['&' :: c.pytype, '&' :: tmp], none, false⟩ false
  pure { w with ops := w.ops ++ code.map (fun j => Flow.Op.write 1 (j.text c tmp)) }

/-- Which of this is C++: a plain pointer is not assigned from a smart pointer. -/
def J.typed (c : RCls) (k : RKind) : J → Bool
  | .newCopy | .assign | .castAssign | .dangerous => c.policy.isSmart == (k == .shared)
  | _ => true

/-! ## Run time -/

/-- What is in `retval`. -/
inductive Out where
  | unset
  /-- an object of its own, with the content given -/
  | object (v : Nat)
  | pointer (p : Option Addr)
  deriving DecidableEq, Repr

/-- The process, the contents of C++ objects, and `retval`. -/
structure S where
  m : M
  val : Addr → Nat
  out : Out := .unset

/-- Fixed during the call: the class, its kind of smart pointer, and the address of the next object. -/
structure REnv where
  c : Cls
  smart : Bool
  b : Addr

/-- Use the object of the wrapper `p`, which must exist. -/
def S.onObj (s : S) (p : Wid) (f : Addr → S) : S :=
  match (s.m.w.ws p).obj with
  | none => { s with m := s.m.crash }
  | some a => if (s.m.w.heap a).isSome then f a else { s with m := s.m.crash }

/-- `retval = tmp->obj`: copying a smart pointer takes a reference. -/
def S.take (s : S) (e : REnv) (p : Wid) : S :=
  let v := (s.m.w.ws p).obj
  let s := { s with out := .pointer v }
  if e.smart then
    match v with
    | none => s
    | some a => { s with m := { s.m with w := cppGains (Lifetime.incref s.m.w a) a 1 } }
  else s

/-- The effect of a statement, `tmp` being wrapper `p`. -/
def J.exec (e : REnv) (p : Wid) (s : S) : J → S
  | .copyLocal => s.onObj p (fun a => { s with out := .object (s.val a) })
  | .newCopy => s.onObj p (fun a =>
      { s with m := { s.m with w := cppGains (Lifetime.alloc s.m.w e.b none) e.b 1 }
               val := upd s.val e.b (s.val a)
               out := .pointer (some e.b) })
  | .post => s
  | .assign | .castAssign | .dangerous => s.take e p
  | .clearObj =>
    -- C++ takes over what the wrapper owned
    let w' := Lifetime.setObj s.m.w p none
    match (s.m.w.ws p).obj with
    | none => { s with m := { s.m with w := w' } }
    | some a => { s with m := { s.m with w := if (s.m.w.ws p).notOwned then w' else cppGains w' a 1 } }
  | .increfObj => s.onObj p (fun a => { s with m := { s.m with w := cppGains (Lifetime.incref s.m.w a) a 1 } })

def execAll (e : REnv) (p : Wid) : List J → S → S
  | [], s => s
  | j :: js, s => execAll e p js (if s.m.fault then s else j.exec e p s)

/-- What the caller of the virtual method gets. -/
inductive Result where
  /-- the error value, or the parent's method -/
  | refused
  | object (v : Nat)
  /-- a reference to a variable that no longer exists -/
  | dangling
  | pointer (p : Option Addr)
  deriving DecidableEq, Repr

/-- `return retval;` from a function returning by value, by reference or a pointer. -/
def RKind.result (k : RKind) : Out → Result
  | .unset => .refused
  | .object v =>
    match k with
    | .ref true _ => .dangling
    | _ => .object v
  | .pointer p => .pointer p

/-- From the result of the Python method to the return of the C++ method.  `got` is the wrapper
returned, or `none` if the result is not an instance of the class (`O!` fails, base.py:652-654). -/
def runResult (k : RKind) (code : List J) (e : REnv) (got : Option Wid) (s : S) : S × Result :=
  match got with
  | none => (s, .refused)
  | some p =>
    let s := execAll e p code s
    (if s.m.fault then s else { s with m := s.m.decrefPy e.c p }, k.result s.out)

end Verif.Overrides
