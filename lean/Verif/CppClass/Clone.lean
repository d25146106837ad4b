import Verif.Exceptions.Props
import Verif.Runtime.Custodian
import Verif.CppClass.Classes

/-!
# Methods handed on to derived classes

`CppMethod.__init__` (pybindgen/cppmethod.py:24-129), `CppMethod.clone` (209-228), `CppMethod.generate_call`
(240-308) and its hooks (310-319), and the two places that hand methods on:

* `CppClass._add_method_obj`, cppclass.py:1490-1508: a class that defines a method gets, beside it, the overloads of
  the same name of its ancestors;
* `CppClass._generate_MI_parent_methods`, cppclass.py:2370-2373: a class with several bases gets the methods of its
  ancestors (C69).

Both call `clone()` and then set `class_`.
-/
namespace Verif.Clone
open Verif Verif.Flow Verif.Wrap Verif.Names Verif.Exceptions

/-- A parameter: its handler, `ctype`, the variable holding the Python object once converted (`py_name`), and the
option `custodian`. -/
structure Par where
  handler : ParamH
  ctype : Str
  pyName : Str := []
  custodian : Option Int := none

/-- A return value: its handler, `ctype`, whether it is stored by initialisation
(`REQUIRES_ASSIGNMENT_CONSTRUCTOR`), `py_name`, and the options `custodian` and `return_internal_reference`. -/
structure Ret where
  handler : FRet
  ctype : Str
  initialized : Bool := false
  pyName : Str := []
  custodian : Option Int := none
  internal : Bool := false

/-- The keyword `deprecated`. -/
inductive Deprecated where
  | no | yes | msg (s : Str)
  deriving DecidableEq, Repr

/-- The arguments of `CppMethod(...)`; those left out have the defaults of cppmethod.py:24-28. -/
structure Args where
  name : Str
  ret : Ret
  params : List Par
  isStatic : Bool := false
  template : List Str := []
  isVirtual : Option Bool := none
  isConst : Bool := false
  unblock : Option Bool := none
  isPure : Bool := false
  visibility : CppClass.Vis := .pub
  customName : Option Str := none
  deprecated : Deprecated := .no
  docstring : Option Str := none
  throw : List Exc := []

/-- A method object. -/
structure Method where
  name : Str
  mangled : Str
  ret : Ret
  params : List Par
  isStatic : Bool
  template : List Str
  isVirtual : Bool
  isPure : Bool
  isConst : Bool
  visibility : CppClass.Vis
  unblock : Bool
  deprecated : Deprecated
  docstring : Option Str
  throw : List Exc
  wards : List (Int × Int × Bool)

/-- What `scan_custodians_and_wards` reads, cppclass.py:3862-3872. -/
def annotations (r : Ret) (ps : List Par) : Custodian.Annotations :=
  { params := ps.map (·.custodian), retCustodian := r.custodian, returnInternalReference := r.internal }

/-- `CppMethod.__init__`, cppmethod.py:76-129; `setting` is `settings.unblock_threads`.  The backward compatibility
check (79-82) and the lookup of types (114-115) are left out. -/
def Args.make (setting : Bool) (a : Args) : PyRes Method := do
  let wards ← Custodian.scan (annotations a.ret a.params)
  pure
    { name := a.name, mangled := a.customName.getD (Utils.getMangledName a.name a.template), ret := a.ret
      params := a.params, isStatic := a.isStatic, template := a.template, isVirtual := a.isVirtual.getD a.isPure
      isPure := a.isPure, isConst := a.isConst, visibility := a.visibility, unblock := a.unblock.getD setting
      deprecated := a.deprecated, docstring := a.docstring, throw := a.throw, wards }

/-- `add_custodian_and_ward`, cppmethod.py:161-170. -/
def Method.addWard (m : Method) (custodian ward : Int) (postcall : Option Bool) : PyRes Method := do
  let wards ← Custodian.addCustodianAndWard m.wards custodian ward postcall
  pure { m with wards }

/-- The property `custom_name`, cppmethod.py:195-199. -/
def Method.customName (m : Method) : Option Str :=
  if m.mangled ≠ Utils.getMangledName m.name m.template then some m.mangled else none

/-- `clone`, cppmethod.py:209-228. -/
def Method.clone (setting : Bool) (m : Method) : PyRes Method := do
  let c ← Args.make setting
    { name := m.name, ret := m.ret, params := m.params, isStatic := m.isStatic, template := m.template
      isVirtual := some m.isVirtual, isPure := m.isPure, isConst := m.isConst, visibility := m.visibility
      customName := m.customName }
  pure { c with docstring := m.docstring }

/-! ## The wrapper of a method -/

/-- A class a method belongs to: `full_name`, and its helper class's name. -/
structure Owner where
  full : Str
  helper : Option Str := none

/-- `< a, b >`, cppmethod.py:245-248. -/
def templateText (l : List Str) : Str :=
  if l = [] then [] else "< ".toList ++ pyJoin ", ".toList l ++ " >".toList

/-- `retval_assign`, cppmethod.py:251-257. -/
def assignText (r : Ret) : Str :=
  if r.ctype = "void".toList then []
  else if r.initialized then r.ctype ++ " retval = ".toList
  else "retval = ".toList

/-- `generate_call`, cppmethod.py:240-308, without `deprecated_virtuals` (a setting that is off by default); the
parentheses around the call in the second alternative of line 289 are left out. -/
def Method.call (K : Owner) (clauses : List (Str × Str)) (m : Method) : Gen1 := fun w =>
  let t := m.name ++ templateText m.template
  match (if m.isVirtual && !m.isPure then K.helper else none) with
  | some h => do
    let (w, v) ← w.declare (h ++ " *".toList) "helper_class".toList
      (some ("dynamic_cast<".toList ++ h ++ "*> (self->obj)".toList)) none
    if m.isStatic then genCall (assignText m.ret) (K.full ++ "::".toList ++ t) clauses "return NULL;".toList w
    else
      genCall (assignText m.ret ++ "(".toList ++ v ++ " == NULL)? (".toList ++
          callText (String.ofList ("self->obj->".toList ++ t)) w.call ++ ") : ".toList)
        ("self->obj->".toList ++ K.full ++ "::".toList ++ t) clauses "return NULL;".toList w
  | none =>
    genCall (assignText m.ret) (if m.isStatic then K.full ++ "::".toList ++ t else "self->obj->".toList ++ t)
      clauses "return NULL;".toList w

/-- The text of a role, cppclass.py:3894-3902. -/
def Method.roleText (m : Method) : Custodian.Role → Str
  | .retval => "((PyObject *) ".toList ++ m.ret.pyName ++ ")".toList
  | .self => "((PyObject *) self)".toList
  | .param i => "((PyObject *) ".toList ++ ((m.params[i]?).map (·.pyName)).getD [] ++ ")".toList

/-- The relations to establish before (`post = false`) or after the call, cppclass.py:3905-3918. -/
def Method.hook (m : Method) (post : Bool) (block : Nat) : Gen1 := fun w =>
  match Custodian.implement m.params.length post m.wards with
  | .ok l => addWards block (l.map fun p => (m.roleText p.1, m.roleText p.2)) w
  | .error e => .error e

/-- The message of the deprecation warning, base.py:880-885. -/
def Deprecated.message : Deprecated → Option Str
  | .no => none
  | .yes => some "Deprecated".toList
  | .msg s => if s = [] then none else some s

/-- The wrapper of a method in class `K`; `none` if the message of an exception cannot be formatted. -/
def Method.config (pre : Str) (K : Owner) (m : Method) : Option Config :=
  (clauses pre m.throw).map fun cs =>
    { unblock := m.unblock, params := m.params.map (·.handler.convert), deprecated := m.deprecated.message
      pre := m.hook false 1, call := m.call K cs, ret := some m.ret.handler.convert, post := m.hook true 2 }

/-- The code of the wrapper. -/
def Method.wrapper (pre : Str) (K : Owner) (m : Method) (w : W) : Option (PyRes W) :=
  (m.config pre K).map fun c => generateBody c w

/-! ## C109 -/

/-- What a user declares: a method, and further relations between the objects involved. -/
structure Decl where
  args : Args
  wards : List (Int × Int × Option Bool) := []

def addAll : List (Int × Int × Option Bool) → Method → PyRes Method
  | [], m => .ok m
  | (c, w, p) :: l, m => do addAll l (← m.addWard c w p)

/-- The method object of a declaration. -/
def Decl.build (setting : Bool) (d : Decl) : PyRes Method := do addAll d.wards (← d.args.make setting)

theorem addAll_keeps : ∀ {l : List (Int × Int × Option Bool)} {m m' : Method}, addAll l m = .ok m' →
    m' = { m with wards := m'.wards }
  | [], m, m', h => by cases h; rfl
  | (c, w, p) :: l, m, m', h => by
    obtain ⟨m1, h1, h2⟩ := bind_ok.mp h
    obtain ⟨ws, -, h1⟩ := bind_ok.mp h1
    cases h1
    exact (addAll_keeps h2).trans rfl

/-- **C109, exactly what is kept.**  A method handed on to a derived class is the method declared without exceptions,
deprecation, thread handling and added custodians; everything else is as declared. -/
theorem C109_exact (setting : Bool) (d : Decl) (m : Method) (h : d.build setting = .ok m) :
    m.clone setting = ({ d.args with throw := [], deprecated := .no, unblock := none } : Args).make setting := by
  obtain ⟨m0, h1, h2⟩ := bind_ok.mp h
  have hk := addAll_keeps h2
  obtain ⟨ws, hw, h1⟩ := bind_ok.mp h1
  cases h1
  rw [hk]
  unfold Method.clone Args.make
  dsimp only
  rw [hw]
  simp only [Except.ok.injEq, bind, Except.bind, pure, Except.pure]
  congr 1
  unfold Method.customName
  dsimp only
  split
  · rfl
  · rename_i hx
    rw [ne_eq, Decidable.not_not] at hx
    exact hx.symm

/-- **C109 (partial: a method declared without exceptions, deprecation, thread handling of its own and added
custodians).**  The wrapper a derived class gets for the method of a base is the one it would have if the method had
been declared in the derived class: same arguments, same call, same result, same objects kept alive. -/
theorem C109_same_partial (setting : Bool) (d : Decl) (m : Method) (h : d.build setting = .ok m)
    (ht : d.args.throw = []) (hd : d.args.deprecated = .no) (hu : d.args.unblock = none) (hw : d.wards = []) :
    ∃ c, m.clone setting = .ok c ∧ ∀ pre K w, c.wrapper pre K w = m.wrapper pre K w := by
  have he := C109_exact setting d m h
  have : ({ d.args with throw := [], deprecated := .no, unblock := none } : Args) = d.args := by
    cases hda : d.args
    rw [hda] at ht hd hu
    simp only at ht hd hu
    subst ht hd hu
    rfl
  rw [this] at he
  obtain ⟨m0, h1, h2⟩ := bind_ok.mp h
  rw [hw] at h2
  cases h2
  exact ⟨m, he.trans h1, fun _ _ _ => rfl⟩

/-- Cloning does not fail. -/
theorem C109_defined (setting : Bool) (d : Decl) (m : Method) (h : d.build setting = .ok m) :
    ∃ c, m.clone setting = .ok c := by
  rw [C109_exact setting d m h]
  obtain ⟨m0, h1, -⟩ := bind_ok.mp h
  obtain ⟨ws, hw, -⟩ := bind_ok.mp h1
  exact ⟨_, by unfold Args.make; dsimp only; rw [hw]; rfl⟩

/-- **Signature.**  The copy matches exactly the signatures the method matches (`matches_signature`,
cppmethod.py:183-193: mangled name, parameter types, constness), and is as visible, static and virtual. -/
theorem C109_signature (setting : Bool) (d : Decl) (m c : Method) (h : d.build setting = .ok m)
    (hc : m.clone setting = .ok c) :
    c.mangled = m.mangled ∧ c.params.map (·.ctype) = m.params.map (·.ctype) ∧ c.isConst = m.isConst ∧
    c.visibility = m.visibility ∧ c.isStatic = m.isStatic ∧ c.isVirtual = m.isVirtual ∧ c.isPure = m.isPure ∧
    c.docstring = m.docstring := by
  rw [C109_exact setting d m h] at hc
  obtain ⟨m0, h1, h2⟩ := bind_ok.mp h
  have hk := addAll_keeps h2
  obtain ⟨ws, hw, h1⟩ := bind_ok.mp h1
  obtain ⟨ws', hw', hc⟩ := bind_ok.mp hc
  cases h1
  cases hc
  rw [hk]
  exact ⟨rfl, rfl, rfl, rfl, rfl, rfl, rfl, rfl⟩

/-! ## What is lost -/

/-- `void check() throw (Error)` -/
def thrower : Decl :=
  { args := { name := "check".toList, ret := { handler := .void, ctype := "void".toList }, params := []
              throw := [errBase] } }

/-- A method that is deprecated and gives up the GIL. -/
def slow : Decl :=
  { args := { name := "slow".toList, ret := { handler := .void, ctype := "void".toList }, params := []
              deprecated := .msg "use fast".toList, unblock := some true } }

/-- A method that stores an object, declared with `add_custodian_and_ward(0, 1)`. -/
def keeper : Decl :=
  { args := { name := "keep".toList, ret := { handler := .void, ctype := "void".toList }
              params := [{ handler := .scalar (byValue "i".toList "int".toList "a".toList none), ctype := "int".toList
                           pyName := "a".toList }] }
    wards := [(0, 1, none)] }

/-- The operations of the wrapper in class `D`. -/
def opsOf (m : PyRes Method) : Option (List Op) :=
  match m with
  | .error _ => none
  | .ok m => ((m.wrapper [] ⟨"D".toList, none⟩ {}).bind fun r => r.toOption).map (·.ops)

def bind2 (d : Decl) : PyRes Method := do (← d.build false).clone false

/-- **Exceptions are lost.**  The method translates `ns::Error`; handed on to a derived class it calls the C++ method
without a `try`, so that the exception leaves the extension module (and ends the process). -/
theorem C109_throw_counterexample :
    opsOf (thrower.build false) = some
      [.write 1 "try\n{".toList, .write 1 "self->obj->check();".toList,
       .branch 1 "catch (ns::Error const &exc)".toList []
         ["PyErr_SetString((PyObject *) Pyns__Error_Type, exc.what());".toList] "return NULL;".toList,
       .write 2 "Py_INCREF(Py_None);".toList, .write 2 "py_retval = Py_None;".toList, .cleanup 2,
       .ret 2 "return py_retval;".toList] ∧
    opsOf (bind2 thrower) = some
      [.write 1 "self->obj->check();".toList,
       .write 2 "Py_INCREF(Py_None);".toList, .write 2 "py_retval = Py_None;".toList, .cleanup 2,
       .ret 2 "return py_retval;".toList] := by
  constructor <;> decide +kernel

/-- **Deprecation and thread handling are lost.** -/
theorem C109_settings_counterexample :
    (opsOf (slow.build false)).map (fun l => decide (.check 1 (deprecatedText "use fast".toList) none ∈ l ∧
      .write 1 (saveText "py_thread_state".toList) ∈ l)) = some true ∧
    opsOf (bind2 slow) = some
      [.write 1 "self->obj->slow();".toList,
       .write 2 "Py_INCREF(Py_None);".toList, .write 2 "py_retval = Py_None;".toList, .cleanup 2,
       .ret 2 "return py_retval;".toList] := by
  constructor <;> decide +kernel

/-- **Added custodians are lost**: the object stored is no longer kept alive. -/
theorem C109_wards_counterexample :
    (opsOf (keeper.build false)).map (fun l => decide (.add 1 "Py_DECREF(wards);".toList ∈ l)) = some true ∧
    (opsOf (bind2 keeper)).map (fun l => decide (.add 1 "Py_DECREF(wards);".toList ∈ l)) = some false := by
  constructor <;> decide +kernel

/-- **In general**: however a method was declared, its copy catches nothing, never warns, and treats threads as the
global setting says. -/
theorem C109_lost (setting : Bool) (d : Decl) (m c : Method) (h : d.build setting = .ok m)
    (hc : m.clone setting = .ok c) :
    c.throw = [] ∧ c.deprecated = .no ∧ c.unblock = setting ∧
      Custodian.scan (annotations m.ret m.params) = .ok c.wards := by
  rw [C109_exact setting d m h] at hc
  obtain ⟨m0, h1, h2⟩ := bind_ok.mp h
  have hk := addAll_keeps h2
  obtain ⟨ws, hw, h1⟩ := bind_ok.mp h1
  obtain ⟨ws', hw', hc⟩ := bind_ok.mp hc
  cases h1
  cases hc
  rw [hk]
  exact ⟨rfl, rfl, rfl, hw'⟩

/-- Non-vacuity: a virtual method with a parameter that keeps `self` alive, handed on with all of it. -/
def plainMethod : Decl :=
  { args := { name := "visit".toList, ret := { handler := .void, ctype := "void".toList }
              params := [{ handler := .scalar (byValue "i".toList "int".toList "a".toList none), ctype := "int".toList
                           pyName := "a".toList, custodian := some 0 }]
              isVirtual := some true, customName := some "Visit".toList } }

example : (opsOf (bind2 plainMethod)).map (fun l => (l.length, decide (.add 1 "Py_DECREF(wards);".toList ∈ l))) =
    some (10, true) := by decide +kernel

end Verif.Clone
