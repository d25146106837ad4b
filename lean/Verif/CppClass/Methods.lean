import Verif.CppClass.Hierarchy

/-!
# Methods of wrapped classes

`CppClass._add_method_obj`, `add_method`, `get_all_methods`, `get_have_pure_virtual_methods`,
`get_helper_class`, `set_helper_class_disabled`, `_inherit_helper_class_parent_virtuals`
(pybindgen/cppclass.py:980-1027, 1283-1294, 1427-1602, 1787-1799) and
`CppHelperClass.add_virtual_method` (cppclass.py:285-312).

The class hierarchy is a fixed `Hier`: bases never change after construction and constructing a class
reads and writes none of the attributes below, so creating every class first and adding methods
later loses no history.

Not modelled: generated code, parent callers (cppclass.py:298-308, 315-337, 1453-1459), static
methods, an overload set that refuses a method (cppclass.py:1472-1475), `add_include`.
-/
namespace Verif.CppClass
open Verif

/-- What `matches_signature` compares: mangled name, parameter C types and constness
(cppmethod.py:183-193). -/
structure Sig where
  name : Str
  params : List Str
  isConst : Bool
  deriving DecidableEq, Repr

/-- Visibility of a method, cppmethod.py:94. -/
inductive MVis where
  | pub | prot | priv
  deriving DecidableEq, Repr

/-- A method of a class: a `CppMethod`, a `CppDummyMethod` when it could not be wrapped
(`isDummy`, cppmethod.py:524-533), or a plain `Function` (`isCpp = false`,
cppclass.py:1435-1447).  `owner` is the attribute `class_`. -/
structure Meth where
  sig : Sig
  owner : Nat
  isVirtual : Bool := false
  isPure : Bool := false
  vis : MVis := .pub
  isCpp : Bool := true
  isDummy : Bool := false
  deriving DecidableEq, Repr

/-- `CppHelperClass`, cppclass.py:272-283. -/
structure Helper where
  virtualMethods : List Meth := []
  cannotBeConstructed : Bool := false
  deriving DecidableEq, Repr

/-- The attributes of a class used here, cppclass.py:629-665. `methods` is the dict of overload
sets in insertion order. -/
structure ClsM where
  allowSubclassing : Bool := false
  isSingleton : Bool := false
  methods : List (Str × List Meth) := []
  nonpublic : List Meth := []
  dummies : List Meth := []
  cache : Option Bool := none
  disabled : Bool := false
  helper : Option Helper := none
  deriving DecidableEq, Repr

/-- The attributes of every class. -/
abbrev St := Nat → ClsM

/-- Assignment to the attributes of one class. -/
def St.put (σ : St) (c : Nat) (x : ClsM) : St := fun d => if d = c then x else σ d

@[simp] theorem St.put_self (σ : St) (c : Nat) (x : ClsM) : σ.put c x c = x := by simp [St.put]

theorem St.put_ne (σ : St) {c d : Nat} (x : ClsM) (h : d ≠ c) : σ.put c x d = σ d := by
  simp [St.put, h]

/-- `get_all_methods`, cppclass.py:980-986. -/
def ClsM.allMethods (x : ClsM) : List Meth := x.methods.flatMap (·.2) ++ x.nonpublic

/-- `list(cls.get_all_methods()) + cls._dummy_methods`, cppclass.py:1002, 1012. -/
def ClsM.declared (x : ClsM) : List Meth := x.allMethods ++ x.dummies

/-- The inner loop of `get_have_pure_virtual_methods` over one child class, cppclass.py:1012-1021:
the first virtual `CppMethod` of the same signature decides. -/
def childImplements (m : Meth) : List Meth → Bool
  | [] => false
  | c :: cs =>
    if !c.isCpp then childImplements m cs
    else if !c.isVirtual then childImplements m cs
    else if c.sig ≠ m.sig then childImplements m cs
    else !c.isPure

/-- `implemented`, cppclass.py:1010-1023. -/
def implementedIn (m : Meth) : List (List Meth) → Bool
  | [] => false
  | ms :: rest => if childImplements m ms then true else implementedIn m rest

/-- The outer loop, cppclass.py:1001-1025, over the reversed MRO. -/
def abstractLoop : List (List Meth) → Bool
  | [] => false
  | ms :: rest =>
    (ms.any fun m => m.isCpp && m.isPure && !implementedIn m rest) || abstractLoop rest

/-- The computation of `get_have_pure_virtual_methods`, cppclass.py:996-1025, without the cache. -/
def computeAbstract (h : Hier) (σ : St) (c : Nat) : Bool :=
  abstractLoop ((h.mro c).reverse.map fun d => (σ d).declared)

/-- `get_have_pure_virtual_methods`, cppclass.py:994-1027: the cached value if there is one. -/
def queryAbstract (h : Hier) (σ : St) (c : Nat) : Bool × St :=
  match (σ c).cache with
  | some v => (v, σ)
  | none =>
    let v := computeAbstract h σ c
    (v, σ.put c { σ c with cache := some v })

/-- `get_helper_class`, cppclass.py:1283-1294. -/
def getHelper (h : Hier) (σ : St) (c : Nat) : Option Helper × St :=
  if (h.mro c).any (fun d => (σ d).disabled) then (none, σ)
  else if !(σ c).allowSubclassing then (none, σ)
  else match (σ c).helper with
    | some H => (some H, σ)
    | none =>
      if (σ c).isSingleton then (none, σ)
      else (some {}, σ.put c { σ c with helper := some {} })

/-- `CppHelperClass.add_virtual_method`, cppclass.py:285-312. -/
def Helper.addVirtual (H : Helper) (m : Meth) : Helper :=
  if H.virtualMethods.any (fun e => e.sig = m.sig) then H
  else if m.isDummy then
    if m.isPure then { H with cannotBeConstructed := true } else H
  else { H with virtualMethods := H.virtualMethods ++ [m] }

/-- `self.methods[name]` gets one more wrapper, cppclass.py:1464-1473. -/
def addToOverloads (d : List (Str × List Meth)) (name : Str) (m : Meth) : List (Str × List Meth) :=
  match d with
  | [] => [(name, [m])]
  | (k, ms) :: rest => if k = name then (k, ms ++ [m]) :: rest else (k, ms) :: addToOverloads rest name m

/-- `_add_method_obj`, cppclass.py:1427-1516; `method.class_ = self` first. A protected method that
is not virtual is recorded nowhere. -/
def addMethodObj (h : Hier) (σ : St) (c : Nat) (m : Meth) : St :=
  let m := { m with owner := c }
  let σ1 :=
    if m.vis = .prot && !m.isVirtual then (getHelper h σ c).2
    else if m.vis = .pub then σ.put c { σ c with methods := addToOverloads (σ c).methods m.sig.name m }
    else σ.put c { σ c with nonpublic := (σ c).nonpublic ++ [m] }
  if m.isVirtual then
    let σ2 := σ1.put c { σ1 c with cache := none }
    match getHelper h σ2 c with
    | (some H, σ3) => σ3.put c { σ3 c with helper := some (H.addVirtual m) }
    | (none, σ3) => σ3
  else σ1

/-- `add_method` when the method cannot be wrapped, cppclass.py:1554-1571. -/
def addDummy (h : Hier) (σ : St) (c : Nat) (m : Meth) : St :=
  if m.isVirtual then
    let m := { m with owner := c }
    let σ1 := σ.put c { σ c with dummies := (σ c).dummies ++ [m], cache := none }
    match getHelper h σ1 c with
    | (some H, σ2) =>
      let H' := H.addVirtual m
      if H'.cannotBeConstructed then σ2.put c { σ2 c with helper := none, disabled := true }
      else σ2.put c { σ2 c with helper := some H' }
    | (none, σ2) => σ2
  else σ

/-- `set_helper_class_disabled`, cppclass.py:1599-1602. -/
def setDisabled (σ : St) (c : Nat) (flag : Bool) : St :=
  σ.put c { σ c with disabled := flag, helper := if flag then none else (σ c).helper }

/-- Calls a user can make. -/
inductive MOp where
  /-- `cls.add_method(...)` of a method that can be wrapped -/
  | add (c : Nat) (m : Meth)
  /-- `cls.add_function_as_method(...)`: always public and not virtual, cppclass.py:1435-1447 -/
  | addFunction (c : Nat) (sig : Sig)
  /-- `cls.add_method(...)` of a method that cannot be wrapped -/
  | addUnwrappable (c : Nat) (m : Meth)
  /-- reading `cls.have_pure_virtual_methods` -/
  | query (c : Nat)
  /-- `cls.set_helper_class_disabled(flag)` -/
  | disable (c : Nat) (flag : Bool)

/-- Effect of one call.  A method that can be wrapped is no `CppDummyMethod`, one that cannot is. -/
def mstep (h : Hier) (σ : St) : MOp → St
  | .add c m => addMethodObj h σ c { m with isDummy := false, isCpp := true }
  | .addFunction c s => addMethodObj h σ c { sig := s, owner := c, isCpp := false }
  | .addUnwrappable c m => addDummy h σ c { m with isDummy := true, isCpp := true }
  | .query c => (queryAbstract h σ c).2
  | .disable c b => setDisabled σ c b

/-- State after a history, starting from classes without methods. -/
def mrun (h : Hier) (σ : St) (ops : List MOp) : St := ops.foldl (mstep h) σ

/-- Freshly constructed classes: `allowSubclassing` and `isSingleton` as given. -/
def fresh (allow singleton : Nat → Bool) : St :=
  fun c => { allowSubclassing := allow c, isSingleton := singleton c }

/-- `_inherit_helper_class_parent_virtuals`, cppclass.py:1787-1799; a clone keeps signature, owner,
virtuality and visibility (cppmethod.py:209-228). -/
def inheritVirtuals (h : Hier) (σ : St) (c : Nat) (H : Helper) : Helper :=
  (((h.mro c).tail.flatMap fun d => (σ d).allMethods).filter (·.isVirtual)).foldl Helper.addVirtual H

/-! ## Specification: C++ abstract classes -/

/-- Class `d` declares a virtual method of signature `s`. -/
def Declares (σ : St) (d : Nat) (s : Sig) : Prop :=
  ∃ m ∈ (σ d).declared, m.isCpp = true ∧ m.isVirtual = true ∧ m.sig = s

/-- Class `d` declares a pure virtual method of signature `s`. -/
def DeclaresPure (σ : St) (d : Nat) (s : Sig) : Prop :=
  ∃ m ∈ (σ d).declared, m.isCpp = true ∧ m.isPure = true ∧ m.sig = s

/-- C++: a class is abstract iff some final overrider is pure virtual; a declaration in `d` is the
final overrider in `c` if no class between them (below `d`, `c` or above it) redeclares it. -/
def IsAbstract (h : Hier) (σ : St) (c : Nat) : Prop :=
  ∃ d s, Ancestor h d c ∧ DeclaresPure σ d s ∧
    ∀ e, Ancestor h e c → Ancestor h d e → e ≠ d → ¬ Declares σ e s

/-- What C++ guarantees about the declarations of each class: a pure method is virtual, and a
signature is declared virtual at most once. -/
def WellFormed (σ : St) : Prop :=
  ∀ d, (∀ m ∈ (σ d).declared, m.isPure = true → m.isVirtual = true) ∧
    ∀ m ∈ (σ d).declared, ∀ m' ∈ (σ d).declared, m.isVirtual = true → m'.isVirtual = true →
      m.isCpp = true → m'.isCpp = true → m.sig = m'.sig → m = m'

end Verif.CppClass
