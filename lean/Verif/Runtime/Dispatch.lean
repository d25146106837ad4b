import Verif.CppClass.HelperProps
import Verif.Wrapper.Forward

/-!
# Virtual methods between C++ and Python

What runs when a virtual method is called: the virtual method proxies of helper classes (`CppVirtualMethodProxy.generate`,
cppmethod.py:1056-1134), the wrappers of methods (`CppMethod.generate_call`, cppmethod.py:240-308), the parent callers
(`CppVirtualMethodParentCaller`, cppmethod.py:877-962; cppclass.py:298-337, 421-440, 479-503) and the method tables in which
Python finds them (cppclass.py:2395-2412), over the declarations of `CppClass/Methods.lean`.

One virtual method is followed; the others matter only where they have the same name.
-/
namespace Verif.Dispatch
open Verif Verif.CppClass

/-! ## The call in a method wrapper -/

/-- What a method wrapper calls. -/
inductive CallForm where
  /-- `Cls::method(…)` -/
  | static (cls : Str)
  /-- `self->obj->method(…)` -/
  | virtual
  /-- `(helper_class == NULL)? (self->obj->method(…)) : (self->obj->Cls::method(…))`, where `helper_class` is
  `dynamic_cast<Helper*> (self->obj)` -/
  | guarded (helper cls : Str)
  deriving DecidableEq, Repr

/-- Which of them, cppmethod.py:257-266, 272-300: `helper` is the name of `class_.helper_class`. -/
def callForm (isStatic isVirtual isPure deprecated : Bool) (helper : Option Str) (cls : Str) : CallForm :=
  if isStatic then .static cls
  else match helper with
    | none => .virtual
    | some h => if isVirtual ∧ isPure = false ∧ deprecated = false then .guarded h cls else .virtual

/-- Text of the call; `v` is the variable `helper_class`. -/
def CallForm.text (method args v : Str) : CallForm → Str
  | .static cls => cls ++ "::".toList ++ method ++ "(".toList ++ args ++ ")".toList
  | .virtual => "self->obj->".toList ++ method ++ "(".toList ++ args ++ ")".toList
  | .guarded _ cls => "(".toList ++ v ++ " == NULL)? (self->obj->".toList ++ method ++ "(".toList ++ args ++ ")) : (self->obj->".toList ++
      cls ++ "::".toList ++ method ++ "(".toList ++ args ++ "))".toList

/-- `CppMethod.generate_call`, cppmethod.py:240-308, without `throw` and template arguments.  (A static virtual method does
not exist in C++; for one the variable would be declared too.) -/
def methodCall (isStatic isVirtual isPure deprecated : Bool) (helper : Option Str) (cls assign method : Str) : Wrap.Gen1 := fun w => do
  match callForm isStatic isVirtual isPure deprecated helper cls with
  | .guarded h c =>
    let (w, v) ← w.declare (h ++ " *".toList) "helper_class".toList (some ("dynamic_cast<".toList ++ h ++ "*> (self->obj)".toList)) none
    pure (w.op (.write 1 (assign ++ (CallForm.guarded h c).text method (pyJoin ", ".toList w.call) v ++ ";".toList)))
  | f => pure (w.op (.write 1 (assign ++ f.text method (pyJoin ", ".toList w.call) [] ++ ";".toList)))

/-! ## The program -/

/-- Wrapped classes and one virtual method. -/
structure Prog where
  h : Hier
  /-- what was declared to pybindgen -/
  σ : St
  /-- the method -/
  s : Sig
  /-- the classes that define it in C++ -/
  defines : Nat → Bool
  /-- the order in which Python looks attributes up in a wrapped class and its bases -/
  pyMro : Nat → List Nat
  /-- `settings.deprecated_virtuals` -/
  deprecated : Bool := false
  /-- the method returns nothing -/
  void : Bool := true

/-- The class `e` whose definition `c::m` designates in C++ (with single inheritance). -/
inductive Designates (P : Prog) : Nat → Nat → Prop where
  | own {c} : P.defines c = true → Designates P c c
  | base {c b e} : P.defines c = false → P.h.bases c = [b] → Designates P b e → Designates P c e

/-- The helper class of a class as generated: with the inherited virtual methods (cppclass.py:1854-1862). -/
def Prog.helper (P : Prog) (c : Nat) : Option Helper :=
  match (P.σ c).helper with
  | none => none
  | some H =>
    let H' := inheritVirtuals P.h P.σ c H
    if H'.cannotBeConstructed then none else some H'

/-- The proxy by which the helper class of `c` overrides the method (C55: at most one). -/
def Prog.proxy (P : Prog) (c : Nat) : Option Meth :=
  match P.helper c with
  | none => none
  | some H => H.virtualMethods.find? (fun m => m.sig = P.s)

/-- The name Python uses to override the method, cppmethod.py:1029-1032, 1070-1075. -/
def Prog.pyName (P : Prog) : Str := if P.deprecated then '_' :: P.s.name else P.s.name

/-- The methods with a parent caller, cppclass.py:298-308. -/
def Prog.callers (P : Prog) (c : Nat) : List Meth :=
  match P.helper c with
  | none => []
  | some H => H.virtualMethods.filter (fun m => !m.isPure && (m.vis = .prot || P.deprecated && m.vis = .pub))

/-- What an attribute look-up finds. -/
inductive Found where
  /-- the override in Python class `i` -/
  | py (i : Nat)
  /-- the wrapper of a public method in the table of class `d` -/
  | wrapper (d : Nat) (m : Meth)
  /-- the parent caller in the table of class `d` -/
  | parent (d : Nat) (m : Meth)
  /-- a method of that name but not with this signature -/
  | other
  | missing
  deriving DecidableEq, Repr

/-- The method table of a wrapped class: public methods first, then parent callers, cppclass.py:2395-2409, 498-502. -/
def Prog.table (P : Prog) (d : Nat) : Found :=
  match (P.σ d).methods.find? (fun p => p.1 = P.pyName) with
  | some (_, ms) =>
    match ms.find? (fun m => m.sig = P.s) with
    | some m => .wrapper d m
    | none => .other
  | none =>
    match (P.callers d).find? (fun m => m.sig = P.s) with
    | some m => .parent d m
    | none => if (P.callers d).any (fun m => m.sig.name = P.s.name) then .other else .missing

/-- Look-up in a list of wrapped classes. -/
def Prog.lookup (P : Prog) : List Nat → Found
  | [] => .missing
  | d :: ds => if P.table d = .missing then P.lookup ds else P.table d

/-! ## Objects and calls -/

/-- What the body of a Python override does that matters here. -/
inductive Step where
  /-- `super().m(…)` -/
  | super
  /-- `D.m(self, …)` for a wrapped class `D` -/
  | base (d : Nat)
  deriving DecidableEq, Repr

inductive Obj where
  /-- created in C++, or of the wrapped class itself: the class with the final overrider -/
  | plain (final : Nat)
  /-- an instance of a Python class derived from wrapped class `c`, which has a helper class: a helper object
  (cppmethod.py:640-700).  `py` are the Python classes, nearest first, each with its override if it has one. -/
  | helper (c : Nat) (py : List (Option (List Step)))
  deriving DecidableEq, Repr

/-- The first override in Python classes number `i` and following. -/
def firstOverride : Nat → List (Option (List Step)) → Option (Nat × List Step)
  | _, [] => none
  | i, some l :: _ => some (i, l)
  | i, none :: rest => firstOverride (i + 1) rest

/-- What `super().m` finds in Python class `i`, `i = -1` being the instance: the rest of the Python classes, then the wrapped
ones. -/
def Prog.next (P : Prog) (c : Nat) (py : List (Option (List Step))) (i : Nat) : Found :=
  match firstOverride i (py.drop i) with
  | some (j, _) => .py j
  | none => P.lookup (P.pyMro c)

inductive Ev where
  /-- the override of Python class `i` -/
  | py (i : Nat)
  /-- the C++ definition in class `d` -/
  | cxx (d : Nat)
  /-- the proxy of a pure or private virtual method that Python does not override: returns (void), or ends the process -/
  | nothing
  | fatal
  | typeError
  | attributeError
  deriving DecidableEq, Repr

inductive Call where
  /-- `obj->m(…)` in C++ -/
  | virt
  /-- `obj->D::m(…)` in C++ -/
  | qual (d : Nat)
  /-- calling from Python what a look-up has found -/
  | found (f : Found)
  /-- the rest of the body of the override in Python class `i` -/
  | body (i : Nat) (l : List Step)

/-- Which form the wrapper in the table of class `d` has. -/
def Prog.form (P : Prog) (d : Nat) (m : Meth) : CallForm :=
  callForm false m.isVirtual m.isPure P.deprecated ((P.helper d).map (fun _ => [])) []

/-- Is the object an instance of the helper class of `d`? (`dynamic_cast`; helper classes derive from their class only) -/
def Obj.isHelper : Obj → Nat → Bool
  | .plain _, _ => false
  | .helper c _, d => c = d

/-- What the body of an override looks up. -/
def Prog.stepFound (P : Prog) (c : Nat) (py : List (Option (List Step))) (i : Nat) : Step → Found
  | .super => P.next c py (i + 1)
  | .base d => P.lookup (P.pyMro d)

/-- **What runs**, for one call on one object.  Python exceptions are not propagated. -/
inductive Eval (P : Prog) : Obj → Call → List Ev → Prop where
  /-- C++ calls the final overrider -/
  | plain (f : Nat) : Eval P (.plain f) .virt [.cxx f]
  /-- the helper class does not override the method -/
  | inherited {c py t} : P.proxy c = none → Eval P (.helper c py) (.qual c) t → Eval P (.helper c py) .virt t
  /-- the proxy finds an override in Python, cppmethod.py:1077-1131 -/
  | override {c py m i l t} : P.proxy c = some m → firstOverride 0 py = some (i, l) →
      Eval P (.helper c py) (.body i l) t → Eval P (.helper c py) .virt (.py i :: t)
  /-- the proxy finds none (or a built-in method, which is what the wrappers of methods are) and calls the C++ method,
  cppmethod.py:1078-1110 -/
  | fallback {c py m t} : P.proxy c = some m → firstOverride 0 py = none → m.isPure = false → m.vis ≠ .priv →
      Eval P (.helper c py) (.qual m.owner) t → Eval P (.helper c py) .virt t
  /-- or there is none -/
  | noBody {c py m} : P.proxy c = some m → firstOverride 0 py = none → m.isPure = true ∨ m.vis = .priv →
      Eval P (.helper c py) .virt [if P.void then .nothing else .fatal]
  | qual {o d e} : Designates P d e → Eval P o (.qual d) [.cxx e]
  /-- method wrappers -/
  | direct {o d m h c t} : P.form d m = .guarded h c → o.isHelper d = true → Eval P o (.qual d) t →
      Eval P o (.found (.wrapper d m)) t
  | through {o d m h c t} : P.form d m = .guarded h c → o.isHelper d = false → Eval P o .virt t →
      Eval P o (.found (.wrapper d m)) t
  | always {o d m t} : P.form d m = .virtual → Eval P o .virt t → Eval P o (.found (.wrapper d m)) t
  /-- parent callers, cppmethod.py:920-962 -/
  | parent {o d m t} : o.isHelper d = true → Eval P o (.qual m.owner) t → Eval P o (.found (.parent d m)) t
  | refused {o d m} : o.isHelper d = false → Eval P o (.found (.parent d m)) [.typeError]
  | other {o} : Eval P o (.found .other) [.typeError]
  | missing {o} : Eval P o (.found .missing) [.attributeError]
  /-- overrides -/
  | py {c py i l t} : py[i]? = some (some l) → Eval P (.helper c py) (.body i l) t →
      Eval P (.helper c py) (.found (.py i)) (.py i :: t)
  | stop {o i} : Eval P o (.body i []) []
  | step {c py i x l t u} : Eval P (.helper c py) (.found (P.stepFound c py i x)) t → Eval P (.helper c py) (.body i l) u →
      Eval P (.helper c py) (.body i (x :: l)) (t ++ u)

end Verif.Dispatch
