import Verif.Basic
import Verif.Parser.AnnotationsProps
import Verif.Names.Model
import Mathlib.Data.List.Nodup
import Mathlib.Data.List.Forall2

/-!
# The functions of a generated script

A script consists of Python functions that call one another: `register_types`, `register_methods`,
`register_functions`, and one more for every namespace and class (castxmlparser.py:884-972, 1041-1065, 1538-1587,
2225-2247, 2427-2463).
-/
namespace Verif.Structure
open Verif

/-- A namespace with what is registered in it and the namespaces nested in it, as the parser visits them (sorted, and
without those whose name begins with two underscores).  The classes of a module are also seen as such a tree, one level
deep. -/
inductive NS (α : Type) where
  | node (name : Str) (own : List α) (subs : List (NS α))

def NS.name {α : Type} : NS α → Str
  | .node n _ _ => n

def NS.own {α : Type} : NS α → List α
  | .node _ o _ => o

def NS.subs {α : Type} : NS α → List (NS α)
  | .node _ _ s => s

/-! ## In memory -/

mutual
/-- What is registered while scanning, with the namespace it is registered in: its own things first, then one nested
namespace after the other (lines 2456-2463, 1575-1580). -/
def NS.scan {α : Type} (path : List Str) : NS α → List (List Str × α)
  | .node _ own subs => own.map (fun a => (path, a)) ++ scanSubs path subs
def scanSubs {α : Type} (path : List Str) : List (NS α) → List (List Str × α)
  | [] => []
  | s :: l => s.scan (path ++ [s.name]) ++ scanSubs path l
end

/-! ## In the script -/

/-- A statement in a function: a registration, or the call of another function with a nested module (lines 1556-1558
and 2440-2441) or class (line 907). -/
inductive Stmt (α : Type) where
  | own (a : α)
  | call (f : Str) (sub : Str)
  deriving DecidableEq

structure Def (α : Type) where
  name : Str
  body : List (Stmt α)
  deriving DecidableEq

/-- The body of the function of a namespace; `fname` gives the name of the function of a namespace. -/
def NS.body {α : Type} (fname : List Str → Str) (path : List Str) (t : NS α) : List (Stmt α) :=
  t.own.map .own ++ t.subs.map (fun s => .call (fname (path ++ [s.name])) s.name)

mutual
/-- The functions of a namespace and those nested in it, in the order in which they are written. -/
def NS.defs {α : Type} (fname : List Str → Str) (path : List Str) : NS α → List (Def α)
  | .node n own subs => ⟨fname path, (NS.node n own subs).body fname path⟩ :: defsSubs fname path subs
def defsSubs {α : Type} (fname : List Str → Str) (path : List Str) : List (NS α) → List (Def α)
  | [] => []
  | s :: l => s.defs fname (path ++ [s.name]) ++ defsSubs fname path l
end

/-- The function a name stands for when the whole script has been read: the one defined last. -/
def lookup {α : Type} (ds : List (Def α)) (f : Str) : Option (Def α) := ds.reverse.find? (fun d => d.name = f)

/-- Running statements inside a namespace; calling a function that does not exist has no result. -/
inductive Exec {α : Type} (ds : List (Def α)) : List Str → List (Stmt α) → List (List Str × α) → Prop where
  | nil {path : List Str} : Exec ds path [] []
  | own {path : List Str} {a : α} {l : List (Stmt α)} {out : List (List Str × α)} :
      Exec ds path l out → Exec ds path (.own a :: l) ((path, a) :: out)
  | call {path : List Str} {f sub : Str} {d : Def α} {l : List (Stmt α)} {o1 o2 : List (List Str × α)} :
      lookup ds f = some d → Exec ds (path ++ [sub]) d.body o1 → Exec ds path l o2 →
      Exec ds path (.call f sub :: l) (o1 ++ o2)

/-- Calling a function of the script by its name. -/
def Calls {α : Type} (ds : List (Def α)) (f : Str) (out : List (List Str × α)) : Prop :=
  ∃ d, lookup ds f = some d ∧ Exec ds [] d.body out

/-! ## Names -/

/-- The name of the function of a namespace: `pre` is `register_types` or `register_functions`, `base` is the namespace
of the module (module.py:656-675). -/
def nsName (pre : Str) (base path : List Str) : Str :=
  if path = [] then pre else pre ++ '_' :: pyJoin ['_'] (base ++ path)

def registerPre : Str := "register_".toList
def methodsPost : Str := "_methods".toList
def methodsPre : Str := "register_methods".toList

/-- The function for the methods of a class, line 906: `mangled` is the class's mangled full name. -/
def methodsName (mangled : Str → Str) : List Str → Str
  | [c] => registerPre ++ mangled c ++ methodsPost
  | _ => methodsPre

/-- A whole script: namespaces with their types, classes with their methods, namespaces with their functions. -/
structure Script (α : Type) where
  types : NS α
  methods : NS α
  functions : NS α

def typesPre : Str := "register_types".toList
def functionsPre : Str := "register_functions".toList

/-- All functions of the script. -/
def Script.defs {α : Type} (base : List Str) (mangled : Str → Str) (s : Script α) : List (Def α) :=
  s.types.defs (nsName typesPre base) [] ++ s.methods.defs (methodsName mangled) [] ++
    s.functions.defs (nsName functionsPre base) []

/-- `main`, lines 961-966. -/
def RunsMain {α : Type} (ds : List (Def α)) (out : List (List Str × α)) : Prop :=
  ∃ o1 o2 o3, Calls ds typesPre o1 ∧ Calls ds methodsPre o2 ∧ Calls ds functionsPre o3 ∧ out = o1 ++ o2 ++ o3

/-- What was registered while scanning. -/
def Script.scan {α : Type} (s : Script α) : List (List Str × α) := s.types.scan [] ++ s.methods.scan [] ++ s.functions.scan []

/-! ## Sections -/

mutual
/-- What goes into one section: all functions are there, with the registrations of that section. -/
def NS.only {α : Type} (sel : α → Bool) : NS α → NS α
  | .node n own subs => .node n (own.filter sel) (onlySubs sel subs)
def onlySubs {α : Type} (sel : α → Bool) : List (NS α) → List (NS α)
  | [] => []
  | s :: l => s.only sel :: onlySubs sel l
end

/-- The function of the main section first calls the functions of the other sections, in their order (lines 1050-1065,
2232-2246; for methods they come last, lines 909-924), and each section is a Python module of its own. -/
def RunsSections {α σ : Type} [DecidableEq σ] (fname : List Str → Str) (main : σ) (others : List σ) (sec : α → σ) (t : NS α)
    (out : List (List Str × α)) : Prop :=
  ∃ outs own, List.Forall₂ (fun s o => Calls ((t.only (fun a => sec a = s)).defs fname []) (fname []) o) others outs ∧
    Calls ((t.only (fun a => sec a = main)).defs fname []) (fname []) own ∧ out = outs.flatten ++ own

end Verif.Structure
