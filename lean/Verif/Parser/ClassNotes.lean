import Verif.Parser.Annotations

/-!
# Annotations of classes

`ModuleParser._apply_class_annotations` (castxmlparser.py:974-1027), what `add_exception` accepts
(cppexception.py:8-9, module.py:591-598), and what `CppClass.__init__` makes of `allow_subclassing`
(cppclass.py:728-740).
-/
namespace Verif.ClassNotes
open Verif Verif.Annot

/-- The annotations a class can have, lines 978-1013. -/
inductive Note where
  | allowSubclassing | isSingleton | increfMethod | decrefMethod | peekrefMethod | narrowing | freeFunction
  | increfFunction | decrefFunction | pythonName | customName | pygenComment | exception | importFrom
  deriving DecidableEq, Repr

def names : List (Str × Note) :=
  [("allow_subclassing".toList, .allowSubclassing), ("is_singleton".toList, .isSingleton),
   ("incref_method".toList, .increfMethod), ("decref_method".toList, .decrefMethod),
   ("peekref_method".toList, .peekrefMethod), ("automatic_type_narrowing".toList, .narrowing),
   ("free_function".toList, .freeFunction), ("incref_function".toList, .increfFunction),
   ("decref_function".toList, .decrefFunction), ("python_name".toList, .pythonName),
   ("custom_name".toList, .customName), ("pygen_comment".toList, .pygenComment), ("exception".toList, .exception),
   ("import_from_module".toList, .importFrom)]

/-- The branch an annotation takes, lines 978-1011; `none`: unknown. -/
def noteOf (name : Str) : Option Note := names.lookup name

/-- A dictionary of annotations, in the order of its items. -/
abbrev Notes := List (Str × AVal)

/-- `annotations.get(name, None)`. -/
def Notes.get (a : Notes) (name : String) : AVal := (a.lookup name.toList).getD .none

/-- The memory policies annotations can ask for, lines 983-985, 993, 995-996. -/
inductive Policy where
  | methods (incref decref peekref : AVal)
  | free (function : AVal)
  | functions (incref decref : AVal)
  deriving DecidableEq, Repr

inductive Vis where
  | pub | prot | priv
  deriving DecidableEq, Repr

/-- The keyword arguments of the registration. -/
structure Kwargs where
  allowSubclassing : Option Bool := none
  isSingleton : Option Bool := none
  memoryPolicy : Option Policy := none
  narrowing : Option Bool := none
  customName : Option AVal := none
  importFrom : Option AVal := none
  destructorVisibility : Option Vis := none
  deriving DecidableEq, Repr

/-- The loop's state: `kwargs`, `is_exception` and the warnings given. -/
structure Acc where
  kwargs : Kwargs := {}
  isException : Bool := false
  warnings : List Str := []
  deriving DecidableEq, Repr

/-- `setdefault`. -/
def setDefault {α : Type} (old : Option α) (v : α) : Option α := some (old.getD v)

/-- `kwargs.setdefault('memory_policy', p)`. -/
def Acc.policy (s : Acc) (p : Policy) : Acc :=
  { s with kwargs := { s.kwargs with memoryPolicy := setDefault s.kwargs.memoryPolicy p } }

/-- `kwargs.setdefault('custom_name', v)`. -/
def Acc.name (s : Acc) (v : AVal) : Acc :=
  { s with kwargs := { s.kwargs with customName := setDefault s.kwargs.customName v } }

/-- One item of the annotations, lines 978-1013; `all` is the whole dictionary. -/
def apply1 (all : Notes) (s : Acc) (item : Str × AVal) : PyRes Acc :=
  match noteOf item.1 with
  | some .allowSubclassing => (parseBoolean item.2).map (fun b =>
      { s with kwargs := { s.kwargs with allowSubclassing := setDefault s.kwargs.allowSubclassing b } })
  | some .isSingleton => (parseBoolean item.2).map (fun b =>
      { s with kwargs := { s.kwargs with isSingleton := setDefault s.kwargs.isSingleton b } })
  | some .increfMethod => .ok (s.policy (.methods item.2 (all.get "decref_method") (all.get "peekref_method")))
  | some .decrefMethod => .ok s
  | some .peekrefMethod => .ok s
  | some .narrowing => (parseBoolean item.2).map (fun b =>
      { s with kwargs := { s.kwargs with narrowing := setDefault s.kwargs.narrowing b } })
  | some .freeFunction => .ok (s.policy (.free item.2))
  | some .increfFunction => .ok (s.policy (.functions item.2 (all.get "decref_function")))
  | some .decrefFunction => .ok s
  | some .pythonName => .ok { s.name item.2 with warnings := s.warnings ++ [item.1] }
  | some .customName => .ok (s.name item.2)
  | some .pygenComment => .ok s
  | some .exception => .ok { s with isException := true }
  | some .importFrom => .ok { s with kwargs := { s.kwargs with importFrom := setDefault s.kwargs.importFrom item.2 } }
  | none => .ok { s with warnings := s.warnings ++ [item.1] }

def applyLoop (all : Notes) : Acc → Notes → PyRes Acc
  | s, [] => .ok s
  | s, x :: l => match apply1 all s x with
    | .error e => .error e
    | .ok s => applyLoop all s l

/-- What is asked of the definition, lines 1014-1025: whether it is a full one, has virtual methods (1714-1720), has base
classes, and the visibility of its destructor (1029-1032; castxml reports one for every class). -/
structure Facts where
  full : Bool
  hasVirtual : Bool
  hasBases : Bool
  destructor : Vis
  deriving DecidableEq, Repr

/-- Lines 1014-1025. -/
def defaults (f : Facts) (k : Kwargs) : Kwargs :=
  if f.full then
    let k := if f.hasVirtual && !f.hasBases then { k with allowSubclassing := setDefault k.allowSubclassing true } else k
    if f.destructor ≠ .pub then { k with destructorVisibility := setDefault k.destructorVisibility f.destructor } else k
  else k

/-- `_apply_class_annotations`, lines 974-1027, with empty `kwargs` (1200, 1499). -/
def applyClassAnnotations (f : Facts) (a : Notes) : PyRes Acc :=
  (applyLoop a {} a).map (fun s => { s with kwargs := defaults f s.kwargs })

/-- `module.add_exception(name, **kwargs)` (line 1411): keywords that `CppException.__init__` does not have. -/
def addException (k : Kwargs) : PyRes (Option AVal) :=
  if k.allowSubclassing = none ∧ k.isSingleton = none ∧ k.memoryPolicy = none ∧ k.narrowing = none ∧
    k.importFrom = none ∧ k.destructorVisibility = none then .ok k.customName
  else .error .typeError

/-- `allow_subclassing` of a class, cppclass.py:728-740; `bases` are the values for the base classes. -/
def allowSubclassing (k : Kwargs) (bases : List Bool) : PyRes Bool :=
  let r : PyRes Bool := match k.allowSubclassing with
    | none => .ok (bases.head?.getD false)
    | some b => if bases.any id && !b then .error .valueError else .ok b
  r.map (fun b => match k.destructorVisibility with
    | some .priv => false
    | _ => b)

end Verif.ClassNotes
