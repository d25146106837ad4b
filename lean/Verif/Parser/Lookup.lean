import Verif.Parser.PygenLines
import Verif.Parser.Annotations

/-!
# From annotations to arguments

`lookup_return` and `lookup_parameter` (castxmlparser.py:346-396), `_apply_class_annotations` (974-1027), and the loops
over the annotations of methods (1899-1914) and functions (2272-2293).
-/
namespace Verif.Scan
open Verif Verif.Pygen
open Verif.Annot (ODict parseBoolean lower)

/-- The annotations of one thing: names and values, `None` where no value was written. -/
abbrev Anns := ODict (Option Str)

/-- Warnings that are issued. -/
inductive Warn where
  /-- "invalid annotation name", "Class annotation ignored", "Annotation not used", "Incorrect annotation" -/
  | annotation (name : Str)
  /-- "invalid direction" -/
  | direction (value : Str)
  /-- "Class annotation 'python_name' is deprecated" -/
  | deprecated (name : Str)
  /-- "Thrown exception … was not previously detected as an exception class" -/
  | exception (decl : Str)
  /-- "Return value … error", "Parameter … error" -/
  | type (spec : Spec)
  /-- "Error adding method" -/
  | adding (name : Str)
  /-- "protected member variables not yet implemented", "Member variable … will not be wrapped" -/
  | variable (name : Str)
  /-- "NUMERIC OP: …" -/
  | operator (symbol : Str)
  deriving DecidableEq, Repr

/-- What `parse_boolean` and `int` get. -/
def aval : Option Str → Annot.AVal
  | some s => .str s
  | none => .none

def boolArg (v : Option Str) : PyRes PyVal := (parseBoolean (aval v)).map .bool

/-- `int(value)`: `num` tells which texts are numbers. -/
def intArg (num : Str → Option Int) : Option Str → PyRes PyVal
  | none => .error .typeError
  | some s => match num s with
    | some i => .ok (.int i)
    | none => .error .valueError

def strArg : Option Str → PyVal
  | some s => .str s
  | none => .none

/-- What one annotation does: assignments and warnings. -/
abbrev Effect := List (Str × PyVal) × List Warn

def assign (k : Str) (v : PyRes PyVal) : PyRes Effect := v.map (fun v => ([(k, v)], []))

/-- One annotation of a return value, lines 349-360; the first `if` is not part of the chain. -/
def returnStep (num : Str → Option Int) (name : Str) (value : Option Str) : PyRes Effect :=
  if name = "caller_owns_return".toList then
    (boolArg value).map (fun v => ([("caller_owns_return".toList, v)], [.annotation name]))
  else if name = "free_after_copy".toList then assign name (boolArg value)
  else if name = "reference_existing_object".toList then assign name (boolArg value)
  else if name = "return_internal_reference".toList then assign name (boolArg value)
  else if name = "custodian".toList then assign name (intArg num value)
  else .ok ([], [.annotation name])

/-- `direction`, lines 371-379 with `DIRECTION_IN` = 1, `DIRECTION_OUT` = 2, `DIRECTION_INOUT` = 3 (base.py:1241-1243). -/
def directionStep : Option Str → PyRes Effect
  | none => .error .attributeError
  | some v =>
    if lower v = "in".toList then .ok ([("direction".toList, .int 1)], [])
    else if lower v = "out".toList then .ok ([("direction".toList, .int 2)], [])
    else if lower v = "inout".toList then .ok ([("direction".toList, .int 3)], [])
    else .ok ([], [.direction v])

/-- One annotation of a parameter, lines 369-389. -/
def paramStep (num : Str → Option Int) (name : Str) (value : Option Str) : PyRes Effect :=
  if name = "transfer_ownership".toList then assign name (boolArg value)
  else if name = "direction".toList then directionStep value
  else if name = "custodian".toList then assign name (intArg num value)
  else if name = "array_length".toList then assign name (intArg num value)
  else if name = "default_value".toList then .ok ([(name, strArg value)], [])
  else if name = "null_ok".toList then assign name (boolArg value)
  else .ok ([], [.annotation name])

/-- `kwargs[k] = v` for each. -/
def setAll (kw : Kw) (l : List (Str × PyVal)) : Kw := l.foldl (fun d p => ODict.set d p.1 p.2) kw

/-- A loop over annotations. -/
def loop (step : Str → Option Str → PyRes Effect) : Anns → Kw → List Warn → PyRes (Kw × List Warn)
  | [], kw, ws => .ok (kw, ws)
  | (name, value) :: rest, kw, ws =>
    (step name value).bind (fun e => loop step rest (setAll kw e.1) (ws ++ e.2))

/-- `lookup_return`, lines 346-363; `type` is the normalized name of the type. -/
def lookupReturn (num : Str → Option Int) (type : Str) (anns : Anns) : PyRes (Spec × List Warn) :=
  (loop (returnStep num) anns [] []).map (fun r => (⟨[type], r.1⟩, r.2))

/-- Lines 391-392. -/
def setDefaultValue (kw : Kw) : Option Str → Kw
  | some (c :: d) => ODict.set kw "default_value".toList (.str (c :: d))
  | _ => kw

/-- `lookup_parameter`, lines 366-396; a default value in the header replaces one in the annotations (an empty text
counts as none). -/
def lookupParameter (num : Str → Option Int) (type name : Str) (anns : Anns) (default : Option Str) :
    PyRes (Spec × List Warn) :=
  (loop (paramStep num) anns [] []).map (fun r =>
    (⟨[type, name], setDefaultValue r.1 default⟩, r.2))

/-! ## Classes -/

/-- `kwargs.setdefault(k, v)`. -/
def setDefault (kw : Kw) (k : Str) (v : PyVal) : Kw := if (ODict.get kw k).isSome then kw else ODict.set kw k v

/-- `annotations.get(k, None)`. -/
def getNone (anns : Anns) (k : Str) : Option Str := (ODict.get anns k).join

/-- `kwargs.setdefault(k, v)` for an annotation of a class. -/
def classSet (k : Str) (v : PyRes PyVal) : PyRes (Effect × Bool) := v.map (fun v => (([(k, v)], []), false))

/-- One annotation of a class, lines 977-1013: assignments made with `setdefault`, warnings, and whether it says that
the class is an exception. -/
def classStep (anns : Anns) (name : Str) (value : Option Str) : PyRes (Effect × Bool) :=
  if name = "allow_subclassing".toList then classSet name (boolArg value)
  else if name = "is_singleton".toList then classSet name (boolArg value)
  else if name = "incref_method".toList then
    classSet "memory_policy".toList (.ok (.policy "cppclass.ReferenceCountingMethodsPolicy".toList
      [(some "incref_method".toList, value), (some "decref_method".toList, getNone anns "decref_method".toList),
        (some "peekref_method".toList, getNone anns "peekref_method".toList)]))
  else if name = "decref_method".toList then .ok (([], []), false)
  else if name = "peekref_method".toList then .ok (([], []), false)
  else if name = "automatic_type_narrowing".toList then classSet name (boolArg value)
  else if name = "free_function".toList then
    classSet "memory_policy".toList (.ok (.policy "cppclass.FreeFunctionPolicy".toList [(none, value)]))
  else if name = "incref_function".toList then
    classSet "memory_policy".toList (.ok (.policy "cppclass.ReferenceCountingFunctionsPolicy".toList
      [(some "incref_function".toList, value), (some "decref_function".toList, getNone anns "decref_function".toList)]))
  else if name = "decref_function".toList then .ok (([], []), false)
  else if name = "python_name".toList then .ok (([("custom_name".toList, strArg value)], [.deprecated name]), false)
  else if name = "custom_name".toList then classSet name (.ok (strArg value))
  else if name = "pygen_comment".toList then .ok (([], []), false)
  else if name = "exception".toList then .ok (([], []), true)
  else if name = "import_from_module".toList then classSet name (.ok (strArg value))
  else .ok (([], [.annotation name]), false)

def defaultAll (kw : Kw) (l : List (Str × PyVal)) : Kw := l.foldl (fun d p => setDefault d p.1 p.2) kw

def classLoop (all : Anns) : Anns → Kw → List Warn → Bool → PyRes (Kw × List Warn × Bool)
  | [], kw, ws, x => .ok (kw, ws, x)
  | (name, value) :: rest, kw, ws, x =>
    (classStep all name value).bind (fun e => classLoop all rest (defaultAll kw e.1.1) (ws ++ e.1.2) (x || e.2))

/-- What `_apply_class_annotations` looks at in the declaration: a full definition (`class_t`), virtual methods, base
classes, and the access type of the destructor if there is one. -/
structure ClassFacts where
  full : Bool := true
  hasVirtual : Bool := false
  hasBases : Bool := false
  destructor : Option Str := none
  deriving DecidableEq, Repr

/-- `_apply_class_annotations`, lines 974-1027: keyword arguments, warnings, and whether it is an exception. -/
def applyClass (anns : Anns) (f : ClassFacts) : PyRes (Kw × List Warn × Bool) :=
  (classLoop anns anns [] [] false).map (fun r =>
    let kw := r.1
    let kw := if f.full && f.hasVirtual && !f.hasBases then setDefault kw "allow_subclassing".toList (.bool true) else kw
    let kw := if f.full && f.destructor ≠ some "public".toList then
        setDefault kw "destructor_visibility".toList (strArg f.destructor) else kw
    (kw, r.2))

/-! ## Methods and functions -/

/-- `_get_annotation_exceptions`, lines 2209-2223: `exc` finds the exception class for a name. -/
def throwArg (exc : Str → Option Str) : Option Str → PyRes PyVal
  | none => .error .attributeError
  | some s =>
    match allSome exc (splitOn ',' s) with
    | some l => .ok (.refs l)
    | none => .error .valueError

/-- One annotation of a method, lines 1899-1914. -/
def methodStep (exc : Str → Option Str) (isTemplate : Bool) (name : Str) (value : Option Str) : PyRes Effect :=
  if name = "template_instance_names".toList ∧ isTemplate = true then .ok ([], [])
  else if name = "pygen_comment".toList then .ok ([], [])
  else if name = "unblock_threads".toList then assign name (boolArg value)
  else if name = "name".toList then .ok ([("custom_name".toList, strArg value)], [])
  else if name = "throw".toList then assign name (throwArg exc value)
  else .ok ([], [.annotation name])

/-- One annotation of a function, lines 2272-2293. -/
def functionStep (exc : Str → Option Str) (name : Str) (value : Option Str) : PyRes Effect :=
  if name = "as_method".toList then .ok ([], [])
  else if name = "of_class".toList then .ok ([], [])
  else if name = "name".toList then .ok ([], [])
  else if name = "ignore".toList then .ok ([], [])
  else if name = "is_constructor_of".toList then .ok ([], [])
  else if name = "pygen_comment".toList then .ok ([], [])
  else if name = "template_instance_names".toList then .ok ([], [])
  else if name = "unblock_threads".toList then assign name (boolArg value)
  else if name = "throw".toList then assign name (throwArg exc value)
  else .ok ([], [.annotation name])

end Verif.Scan
