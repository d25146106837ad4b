import Verif.Basic

/-!
# PyArg_ParseTuple / Py_BuildValue parameter lists  (pybindgen/typehandlers/base.py:244-417)
-/
namespace Verif.Params
open Verif

/-- An item `(template, param_values, param_name, optional)`, base.py:275, 296. -/
structure PItem where
  template : Str
  values : List Str
  name : Option Str
  optional : Bool
  deriving Repr, DecidableEq

/-- `ParseTupleParameters.add_parameter`, base.py:280-301 (the type asserts 294-295 hold by
typing); returns the new list and the returned length. -/
def addParam (items : List PItem) (it : PItem) (prepend : Bool) : List PItem × Nat :=
  let items' := if prepend then it :: items else items ++ [it]
  (items', items'.length)

/-- First loop of `ParseTupleParameters.get_parameters`, base.py:314-322; `lastOpt` is
`last_was_optional`, the result is the text appended to `template`. -/
def templateLoop (lastOpt : Bool) : List PItem → PyRes Str
  | [] => .ok []
  | it :: rest =>
    if lastOpt && !it.optional then .error .valueError
    else if !lastOpt && it.optional then do
      pure ('|' :: it.template ++ (← templateLoop true rest))
    else do
      pure (it.template ++ (← templateLoop lastOpt rest))

/-- `ParseTupleParameters.get_parameters`, base.py:306-328. -/
def getParameters (items : List PItem) : PyRes (List Str) := do
  let t ← templateLoop false items
  pure (('"' :: t ++ ['"']) :: items.flatMap (·.values))

/-- `ParseTupleParameters.is_empty`, base.py:303-304. -/
def isEmpty (items : List PItem) : PyRes Bool := do
  pure ((← getParameters items) == [['"', '"']])

/-- Loop of `ParseTupleParameters.get_keywords`, base.py:336-342; `kw` is `keywords`. -/
def keywordsLoop (kw : List Str) : List PItem → PyRes (List Str)
  | [] => .ok kw
  | it :: rest =>
    match it.name with
    | none => if kw = [] then keywordsLoop kw rest else .error .valueError
    | some n => keywordsLoop (kw ++ [n]) rest

/-- `ParseTupleParameters.get_keywords`, base.py:330-348. -/
def getKeywords (items : List PItem) : PyRes (Option (List Str)) := do
  let kw ← keywordsLoop [] items
  if kw = [] then pure none
  else if kw.length ≠ items.length then .error .valueError
  else pure (some kw)

/-- A call of `add_parameter` on `ParseTupleParameters`. -/
structure PCall where
  item : PItem
  prepend : Bool
  deriving Repr, DecidableEq

/-- A series of `add_parameter` calls on a new object (base.py:275). -/
def pRun (calls : List PCall) : List PItem :=
  calls.foldl (fun items c => (addParam items c.item c.prepend).1) []

/-- An item `(template, param_values, cleanup_handle)`, base.py:367, 387. -/
structure BItem where
  template : Str
  values : List Str
  cancels : Option Nat := none
  deriving Repr, DecidableEq

/-- A call of `add_parameter` on `BuildValueParameters`. -/
structure BCall where
  item : BItem
  prepend : Bool
  deriving Repr, DecidableEq

/-- `BuildValueParameters.add_parameter`, base.py:372-391. -/
def addBuild (items : List BItem) (it : BItem) (prepend : Bool) : List BItem :=
  if prepend then it :: items else items ++ [it]

def bRun (calls : List BCall) : List BItem :=
  calls.foldl (fun items c => addBuild items c.item c.prepend) []

/-- `BuildValueParameters.get_parameters`, base.py:393-413: state `(template, params)` of the
loop; `params[0]` is overwritten at the end. -/
def buildParameters (items : List BItem) (force : Bool) : List Str :=
  let template : Str := ['"'] ++ (if force then ['('] else [])
  let st := items.foldl (fun st it => (st.1 ++ it.template, st.2 ++ it.values))
    (template, ([] : List Str))
  let template := st.1 ++ (if force then [')'] else []) ++ ['"']
  template :: st.2

/-- `BuildValueParameters.get_cleanups`, base.py:415-417. -/
def buildCleanups (items : List BItem) : List (Option Nat) := items.map (·.cancels)

end Verif.Params
