import Verif.Parser.Members
import Verif.Parser.Annotations
import Verif.Utils.Model

/-!
# Instances of function and method templates

`check_template`, `get_template_arg` (castxmlparser.py:64-98), their use (1946-1958, 1968-1971, 2388-2398), and what
the wrapper makes of the template parameters: its name (function.py:99-110, cppmethod.py:195-206) and the name in the
call (function.py:188-191, cppmethod.py:245-248).  `instanceName`, `instanceNames` are in Parser/Members.lean.
-/
namespace Verif.Templ
open Verif Verif.Annot Verif.Utils

/-- `text.find(name)`; `none` for -1. -/
def pyFind (name : Str) : Str → Option Nat
  | [] => if name = [] then some 0 else none
  | c :: r => if name.isPrefixOf (c :: r) then some 0 else (pyFind name r).map (· + 1)

/-- What follows the name: `text[end_index:]`, lines 65-66 and 77-78 (`find` gives -1 if there is no such name). -/
def behind (text name : Str) : Str :=
  match pyFind name text with
  | some i => text.drop (i + name.length)
  | none => text.drop (name.length - 1)

/-- The loop of `check_template`, lines 67-74 (falling off the end gives `None`, which counts as false). -/
def opens : Str → Bool
  | [] => false
  | c :: r => if c = ' ' then opens r else if c = '<' then true else false

/-- `check_template`, lines 64-74. -/
def checkTemplate (text name : Str) : Bool := opens (behind text name)

/-- The loop of `get_template_arg`, lines 82-98; `none`: it falls off the end and `None` is returned. -/
def argLoop (started : Bool) (opened : Int) (arg : Str) : Str → Option Str
  | [] => none
  | c :: r =>
    if c = ' ' ∧ started = false then argLoop started opened arg r
    else if c = '<' ∧ opened = 0 then argLoop true (opened + 1) arg r
    else if c = '<' ∧ opened ≠ 0 then argLoop started (opened + 1) (arg ++ [c]) r
    else if c = '>' ∧ opened ≠ 1 then argLoop started (opened - 1) (arg ++ [c]) r
    else if c = '>' ∧ opened = 1 then some arg
    else argLoop started opened (arg ++ [c]) r

/-- `get_template_arg`, lines 76-98. -/
def getTemplateArg (text name : Str) : Option (List Str) :=
  (argLoop false 0 [] (behind text name)).map (splitOn ',')

/-- `template_parameters` and the custom name of a method or function, lines 1945-1958, 2388-2398: no parameters if it
is not recognised as an instance.  (If the argument list does not end, `None` is passed on: no parameters either.) -/
def parameters (text name : Str) : List Str :=
  if checkTemplate text name then (getTemplateArg text name).getD [] else []

/-- The custom name from the annotations. -/
def customName (globals : ODict (Option Str)) (text name : Str) : PyRes (Option Str) :=
  if checkTemplate text name then Scan.instanceNames globals (parameters text name) else .ok none

/-- The name in Python (function.py:105-109, cppmethod.py:201-205; without function name transformer, and an empty
custom name, which methods treat as none). -/
def pythonName (globals : ODict (Option Str)) (text name : Str) : PyRes Str :=
  (customName globals text name).map (fun n => n.getD (getMangledName name (parameters text name)))

/-- The name in the call (function.py:188-191, cppmethod.py:245-248). -/
def callName (text name : Str) : Str :=
  if parameters text name = [] then name
  else name ++ "< ".toList ++ pyJoin ", ".toList (parameters text name) ++ " >".toList

end Verif.Templ
