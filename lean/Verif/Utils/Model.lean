import Verif.Basic

/-!
# Helpers  (pybindgen/utils.py)
-/
namespace Verif.Utils
open Verif

/-- `s.replace(c, r)` for a one-character pattern. -/
def replace1 (c : Char) (r : Str) (s : Str) : Str := s.flatMap (fun x => if x = c then r else [x])

/-- `mangle_name`, utils.py:152-158: the replacements one after the other. -/
def mangleName (name : Str) : Str :=
  let s := replace1 ',' "_".toList (replace1 '>' "__gt__".toList (replace1 '<' "__lt__".toList name))
  let s := replace1 '*' "__star__".toList (replace1 '&' "__amp__".toList (replace1 ' ' "_".toList s))
  let s := replace1 ':' "_".toList s
  replace1 ')' "_rp_".toList (replace1 '(' "_lp_".toList s)

/-- `get_mangled_name`, utils.py:161-170. -/
def getMangledName (base : Str) (templateArgs : List Str) : Str :=
  if templateArgs.isEmpty then mangleName base
  else mangleName base ++ "__lt__".toList ++ pyJoin "_".toList (templateArgs.map mangleName) ++ "__gt__".toList

/-- The error handler in `settings.error_handler`: `None`, or an object whose `handle_error`
decides from the wrapper and the exception (settings.py:92-100). -/
abbrev Handler (W : Type) := Option (W → PyErr → Bool)

/-- The default `exceptions_to_handle`, utils.py:179-181. -/
def defaultHandled : PyErr → Bool
  | .typeConfigurationError | .codeGenerationError | .notSupportedError => true
  | _ => false

/-- The `exceptions_to_handle` of `eval_param`/`eval_retval`, utils.py:273-275, 284-286. -/
def evalHandled : PyErr → Bool
  | .typeConfigurationError | .notSupportedError | .typeLookupError _ => true
  | _ => false

/-- `call_with_error_handling`, utils.py:178-197; `res` is what the callback does. -/
def callWithErrorHandling {W α : Type} (handler : Handler W) (handled : PyErr → Bool) (wrapper : W)
    (res : PyRes α) : PyRes α :=
  match handler with
  | none => res
  | some h =>
    match res with
    | .ok a => .ok a
    | .error e =>
      if handled e then (if h wrapper e then .error .skipWrapper else .error e)
      else .error e

/-- A value in a parameter or return value specification: the last item may be a dict. -/
inductive SpecItem (V K : Type) where
  | val (v : V)
  | dict (d : K)
  deriving Repr, DecidableEq

/-- `param(*args, **kwargs)` and `retval(*args, **kwargs)`, utils.py:218-233. -/
def param {V K : Type} (args : List V) (kwargs : K) : List (SpecItem V K) :=
  args.map .val ++ [.dict kwargs]

/-- `parse_param_spec` (`minLen` 2, utils.py:236-247) and `parse_retval_spec` (`minLen` 1,
utils.py:250-264) on a tuple; `emptyDict` is `dict()`. -/
def parseSpec {V K : Type} (minLen : Nat) (emptyDict : K) (spec : List (SpecItem V K)) :
    PyRes (List (SpecItem V K) × K) :=
  if spec.length < minLen then .error .assertionError
  else match spec.getLast? with
    | some (.dict d) => .ok (spec.dropLast, d)
    | _ => .ok (spec, emptyDict)

end Verif.Utils
