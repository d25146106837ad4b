import Verif.Wrapper.Trial

/-!
# Wrappers of an overload set  (pybindgen/overloading.py:85-187, typehandlers/base.py:813-815)

While a wrapper is tried out and generated, its overload set changes its settings: `force_parse`
(overloading.py:95-96, 170), the error return of the parsing part (173-180) and, by the parameter
`extra_wrapper_params` of `generate` (184-187), the C parameters.
-/
namespace Verif.Trial
open Verif Verif.CodeBlock Verif.DeclScope Verif.Params

/-- `set_parse_error_return`, base.py:813-815. -/
def Core.withParseError (c : Core) (e : Str) : Core :=
  { c with parseB := { c.parseB with errorReturn := e }, callB := { c.callB with errorReturn := e } }

/-- What is done with a wrapper of an overload set. -/
inductive Use where
  | event (e : Event)
  /-- `force_parse` is assigned, overloading.py:96, 170 -/
  | force (f : Option Bool)
  /-- `set_parse_error_return`, 180 -/
  | errorReturn (e : Str)
  /-- `generate` is called with other extra parameters, 184-187 -/
  | signature (f : List Str → PyRes (List Str))

/-- One use; the settings are fields of the wrapper. -/
def use (p : Wrapper × St) : Use → Wrapper × St
  | .event e => (p.1, (step p.1 p.2 e).1)
  | .force f => ({ p.1 with forceParse := f }, p.2)
  | .errorReturn e => ({ p.1 with parseError := e }, { p.2 with core := p.2.core.withParseError e })
  | .signature f => ({ p.1 with signature := f }, p.2)

/-- A history of uses of a new wrapper. -/
def useAll (w : Wrapper) (us : List Use) : Wrapper × St := us.foldl use (w, start w)

end Verif.Trial
