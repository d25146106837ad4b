import Verif.Wrapper.TrialOverloads

/-!
# Trial generations of constructors  (pybindgen/cppmethod.py:713-757, overloading.py:85-187)

A constructor is tried out for its flags and generated by its overload set, like functions and methods, but its
`generate` asks for no flags, does not change a return handler (there is none) and refuses by visibility first.
-/
namespace Verif.Trial
open Verif Verif.CodeBlock Verif.DeclScope Verif.Params

/-- The assertion that constructors have parameter names, cppmethod.py:739-743. -/
def ctorNamed (c : Core) : PyRes Unit := do
  if (← getParameters c.parse) = [['"', '"']] then pure ()
  else if (← getKeywords c.parse) = none then .error .assertionError
  else pure ()

/-- `CppConstructor.generate`, cppmethod.py:713-757: `refused` is the exception of a constructor that may not be
wrapped (721-729); the result is the lines of the body. -/
def generateCtor (w : Wrapper) (refused : Option PyErr) (s : St) : St × PyRes (List Str) :=
  match refused with
  | some e => (s, .error e)
  | none =>
    match body w s with
    | (s1, some e) => (s1, .error e)
    | (s1, none) =>
      let s2 := { s1 with core := s1.core.flushed }
      match ctorNamed s1.core with
      | .error e => (s2, .error e)
      | .ok () => (s2, .ok (text s1.core ++ ["return 0;".toList]))

/-- What is done with a constructor. -/
inductive CtorUse where
  /-- its set asks for the flags -/
  | flags
  /-- it is written (to the file or for the forward declaration) -/
  | define
  | reset
  /-- `force_parse` is assigned, overloading.py:96, 170 -/
  | force (f : Option Bool)
  /-- `set_parse_error_return`, overloading.py:180 -/
  | errorReturn (e : Str)

/-- One use. -/
def useCtor (refused : Option PyErr) (p : Wrapper × St) : CtorUse → Wrapper × St
  | .flags => (p.1, (getFlags p.1 p.2).1)
  | .define => (p.1, (generateCtor p.1 refused p.2).1)
  | .reset => (p.1, reset p.1 p.2)
  | .force f => use p (.force f)
  | .errorReturn e => use p (.errorReturn e)

end Verif.Trial
