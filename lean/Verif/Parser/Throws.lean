import Verif.Parser.NotesClasses
import Verif.Register.Types

/-!
# Exceptions of scanned declarations
(pybindgen/castxmlparser.py:1908-1923, 2086-2088, 2191-2223, 2289-2290, 2345-2347; module.py:427-443, 583-598)

The scanner gives a method, constructor or function the exceptions of its C++ exception specification, or those of its
`throw` annotation.  The parts of the scanner that do so are in `Members.lean` and `Lookup.lean`, where the look-up of a
type was a parameter; here it is.
-/
namespace Verif.Throws
open Verif Verif.CType Verif.Scan

/-- What the root module, a dictionary, holds under a name (module.py:427-443). -/
inductive Entry where
  /-- a `CppException` with this full name -/
  | exc (full : Str)
  /-- a class, enum or container -/
  | other
  deriving DecidableEq

abbrev Root := Str → Option Entry

/-- Lines 2194-2198 and 2212-2216: the name looked up for a type: the target of a reference (without modifiers), or else
the whole type. -/
def excName (s : Str) : CRes Str :=
  match normalize s with
  | .ok n =>
    match traits n with
    | .ok t => .ok (if t.isRef then render (t.target.getD []) else render t.ctype)
    | .raised e => .raised e
    | .unmodelled => .unmodelled
    | .running => .running
  | .raised e => .raised e
  | .unmodelled => .unmodelled
  | .running => .running

/-- Lines 2199-2201 and 2217-2219.  Simplification: a text that is no type, for which the code raises, counts as not
found. -/
def find (root : Root) (s : Str) : Option Str :=
  match excName s with
  | .ok n =>
    match root n with
    | some (.exc f) => some f
    | _ => none
  | _ => none

/-- The exception specification of a declaration, each type with what was found for it, lines 2192-2206. -/
def throwsOf (root : Root) (ss : List Str) : List (Str × Option Str) := ss.map (fun s => (s, find root s))

end Verif.Throws
