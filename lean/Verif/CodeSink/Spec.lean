import Verif.CodeSink.Model

/-!
# Specification vocabulary for code sinks, independent of the sink state
-/
namespace Verif.CodeSink
open Verif

/-- Bracket-balanced call histories: `writeln`s, and `indent n … unindent` around balanced
histories, in any number. -/
inductive Balanced : List Op → Prop
  | nil : Balanced []
  | write (s : Str) {h : List Op} : Balanced h → Balanced (.writeln s :: h)
  | nest (n : Int) {b h : List Op} : Balanced b → Balanced h →
      Balanced (.indent n :: b ++ .unindent :: h)

/-- `Open ns h`: in history `h` exactly the indents `ns` (innermost first) are still open. -/
inductive Open : List Int → List Op → Prop
  | base {h : List Op} : Balanced h → Open [] h
  | more (n : Int) {ns : List Int} {h b : List Op} : Open ns h → Balanced b →
      Open (n :: ns) (h ++ .indent n :: b)

/-- What a line of text becomes when the open indents add up to `total`. -/
def indented (total : Int) (text : Str) : List Str :=
  (splitOn '\n' text).map (fun l => spaces total ++ l)

/-- Trailing white space is the only thing `r` lacks compared to `l`. -/
def IsRStrip (l r : Str) : Prop :=
  ∃ w : Str, l = r ++ w ∧ (∀ c ∈ w, isPySpace c = true) ∧
    (∀ h : r ≠ [], isPySpace (r.getLast h) = false)

end Verif.CodeSink
