import Verif.Parser.StructureProps

/-!
# Where the registrations of a divided script are written

`_get_pygen_sink_for_definition` (castxmlparser.py:857-882), `_get_main_pygen_sink` (839-847), the choice of the section
of a class (1359-1371), sections and classifier (510-564, 757-770).

Simplification: every section has a code sink of its own, so a sink is the index of its section.
-/
namespace Verif.Sinks
open Verif Verif.Structure

/-- What a classifier returns: the name of a section or the section itself. -/
inductive Label where
  | name (s : Str)
  | section (i : Nat)
  deriving DecidableEq, Repr

/-- The sections given to `parse_init`, by name, and the classifier; `prec`: `get_section_precedence`, `none` if it is
not implemented. -/
structure Setup where
  sections : List Str
  classify : Nat → Label
  prec : Label → Option Int

def mainName : Str := "__main__".toList

/-- The first section that fits, lines 867-872. -/
def Setup.find (s : Setup) (l : Label) : Option Nat :=
  (List.range s.sections.length).find? (fun i => decide (l = .section i) || decide (s.sections[i]?.map Label.name = some l))

/-- `_get_main_pygen_sink`, lines 839-847 (`parse_init` has checked that there is one, lines 766-767). -/
def Setup.main (s : Setup) : Nat := s.sections.idxOf mainName

/-- `_get_pygen_sink_for_definition(definition, with_section_precedence=True)`, lines 857-882; `none` is something that
is no declaration, such as `int`. -/
def Setup.sinkFor (s : Setup) : Option Nat → PyRes (Int × Nat)
  | some d =>
    match s.find (s.classify d) with
    | some i => .ok ((s.prec (s.classify d)).getD 0, i)
    | none => .error .valueError
  | none => .ok ((s.prec (.name mainName)).getD 0, s.main)

def Setup.sinksFor (s : Setup) : List (Option Nat) → PyRes (List (Int × Nat))
  | [] => .ok []
  | d :: l =>
    match s.sinkFor d with
    | .error e => .error e
    | .ok x => match s.sinksFor l with
      | .error e => .error e
      | .ok xs => .ok (x :: xs)

/-- The last of the sorted list, lines 1369-1370: of two pairs with the same first part the sinks are compared, unless
they are the same object, and code sinks cannot be compared (`TypeError`).  (Whatever the algorithm, a sort compares
the pairs that end up next to each other.) -/
def lastSorted : List (Int × Nat) → PyRes Nat
  | [] => .error .indexError
  | x :: l =>
    if (x :: l).any (fun a => (x :: l).any (fun b => decide (a.1 = b.1) && decide (a.2 ≠ b.2))) then .error .typeError
    else .ok (l.foldl (fun m a => if m.1 < a.1 then a else m) x).2

/-- A class: its declaration, and what its template arguments are (those that were found, line 1367). -/
structure Cls where
  decl : Nat
  args : List (Option Nat)
  deriving DecidableEq, Repr

/-- The section a class is registered in, lines 1363-1371. -/
def Setup.sink (s : Setup) (c : Cls) : PyRes Nat :=
  match s.sinksFor (some c.decl :: c.args) with
  | .error e => .error e
  | .ok l => lastSorted l

end Verif.Sinks
