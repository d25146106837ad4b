import Verif.CType.Model

/-!
# Specification vocabulary for C types

`Reads` is the grammar of type expressions, stated on tokens with no reference to the parser;
`Same` is when two type expressions denote the same type as far as modifiers are concerned.
-/
namespace Verif.CType
open Verif

/-- A top-level `const` or `volatile`. -/
def Item.isMod (i : Item) : Bool := i.isNamed kConst || i.isNamed kVolatile

/-- Two type expressions that differ only in where, between two `*`/`&`, the modifiers are
written: `const char *` and `char const *`; at any nesting depth.  (Exchanging two copies of the
same modifier is no change and is left out.) -/
inductive Same : List Item → List Item → Prop
  | refl (l : List Item) : Same l l
  | symm {l l' : List Item} : Same l l' → Same l' l
  | trans {l l' l'' : List Item} : Same l l' → Same l' l'' → Same l l''
  | swap {m x : Item} (a b : List Item) : m.isMod = true → x.isPtrRef = false →
      (∀ n ∈ kModifiers, ¬ (m.isNamed n = true ∧ x.isNamed n = true)) →
      Same (a ++ m :: x :: b) (a ++ x :: m :: b)
  | inside {c c' : List Item} (a b : List Item) : Same c c' →
      Same (a ++ .sub c :: b) (a ++ .sub c' :: b)

/-- The brackets and the comma, and `>>` which stands for two `>`. -/
def bracketNames : List Str := [['<'], ['('], ['>'], [')'], [','], ['>', '>']]

/-- A token that is not a bracket. -/
def Plain (t : Tok) : Prop := ¬ (t.kind = .syntax_ ∧ t.name ∈ bracketNames)
def Opens (t : Tok) : Prop := t.kind = .syntax_ ∧ t.name ∈ [['<'], ['(']]
def Closes (t : Tok) : Prop := t.kind = .syntax_ ∧ t.name ∈ [['>'], [')']]
def IsComma (t : Tok) : Prop := t.kind = .syntax_ ∧ t.name = [',']

mutual
/-- `Reads ts l`: the tokens `ts` are a type expression with item list `l`: plain tokens and
bracketed lists of type expressions. -/
inductive Reads : List Tok → List Item → Prop
  | nil : Reads [] []
  | plain {t : Tok} {ts : List Tok} {l : List Item} : Plain t → Reads ts l →
      Reads (t :: ts) (.tok t :: l)
  | group {t : Tok} {as ts : List Tok} {its l : List Item} : Opens t → Args as its → Reads ts l →
      Reads (t :: as ++ ts) (.tok t :: its ++ l)
/-- `Args ts l`: comma separated type expressions and a closing bracket. -/
inductive Args : List Tok → List Item → Prop
  | last {as : List Tok} {l : List Item} {c : Tok} : Reads as l → Closes c →
      Args (as ++ [c]) [.sub l, .tok c]
  | more {as bs : List Tok} {l its : List Item} {c : Tok} : Reads as l → IsComma c → Args bs its →
      Args (as ++ c :: bs) (.sub l :: .tok c :: its)
end

/-- What a token contributes: a leading `::` is dropped, `>>` counts as two `>`. -/
def prep1 (t : Tok) : List Tok :=
  let t := stripColons t
  if t.kind = .syntax_ ∧ t.name = ['>', '>'] then [⟨.syntax_, ['>']⟩, ⟨.syntax_, ['>']⟩] else [t]

def prep (ts : List Tok) : List Tok := ts.flatMap prep1

/-- One level of a type expression with its modifiers last: first `const`, then `volatile`. -/
def canonSeg (s : List Item) : List Item :=
  s.filter (fun i => !i.isMod) ++ s.filter (·.isNamed kConst) ++ s.filter (·.isNamed kVolatile)

/-- Every level (between two top-level `*`/`&`) put in that order; `acc` is the current level. -/
def canonAcc : List Item → List Item → List Item
  | acc, [] => canonSeg acc
  | acc, x :: r => if x.isPtrRef then canonSeg acc ++ x :: canonAcc [] r else canonAcc (acc ++ [x]) r

def canon (l : List Item) : List Item := canonAcc [] l

mutual
/-- `canon` at every depth. -/
def deepItem : Item → Item
  | .tok t => .tok t
  | .sub c => .sub (canon (deepList c))
def deepList : List Item → List Item
  | [] => []
  | i :: r => deepItem i :: deepList r
end

def deepCanon (l : List Item) : List Item := canon (deepList l)

end Verif.CType
