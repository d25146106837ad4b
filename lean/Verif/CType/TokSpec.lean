import Verif.CType.Tokenizer

/-!
# Specification vocabulary for the tokenizer
-/
namespace Verif.CType
open Verif

/-- Every `/*` in the source is followed by a `*/` (overlapping as in `/*/` counts, as it does
for the tokenizer). -/
def CommentsClosed (src : Str) : Prop :=
  ∀ pre post : Str, src = pre ++ '/' :: '*' :: post →
    ∃ a b : Str, '*' :: post = a ++ '*' :: '/' :: b

/-- `Covers src ts`: the source is made of the tokens `ts` in order, and between them only white
space, comments and backslashes. -/
inductive Covers : Str → List Tok → Prop
  | nil : Covers [] []
  | white {c : Char} {s : Str} {ts : List Tok} : isPySpace c = true → Covers s ts → Covers (c :: s) ts
  | backslash {s : Str} {ts : List Tok} : Covers s ts → Covers ('\\' :: s) ts
  | lineComment {body s : Str} {ts : List Tok} : '\n' ∉ body → s.head? ∈ [none, some '\n'] →
      Covers s ts → Covers ("//".toList ++ body ++ s) ts
  | blockComment {b s : Str} {ts : List Tok} : "/*".toList <+: b → "*/".toList <:+ b →
      Covers s ts → Covers (b ++ s) ts
  | token {t : Tok} {s : Str} {ts : List Tok} : t.name ≠ [] → Covers s ts →
      Covers (t.name ++ s) (t :: ts)

/-- A token the tokenizer can produce. -/
def IsToken (t : Tok) : Prop := ∃ s r, step1 s = .emit t r

/-- Would the character `d`, written immediately after token `t`, change where `t` ends? -/
def fuses (t : Tok) (d : Char) : Bool :=
  match t.kind, t.name with
  | .name, _ => isIdent d || d == ':' || d == '\''
  | .constant, _ => isIdent d || d == '+' || d == '-' || d == '.'
  | .syntax_, [c] =>
    if c = '.' then isDig d
    else if c = '/' then d == '/' || d == '*'
    else isOp c && (d == c || d == '=' || (c == '-' && d == '>'))
  | .syntax_, _ => false

/-- Tokens with the white space that follows each. -/
def layout : List (Tok × Str) → Str
  | [] => []
  | (t, w) :: rest => t.name ++ w ++ layout rest

/-- The layout keeps the tokens apart: all separators are white space, and an empty separator is
used only where the next character cannot fuse with the token before it. -/
def Apart : List (Tok × Str) → Prop
  | [] => True
  | (t, w) :: rest => (∀ c ∈ w, isPySpace c = true) ∧ IsToken t ∧
      (∃ d ds, w ++ layout rest = d :: ds ∧ fuses t d = false) ∧ Apart rest

end Verif.CType
