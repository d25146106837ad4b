import Verif.Basic

/-!
# The C type tokenizer  (pybindgen/typehandlers/ctypeparser/tokenizer.py:116-280)

`GetTokens(source)` walks an index `i` over the source.  The model keeps the remaining text
`source[i:]` instead of `i`, because apart from one case the loop only looks ahead; the exception
(an unterminated `/*` comment sets `i = -1 + 2 = 1`, line 180) is the step result `jumpTo1`.

Not modelled: string and character constants and preprocessor lines (lines 166-173, 221-260);
meeting `"`, `'` or `#` the model answers `unmodelled`.  `str.isdigit` is taken on ASCII.
-/
namespace Verif.CType
open Verif

/-- Token types, tokenizer.py:50-54. -/
inductive TKind where
  | name
  | syntax_
  | constant
  deriving Repr, DecidableEq

/-- `Token`, tokenizer.py:61-76; source positions are not used by pybindgen and are left out. -/
structure Tok where
  kind : TKind
  name : Str
  deriving Repr, DecidableEq

/-- `VALID_IDENTIFIER_CHARS`, tokenizer.py:39-40. -/
def isIdent (c : Char) : Bool :=
  ('a' ≤ c && c ≤ 'z') || ('A' ≤ c && c ≤ 'Z') || ('0' ≤ c && c ≤ '9') || c == '_' || c == '$'

/-- `c.isdigit()` on ASCII. -/
def isDig (c : Char) : Bool := '0' ≤ c && c ≤ '9'

/-- `HEX_DIGITS`, tokenizer.py:41. -/
def isHex (c : Char) : Bool := isDig c || ('a' ≤ c && c ≤ 'f') || ('A' ≤ c && c ≤ 'F')

/-- `INT_OR_FLOAT_DIGITS`, tokenizer.py:42. -/
def isIntFloat (c : Char) : Bool := isDig c || c == 'e' || c == 'E' || c == '-' || c == '+'

/-- `int_or_float_digits2`, tokenizer.py:127. -/
def isIntFloat2 (c : Char) : Bool := isIntFloat c || c == '.'

/-- The characters of the string `':+-<>&|*='`, tokenizer.py:182. -/
def isOp (c : Char) : Bool := c ∈ [':', '+', '-', '<', '>', '&', '|', '*', '=']

/-- The characters of the string `'()[]{}~!?^%;/.,'`, tokenizer.py:192. -/
def isSingle (c : Char) : Bool :=
  c ∈ ['(', ')', '[', ']', '{', '}', '~', '!', '?', '^', '%', ';', '/', '.', ',']

/-- Inner loop of the name branch, tokenizer.py:152-163: consumed text and rest.  Running off
the end (`source[i]` raising `IndexError`) shows as an empty rest. -/
def scanName : Str → Str × Str
  | ':' :: ':' :: cs => (':' :: ':' :: (scanName cs).1, (scanName cs).2)
  | c :: cs => if isIdent c then (c :: (scanName cs).1, (scanName cs).2) else ([], c :: cs)
  | [] => ([], [])

/-- Loops `while source[i] in set: i += 1` (tokenizer.py:198, 210, 213). -/
def scanWhile (p : Char → Bool) : Str → Str × Str
  | [] => ([], [])
  | c :: cs => if p c then (c :: (scanWhile p cs).1, (scanWhile p cs).2) else ([], c :: cs)

/-- `str.lower` on ASCII letters. -/
def lower (c : Char) : Char := if 'A' ≤ c && c ≤ 'Z' then Char.ofNat (c.toNat + 32) else c

/-- Suffix handling, tokenizer.py:216-220 and 201-204: the first suffix in the list that matches
is consumed. -/
def scanSuffix : List Str → Str → Str × Str
  | [], rest => ([], rest)
  | s :: ss, rest =>
    if (rest.take s.length).map lower = s then (rest.take s.length, rest.drop s.length)
    else scanSuffix ss rest

/-- Integer suffixes, tokenizer.py:216. -/
def intSuffixes : List Str := ["ull".toList, "ll".toList, "ul".toList, ['l'], ['f'], ['u']]

/-- The part of `rest` after the first `*/` (`source.find('*/', i) + 2`, tokenizer.py:180);
`none` when there is none (`find` gives -1). -/
def afterComment : Str → Option Str
  | '*' :: '/' :: cs => some cs
  | _ :: cs => afterComment cs
  | [] => none

/-- The part of `rest` from the first newline on, empty if there is none (tokenizer.py:175-177). -/
def fromNewline : Str → Str
  | [] => []
  | c :: cs => if c = '\n' then c :: cs else fromNewline cs

/-- Result of one turn of the `while i < end` loop of `GetTokens`, tokenizer.py:135-280. -/
inductive Step where
  | stop                              -- the generator returns
  | emit (t : Tok) (rest : Str)       -- `yield Token(...)`, line 280
  | skip (rest : Str)                 -- `continue` with a later index
  | jumpTo1                           -- `continue` with `i = 1` (line 180, unterminated comment)
  | raise (e : PyErr)
  | unmodelled
  deriving Repr, DecidableEq

/-- The name branch, tokenizer.py:149-173 (without the `'` cases). -/
def nameStep (rest : Str) : Step :=
  match scanName rest with
  | (_, []) => .raise .indexError
  | (n, c :: cs) => if c = '\'' then .unmodelled else .emit ⟨.name, n⟩ (c :: cs)

/-- The operator branch, tokenizer.py:182-191. -/
def opStep (c : Char) : Str → Step
  | [] => .raise .indexError
  | d :: ds =>
    if d = c then .emit ⟨.syntax_, [c, d]⟩ ds
    else if c = '-' ∧ d = '>' then .emit ⟨.syntax_, [c, d]⟩ ds
    else if d = '=' then .emit ⟨.syntax_, [c, d]⟩ ds
    else .emit ⟨.syntax_, [c]⟩ (d :: ds)

/-- The single character branch, tokenizer.py:192-204. -/
def singleStep (c : Char) (cs : Str) : Step :=
  if c = '.' then
    match cs with
    | [] => .raise .indexError
    | d :: ds =>
      if isDig d then
        match scanWhile isIntFloat ds with
        | (_, []) => .raise .indexError
        | (n, r) =>
          let s := scanSuffix [['l'], ['f']] r
          .emit ⟨.constant, c :: d :: n ++ s.1⟩ s.2
      else .emit ⟨.syntax_, [c]⟩ (d :: ds)
  else .emit ⟨.syntax_, [c]⟩ cs

/-- The number branch, tokenizer.py:205-220. -/
def numStep (c : Char) (cs : Str) : Step :=
  match c, cs with
  | '0', [] => .raise .indexError
  | '0', 'x' :: ds | '0', 'X' :: ds =>
    match scanWhile isHex ds with
    | (_, []) => .raise .indexError
    | (n, r) =>
      let s := scanSuffix intSuffixes r
      .emit ⟨.constant, c :: cs.take 1 ++ n ++ s.1⟩ s.2
  | _, _ =>
    match scanWhile isIntFloat2 (c :: cs) with
    | (_, []) => .raise .indexError
    | (n, r) =>
      let s := scanSuffix intSuffixes r
      .emit ⟨.constant, n ++ s.1⟩ s.2

/-- One turn of the main loop once white space is skipped, tokenizer.py:142-280. -/
def step1 : Str → Step
  | [] => .stop
  | c :: cs =>
    if (isIdent c && !isDig c) || (c == ':' && cs.head? == some ':') then nameStep (c :: cs)
    else if c = '/' ∧ cs = [] then .raise .indexError
    else if c = '/' ∧ cs.head? = some '/' then .skip (fromNewline (c :: cs))
    else if c = '/' ∧ cs.head? = some '*' then
      match afterComment (c :: cs) with
      | some r => .skip r
      | none => .jumpTo1
    else if isOp c then opStep c cs
    else if isSingle c then singleStep c cs
    else if isDig c then numStep c cs
    else if c = '"' ∨ c = '\'' ∨ c = '#' then .unmodelled
    else if c = '\\' then .skip cs
    else .raise .runtimeError

/-- One turn of the main loop, tokenizer.py:135-280, with the white space skipping of 137-140. -/
def step (rest : Str) : Step := step1 (rest.dropWhile isPySpace)

/-- Outcome of the tokenizer: the tokens, an exception, a construct outside the model, or still
running after the given number of loop turns. -/
inductive TokRes where
  | done (ts : List Tok)
  | raised (e : PyErr)
  | unmodelled
  | running
  deriving Repr, DecidableEq

/-- The main loop for at most `fuel` turns; `src` is the whole source, `rest` is `source[i:]`,
`acc` the tokens yielded so far. -/
def loop (src : Str) : Nat → Str → List Tok → TokRes
  | 0, _, _ => .running
  | f + 1, rest, acc =>
    match step rest with
    | .stop => .done acc
    | .emit t r => loop src f r (acc ++ [t])
    | .skip r => loop src f r acc
    | .jumpTo1 => loop src f (src.drop 1) acc
    | .raise e => .raised e
    | .unmodelled => .unmodelled

/-- `list(GetTokens(source))`, tokenizer.py:116-280, run for at most `fuel` turns. -/
def getTokensFuel (fuel : Nat) (source : Str) : TokRes := loop source fuel source []

/-- The tokenizer run with as many turns as the source has characters, plus one.  By
`C12_terminates_partial` this is enough whenever the source has no unterminated comment. -/
def getTokens (source : Str) : TokRes := getTokensFuel (source.length + 1) source

example : getTokens "const foo::bar<const char*, zbr&>*\n".toList = .done
  [⟨.name, "const".toList⟩, ⟨.name, "foo::bar".toList⟩, ⟨.syntax_, ['<']⟩, ⟨.name, "const".toList⟩,
   ⟨.name, "char".toList⟩, ⟨.syntax_, ['*']⟩, ⟨.syntax_, [',']⟩, ⟨.name, "zbr".toList⟩,
   ⟨.syntax_, ['&']⟩, ⟨.syntax_, ['>']⟩, ⟨.syntax_, ['*']⟩] := by decide

end Verif.CType
