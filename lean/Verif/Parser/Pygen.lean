import Verif.Basic

/-!
# The text of generated scripts

How `castxmlparser` writes Python values and calls into a script (castxmlparser.py:245-274 and `repr`), and a reader
for the part of Python's expression syntax that occurs there.
-/
namespace Verif.Pygen
open Verif

/-! ## `repr` of strings -/

/-- A hexadecimal digit. -/
def hexDigit (n : Nat) : Char := if n < 10 then Char.ofNat (48 + n) else Char.ofNat (87 + n)

/-- `w` hexadecimal digits. -/
def hexText : Nat → Nat → Str
  | 0, _ => []
  | w + 1, n => hexDigit (n / 16 ^ w % 16) :: hexText w n

/-- One character inside a quoted string, as `repr` writes it; `pr` tells which characters beyond ASCII are
printable. -/
def reprChar (pr : Char → Bool) (q c : Char) : Str :=
  if c = q ∨ c = '\\' then ['\\', c]
  else if c = '\t' then "\\t".toList
  else if c = '\n' then "\\n".toList
  else if c = '\r' then "\\r".toList
  else if c.toNat < 32 ∨ c.toNat = 127 then '\\' :: 'x' :: hexText 2 c.toNat
  else if c.toNat < 127 ∨ pr c then [c]
  else if c.toNat < 256 then '\\' :: 'x' :: hexText 2 c.toNat
  else if c.toNat < 65536 then '\\' :: 'u' :: hexText 4 c.toNat
  else '\\' :: 'U' :: hexText 8 c.toNat

/-- `repr(str)`: single quotes, unless the text contains those and no double ones. -/
def reprStr (pr : Char → Bool) (s : Str) : Str :=
  let q := if s.contains '\'' && !s.contains '"' then '"' else '\''
  q :: s.flatMap (reprChar pr q) ++ [q]

/-- `repr(int)`. -/
def reprInt : Int → Str
  | .ofNat n => natStr n
  | .negSucc n => '-' :: natStr (n + 1)

/-! ## Expressions -/

mutual
/-- The expressions that occur in scripts; arguments carry the white space written before them and a keyword. -/
inductive E where
  /-- `True`, `None`, a variable -/
  | name (n : Str)
  | int (i : Int)
  | str (s : Str)
  | list (es : Es)
  /-- `(…, …)` -/
  | tuple (es : Es)
  /-- `f(…)`, `a.b(…)` -/
  | call (f : Str) (es : Es)
  /-- `root_module['…']` -/
  | index (f : Str) (s : Str)
  /-- `root_module['…'].f(…)` -/
  | meth (o : Str) (s : Str) (f : Str) (es : Es)

inductive Es where
  | nil
  | cons (pre : Str) (key : Option Str) (e : E) (rest : Es)
end

def keyText : Option Str → Str
  | some k => k ++ ['=']
  | none => []

mutual
/-- An expression as text. -/
def E.text (pr : Char → Bool) : E → Str
  | .name n => n
  | .int i => reprInt i
  | .str s => reprStr pr s
  | .list es => '[' :: es.text pr ++ [']']
  | .tuple es => '(' :: es.text pr ++ [')']
  | .call f es => f ++ '(' :: es.text pr ++ [')']
  | .index f s => f ++ '[' :: reprStr pr s ++ [']']
  | .meth o s f es => o ++ '[' :: reprStr pr s ++ ']' :: '.' :: f ++ '(' :: es.text pr ++ [')']

/-- Arguments separated by commas. -/
def Es.text (pr : Char → Bool) : Es → Str
  | .nil => []
  | .cons pre k e rest => pre ++ keyText k ++ e.text pr ++ rest.tail pr

/-- Further arguments. -/
def Es.tail (pr : Char → Bool) : Es → Str
  | .nil => []
  | .cons pre k e rest => ',' :: (pre ++ keyText k ++ e.text pr ++ rest.tail pr)
end

/-! ## Reading -/

def hexVal (c : Char) : Option Nat :=
  if '0' ≤ c ∧ c ≤ '9' then some (c.toNat - 48)
  else if 'a' ≤ c ∧ c ≤ 'f' then some (c.toNat - 87)
  else none

/-- The value of `w` hexadecimal digits and what follows. -/
def readHex : Nat → Nat → Str → Option (Nat × Str)
  | 0, n, s => some (n, s)
  | w + 1, n, c :: s => (hexVal c).bind (fun d => readHex w (16 * n + d) s)
  | _ + 1, _, [] => none

/-- A character after a backslash, and what follows. -/
def readEscape : Str → Option (Char × Str)
  | 't' :: s => some ('\t', s)
  | 'n' :: s => some ('\n', s)
  | 'r' :: s => some ('\r', s)
  | '\\' :: s => some ('\\', s)
  | '\'' :: s => some ('\'', s)
  | '"' :: s => some ('"', s)
  | 'x' :: s => (readHex 2 0 s).map (fun p => (Char.ofNat p.1, p.2))
  | 'u' :: s => (readHex 4 0 s).map (fun p => (Char.ofNat p.1, p.2))
  | 'U' :: s => (readHex 8 0 s).map (fun p => (Char.ofNat p.1, p.2))
  | _ => none

/-- The inside of a string up to the closing quote. -/
def readStr (q : Char) : Nat → Str → Option (Str × Str)
  | 0, _ => none
  | _ + 1, [] => none
  | n + 1, c :: s =>
    if c = q then some ([], s)
    else if c = '\\' then (readEscape s).bind (fun p => (readStr q n p.2).map (fun r => (p.1 :: r.1, r.2)))
    else if c = '\n' then none
    else (readStr q n s).map (fun r => (c :: r.1, r.2))

/-- A string literal. -/
def readLit (s : Str) : Option (Str × Str) :=
  match s with
  | c :: r => if c = '\'' ∨ c = '"' then readStr c (r.length + 1) r else none
  | [] => none

def identStart (c : Char) : Bool := c.isAlpha || c = '_'
def identChar (c : Char) : Bool := c.isAlphanum || c = '_' || c = '.'

mutual
/-- An expression at the start of a text, and what follows; the number bounds the depth. -/
def readE : Nat → Str → Option (E × Str)
  | 0, _ => none
  | _ + 1, [] => none
  | n + 1, c :: s =>
    if c = '\'' ∨ c = '"' then (readLit (c :: s)).map (fun p => (.str p.1, p.2))
    else if c = '[' then (readEs n ']' s).map (fun p => (.list p.1, p.2))
    else if c = '-' then
      some (.int (-(Nat.ofDigitChars 10 (s.takeWhile Char.isDigit) 0 : Nat)), s.dropWhile Char.isDigit)
    else if c.isDigit then
      some (.int (Nat.ofDigitChars 10 ((c :: s).takeWhile Char.isDigit) 0 : Nat), (c :: s).dropWhile Char.isDigit)
    else if identStart c then
      let f := (c :: s).takeWhile identChar
      match (c :: s).dropWhile identChar with
      | '(' :: r => (readEs n ')' r).map (fun p => (.call f p.1, p.2))
      | '[' :: r =>
        match readLit r with
        | some (k, ']' :: '.' :: r') =>
          match r'.dropWhile identChar with
          | '(' :: r'' => (readEs n ')' r'').map (fun p => (.meth f k (r'.takeWhile identChar) p.1, p.2))
          | _ => none
        | some (k, ']' :: r') => some (.index f k, r')
        | _ => none
      | r => some (.name f, r)
    else if c = '(' then (readEs n ')' s).map (fun p => (.tuple p.1, p.2))
    else none

/-- The arguments up to the closing character. -/
def readEs : Nat → Char → Str → Option (Es × Str)
  | 0, _, _ => none
  | n + 1, close, s =>
    if s.head? = some close then some (.nil, s.drop 1)
    else readItem n close s

/-- One argument and the following ones. -/
def readItem : Nat → Char → Str → Option (Es × Str)
  | 0, _, _ => none
  | n + 1, close, s =>
    let pre := s.takeWhile isPySpace
    let t := s.dropWhile isPySpace
    let k := t.takeWhile identChar
    let (key, body) :=
      if t.head?.any identStart ∧ (t.dropWhile identChar).head? = some '=' then (some k, (t.dropWhile identChar).drop 1)
      else (none, t)
    match readE n body with
    | none => none
    | some (e, r) =>
      match r with
      | [] => none
      | c :: r' =>
        if c = close then some (.cons pre key e .nil, r')
        else if c = ',' then (readItem n close r').map (fun p => (.cons pre key e p.1, p.2))
        else none
end

end Verif.Pygen
