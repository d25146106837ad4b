import Verif.Basic

/-!
# Annotation comments in header files

`AnnotationsScanner` (castxmlparser.py:399-503).  Regular expressions are modelled by functions returning
what the expression matches; each is greedy exactly where the expression is.
-/
namespace Verif.Annot
open Verif

/-- A Python `dict` with its insertion order: assigning to an existing key keeps its place. -/
abbrev ODict (β : Type) := List (Str × β)

def ODict.set {β : Type} (d : ODict β) (k : Str) (v : β) : ODict β :=
  match d with
  | [] => [(k, v)]
  | (a, b) :: r => if a = k then (a, v) :: r else (a, b) :: ODict.set r k v

def ODict.get {β : Type} (d : ODict β) (k : Str) : Option β :=
  match d with
  | [] => none
  | (a, b) :: r => if a = k then some b else ODict.get r k

/-- `\w`: `uni` tells which characters beyond ASCII are letters or digits. -/
def isWord (uni : Char → Bool) (c : Char) : Bool :=
  if c.toNat < 128 then c.isAlphanum || c = '_' else uni c

/-- The text after a literal prefix. -/
def after (p s : Str) : Option Str := if p.isPrefixOf s then some (s.drop p.length) else none

/-- `-#-` -/
def mark : Str := "-#-".toList

/-- `.*-#-` followed by something `ok`: what `.*` matches. -/
def lastMark (ok : Str → Bool) : Str → Option Str
  | [] => none
  | x :: xs =>
    if x = '\n' then none
    else match lastMark ok xs with
      | some a => some (x :: a)
      | none =>
        match after mark (x :: xs) with
        | some r => if ok r then some [] else none
        | none => none

/-- `\s+-#-`: what follows. -/
def openMark (s : Str) : Option Str :=
  if s.head?.any isPySpace then after mark (s.dropWhile isPySpace) else none

/-- First alternative of `_comment_rx`, lines 403-404: `^\s*//\s+-#-(.*)-#-\s*`. -/
def lineComment (s : Str) : Option Str :=
  ((after "//".toList (s.dropWhile isPySpace)).bind openMark).bind (lastMark (fun _ => true))

/-- Second alternative: `/\*\s+-#-(.*)-#-\s*\*/`; `match` needs it at the very start of the line, because `^\s*`
belongs to the first alternative only. -/
def blockComment (s : Str) : Option Str :=
  ((after "/*".toList s).bind openMark).bind
    (lastMark (fun r => "*/".toList.isPrefixOf (r.dropWhile isPySpace)))

/-- `_comment_rx.match` and the group that matched, lines 444-449. -/
def comment (s : Str) : Option Str :=
  match lineComment s with
  | some a => some a
  | none => blockComment s

/-- `_global_annotation_rx.match`, line 405: `(\w+)(?:=([^\s;]+))?`. -/
def globalRx (uni : Char → Bool) (s : Str) : Option (Str × Option Str) :=
  let k := s.takeWhile (isWord uni)
  if k = [] then none
  else
    match s.dropWhile (isWord uni) with
    | '=' :: r =>
      let v := r.takeWhile (fun c => !isPySpace c && c != ';')
      some (k, if v = [] then none else some v)
    | _ => some (k, none)

/-- The text up to the last closing parenthesis. -/
def lastParen : Str → Option Str
  | [] => none
  | x :: xs =>
    match lastParen xs with
    | some a => some (x :: a)
    | none => if x = ')' then some [] else none

/-- `_param_annotation_rx.match`, line 406: `@(\w+)\(([^;]+)\)`. -/
def paramRx (uni : Char → Bool) (s : Str) : Option (Str × Str) :=
  match s with
  | '@' :: r =>
    let k := r.takeWhile (isWord uni)
    if k = [] then none
    else
      match r.dropWhile (isWord uni) with
      | '(' :: t =>
        match lastParen (t.takeWhile (· != ';')) with
        | some (x :: xs) => some (k, x :: xs)
        | _ => none
      | _ => none
  | _ => none

/-- What `get_annotations` collects; `used` are line numbers, `bad` the pieces warned about. -/
structure Notes where
  globals : ODict (Option Str) := []
  params : ODict (ODict (Option Str)) := []
  used : List Int := []
  bad : List Str := []
  deriving DecidableEq, Repr

/-- The elements of a parameter annotation, lines 463-470: the dictionary and the elements that could not be
parsed. -/
def elements (uni : Char → Bool) (body : Str) : ODict (Option Str) × List Str :=
  (splitOn ',' body).foldl (fun acc e =>
    match globalRx uni (pyStrip e) with
    | some (k, v) => (acc.1.set k v, acc.2)
    | none => (acc.1, acc.2 ++ [pyStrip e])) ([], [])

/-- One annotation, lines 453-473. -/
def addOne (uni : Char → Bool) (n : Notes) (a : Str) : Notes :=
  let a := pyStrip a
  match globalRx uni a with
  | some (k, v) => { n with globals := n.globals.set k v }
  | none =>
    match paramRx uni a with
    | some (p, body) =>
      { n with params := n.params.set p (elements uni body).1, bad := n.bad ++ (elements uni body).2 }
    | none => { n with bad := n.bad ++ [a] }

/-- The annotations of one comment, lines 450-473. -/
def addText (uni : Char → Bool) (n : Notes) (s : Str) : Notes := (splitOn ';' (pyStrip s)).foldl (addOne uni) n

/-- `lines[i]` with Python's negative indices. -/
def pyIndex (lines : List Str) (i : Int) : Option Str :=
  if 0 ≤ i then lines[i.toNat]?
  else if 0 ≤ i + lines.length then lines[(i + lines.length).toNat]? else none

/-- The loop of `get_annotations`, lines 441-473, from index `i` upwards; the first argument bounds the number
of lines looked at (`up_fuel`: with the bound used below an error means that the index was out of range). -/
def up (uni : Char → Bool) (lines : List Str) : Nat → Int → Notes → PyRes Notes
  | 0, _, _ => .error .indexError
  | m + 1, i, n =>
    match pyIndex lines i with
    | none => .error .indexError
    | some line =>
      match comment line with
      | none => .ok n
      | some s => up uni lines m (i - 1) (addText uni { n with used := n.used ++ [i + 1] } s)

/-- `get_annotations` of a declaration at a line (counted from 1) of a file with these lines, lines 416-476;
`artificial`: generated by the compiler. -/
def getAnnotations (uni : Char → Bool) (lines : List Str) (line : Nat) (artificial : Bool := false) : PyRes Notes :=
  if artificial then .ok {}
  else up uni lines (2 * lines.length + 1) ((line : Int) - 2) {}

/-- `warn_unused_annotations` for one file, lines 488-503: the line numbers warned about. -/
def unused (lines : List Str) (used : List Int) : List Int :=
  ((lines.zipIdx 1).filter (fun p => (comment p.1).isSome && !used.contains (p.2 : Int))).map (fun p => (p.2 : Int))

/-- An annotation value: nothing, text, or a number set by a scan hook. -/
inductive AVal where
  | none
  | str (s : Str)
  | int (i : Int)
  deriving DecidableEq, Repr

def lower (s : Str) : Str := s.map Char.toLower

/-- `parse_boolean`, lines 478-486 (`str.lower` on ASCII). -/
def parseBoolean : AVal → PyRes Bool
  | .int i => .ok (i != 0)
  | .none => .error .attributeError
  | .str s =>
    if lower s = "false".toList ∨ lower s = "off".toList then .ok false
    else if lower s = "true".toList ∨ lower s = "on".toList then .ok true
    else .error .valueError

end Verif.Annot
