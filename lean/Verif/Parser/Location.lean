import Verif.Basic

/-!
# Which declarations belong to the module

`ModuleParser.__location_match` (castxmlparser.py:659-667) and the paths prepared by `parse_init` (765-770), with
`os.path.abspath` as on POSIX systems (CPython's `posixpath.py`: `split` at slashes, `join`, `normpath`, `abspath`).
-/
namespace Verif.Location
open Verif

/-- `path.split('/')`. -/
def split : Str → List Str
  | [] => [[]]
  | c :: s =>
    if c = '/' then [] :: split s
    else match split s with
      | [] => [[c]]
      | w :: ws => (c :: w) :: ws

/-- `'/'.join(comps)`. -/
def joined : List Str → Str
  | [] => []
  | [c] => c
  | c :: d :: l => c ++ '/' :: joined (d :: l)

/-- The number of slashes kept in front, `normpath`: one, or two if there are exactly two. -/
def slashes : Str → Nat
  | '/' :: '/' :: '/' :: _ => 1
  | '/' :: '/' :: _ => 2
  | '/' :: _ => 1
  | _ => 0

/-- The loop of `normpath`; `acc` is `new_comps`. -/
def norm (rooted : Bool) (acc : List Str) : List Str → List Str
  | [] => acc
  | c :: l =>
    if c = [] ∨ c = ['.'] then norm rooted acc l
    else if c ≠ ['.', '.'] ∨ (!rooted ∧ acc = []) ∨ (acc ≠ [] ∧ acc.getLast? = some ['.', '.']) then
      norm rooted (acc ++ [c]) l
    else norm rooted acc.dropLast l

/-- `os.path.normpath`. -/
def normpath (p : Str) : Str :=
  if p = [] then ['.']
  else
    let r := List.replicate (slashes p) '/' ++ joined (norm (decide (slashes p ≠ 0)) [] (split p))
    if r = [] then ['.'] else r

/-- `os.path.join(a, b)` for a relative `b`. -/
def join (a b : Str) : Str := if a = [] ∨ a.getLast? = some '/' then a ++ b else a ++ '/' :: b

/-- `os.path.abspath` in the working directory `cwd`. -/
def abspath (cwd p : Str) : Str :=
  normpath (if p.head? = some '/' then p else join cwd p)

/-- What `parse_init` keeps, lines 765-770; without `whitelist_paths` the list is empty (line 591). -/
structure Filter where
  headerFiles : List Str
  whitelistPaths : List Str

def parseInit (cwd : Str) (headers : List Str) (whitelist : Option (List Str)) : Filter :=
  ⟨headers.map (abspath cwd), (whitelist.getD []).map (abspath cwd)⟩

/-- `__location_match` for a declaration in the file `file`, lines 659-667. -/
def Filter.matches (f : Filter) (cwd file : Str) : Bool :=
  if f.headerFiles.contains (abspath cwd file) then true
  else f.whitelistPaths.any (fun w => w.isPrefixOf (abspath cwd file))

end Verif.Location
