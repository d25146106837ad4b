import Verif.Overload.Model

/-!
# Docstrings

Where docstrings get into the generated code: method tables (`Function.get_py_method_def`,
function.py:286-311, `CppMethod.get_py_method_def`, cppmethod.py:415-432, overload sets,
overloading.py:251-293), type structures (cppclass.py:2216-2220, 2242-2245, cppmethod.py:759-760) and module
definitions (module.py:716-718, 825-835).  And how a C compiler reads what is written there.

Simplifications.  The text `wrapper_actual_name` and the flags are given.  A C string literal is read as a
sequence of characters: the encoding of characters outside ASCII, trigraphs, universal character names and the
concatenation of adjacent literals are left out.
-/
namespace Verif.Docs
open Verif

/-! ## How C reads a string literal -/

/-- Where in a literal the reader is. -/
inductive Mode where
  | normal
  /-- after a backslash -/
  | esc
  /-- after `k` octal digits, of value `v` -/
  | oct (k v : Nat)
  /-- after `\x` -/
  | hex0
  /-- after `\x` and some digits, of value `v` -/
  | hex (v : Nat)

inductive Next where
  | go (m : Mode)
  /-- the closing quote -/
  | stop
  /-- not a string literal -/
  | bad

def octDigit (c : Char) : Option Nat := if '0' ≤ c ∧ c ≤ '7' then some (c.toNat - 48) else none

def hexDigit (c : Char) : Option Nat :=
  if '0' ≤ c ∧ c ≤ '9' then some (c.toNat - 48)
  else if 'a' ≤ c ∧ c ≤ 'f' then some (c.toNat - 87)
  else if 'A' ≤ c ∧ c ≤ 'F' then some (c.toNat - 55)
  else none

/-- A character outside escape sequences. -/
def plainStep (c : Char) : Str × Next :=
  if c = '"' then ([], .stop)
  else if c = '\n' then ([], .bad)
  else if c = '\\' then ([], .go .esc)
  else ([c], .go .normal)

/-- A character after a backslash. -/
def escStep (c : Char) : Str × Next :=
  if c = 'n' then (['\n'], .go .normal)
  else if c = 't' then (['\t'], .go .normal)
  else if c = 'r' then (['\r'], .go .normal)
  else if c = 'a' then ([Char.ofNat 7], .go .normal)
  else if c = 'b' then ([Char.ofNat 8], .go .normal)
  else if c = 'f' then ([Char.ofNat 12], .go .normal)
  else if c = 'v' then ([Char.ofNat 11], .go .normal)
  else if c = '\\' ∨ c = '"' ∨ c = '\'' ∨ c = '?' then ([c], .go .normal)
  else if c = '\n' then ([], .go .normal)
  else if c = 'x' then ([], .go .hex0)
  else match octDigit c with
    | some v => ([], .go (.oct 1 v))
    | none => ([], .bad)

/-- One character. -/
def litStep : Mode → Char → Str × Next
  | .normal, c => plainStep c
  | .esc, c => escStep c
  | .oct k v, c =>
    match if k < 3 then octDigit c else none with
    | some d => ([], .go (.oct (k + 1) (8 * v + d)))
    | none => (Char.ofNat v :: (plainStep c).1, (plainStep c).2)
  | .hex0, c =>
    match hexDigit c with
    | some d => ([], .go (.hex d))
    | none => ([], .bad)
  | .hex v, c =>
    match hexDigit c with
    | some d => ([], .go (.hex (16 * v + d)))
    | none => (Char.ofNat v :: (plainStep c).1, (plainStep c).2)

/-- The rest of a string literal: its characters, and what comes after the closing quote. -/
def literal : Mode → Str → Option (Str × Str)
  | _, [] => none
  | m, c :: r =>
    match (litStep m c).2 with
    | .stop => some ((litStep m c).1, r)
    | .bad => none
    | .go m' => (literal m' r).map (fun x => ((litStep m c).1 ++ x.1, x.2))

/-- A C string ends at the first null character. -/
def cstring (v : Str) : Str := v.takeWhile (· ≠ Char.ofNat 0)

def expect (p t : Str) : Option Str := if p.isPrefixOf t then some (t.drop p.length) else none

/-- A `const char *` initializer as the generator writes them: `NULL` or a literal.  The result is what Python
makes of it, and the rest of the text. -/
def readDoc (t : Str) : Option (Option Str × Str) :=
  match expect "NULL".toList t with
  | some r => some (none, r)
  | none =>
    match expect "\"".toList t with
    | some r => (literal .normal r).map (fun x => (some (cstring x.1), x.2))
    | none => none

/-- An entry of a method table, as read by C and Python. -/
structure Entry where
  name : Str
  function : Str
  flags : Str
  doc : Option Str
  deriving DecidableEq, Repr

/-- Read `{(char *) "name", (PyCFunction) function, flags, doc },`. -/
def readEntry (t : Str) : Option Entry := do
  let t ← expect "{(char *) \"".toList t
  let (name, t) ← literal .normal t
  let t ← expect ", (PyCFunction) ".toList t
  let function := t.takeWhile (· ≠ ',')
  let t ← expect ", ".toList (t.dropWhile (· ≠ ','))
  let flags := t.takeWhile (· ≠ ',')
  let t ← expect ", ".toList (t.dropWhile (· ≠ ','))
  let (doc, t) ← readDoc t
  let t ← expect " },".toList t
  if t = [] then some { name := cstring name, function, flags, doc } else none

/-! ## What the generator writes -/

/-- `docstring is None and "NULL" or ('"'+docstring+'"')`, function.py:303, cppmethod.py:424, 978,
overloading.py:293, cppclass.py:2219-2220. -/
def docText : Option Str → Str
  | none => "NULL".toList
  | some d => "\"".toList ++ (d ++ "\"".toList)

/-- The entry, function.py:301-303, cppmethod.py:422-424, 974-978, overloading.py:291-293. -/
def entryText (name function flags : Str) (doc : Option Str) : Str :=
  "{(char *) \"".toList ++ (name ++ ("\"".toList ++ (", (PyCFunction) ".toList ++ (function ++ (", ".toList ++
    (flags ++ (", ".toList ++ (docText doc ++ " },".toList))))))))

structure Param where
  name : Str
  ctype : Str

/-- `sep.join(xs)`. -/
def join (sep : Str) : List Str → Str
  | [] => []
  | [x] => x
  | x :: y :: xs => x ++ (sep ++ join sep (y :: xs))

/-- The two characters `\n` of the Python string `"\\n"`. -/
def bsn : Str := ['\\', 'n']

/-- `"{0}({1})".format(name, ", ".join(...))`, function.py:307, cppmethod.py:428, 760. -/
def signature (name : Str) (ps : List Param) : Str :=
  name ++ ("(".toList ++ (join ", ".toList (ps.map Param.name) ++ ")".toList))

/-- `"type: {0}: {1}".format(p.name, p.ctype)`, function.py:308, cppmethod.py:429. -/
def typeLine (p : Param) : Str := "type: ".toList ++ (p.name ++ (": ".toList ++ p.ctype))

/-- `generate_docstring`, function.py:305-311, cppmethod.py:426-432. -/
def generateDocstring (name : Str) (ps : List Param) : Str :=
  signature name ps ++ (bsn ++ (bsn ++ join bsn (ps.map typeLine)))

/-- A function or method wrapper after code generation. -/
structure Fn where
  docstring : Option Str
  params : List Param
  function : Str
  flags : Str
  /-- `NEEDS_OVERLOADING_INTERFACE` -/
  needsIface : Bool := false
  /-- the wrapper is a `CppVirtualMethodParentCaller`, whose `get_py_method_def` does not make a docstring
  (cppmethod.py:964-978) -/
  parentCaller : Bool := false

/-- `get_py_method_def` of a function or method: the entry, and the wrapper, in which a generated docstring is
kept (function.py:286-303, cppmethod.py:415-424, 964-978). -/
def Fn.getPyMethodDef (f : Fn) (name : Str) : Str × Fn :=
  if f.parentCaller then (entryText name f.function f.flags f.docstring, f)
  else
    let f := { f with docstring := some (f.docstring.getD (generateDocstring name f.params)) }
    (entryText name f.function f.flags f.docstring, f)

/-- `OverloadedWrapper.get_py_method_def`, overloading.py:251-293: `function` is the wrapper of the overload set
and `flags` the flags of the first wrapper.  (The assertions about the flags are those of C48.) -/
def overloadDef (ws : List Fn) (function flags name : Str) : PyRes Str :=
  match ws with
  | [w] =>
    if w.needsIface then (Overload.tableDocstring [w.docstring]).map (entryText name function flags)
    else .ok (w.getPyMethodDef name).1
  | ws => (Overload.tableDocstring (ws.map Fn.docstring)).map (entryText name function flags)

/-- `sorted(xs, key=len, reverse=True)`: stable, longest first. -/
def insertLong (x : Str) : List Str → List Str
  | [] => [x]
  | y :: ys => if y.length < x.length then x :: y :: ys else y :: insertLong x ys

/-- Insertion from the left keeps the order of equal lengths. -/
def sortLong (xs : List Str) : List Str := xs.foldl (fun acc x => insertLong x acc) []

/-- `CppClass.generate_docstring`, cppclass.py:2242-2245, with `CppConstructor.generate_docstring`,
cppmethod.py:759-760. -/
def classDocstring (name : Str) (ctors : List (List Param)) : Str :=
  join bsn (sortLong (ctors.map (signature name)))

/-- The slot `tp_doc`, cppclass.py:2216-2220. -/
def tpDoc (docstring : Option Str) (name : Str) (ctors : List (List Param)) : Str :=
  docText (some (docstring.getD (classDocstring name ctors)))

/-- The docstring in the module definition, `self.docstring and '"'+self.docstring+'"' or 'NULL'`,
module.py:718, 834. -/
def moduleDoc : Option Str → Str
  | none => "NULL".toList
  | some [] => "NULL".toList
  | some (c :: d) => docText (some (c :: d))

/-- How `call_with_error_handling(overload.generate, ...)` and the one for the declaration ended. -/
inductive Gen where
  | ok
  | skip
  | fail (e : PyErr)

/-- The loop over the functions of a module, module.py:729-742: the entry is made outside the error
handling.  (For methods, cppclass.py:2398-2408, it is the same.) -/
def functionTable : List (Str × Gen × PyRes Str) → PyRes (List Str)
  | [] => .ok []
  | (_, .fail e, _) :: _ => .error e
  | (_, .skip, _) :: fs => functionTable fs
  | (_, .ok, r) :: fs => r.bind fun l => (functionTable fs).bind fun ls => .ok (l :: ls)

end Verif.Docs
