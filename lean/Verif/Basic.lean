import Mathlib.Data.List.Forall2
import Mathlib.Tactic.Common

/-!
# Shared vocabulary

Python strings, exceptions and the few string primitives the code base uses.
-/
namespace Verif

/-- Python `str`: a list of characters, so theorems quantify over every string. -/
abbrev Str := List Char

/-- Exception classes raised by the modelled code. -/
inductive PyErr where
  | indexError
  | keyError
  | valueError
  | typeError
  | assertionError
  | attributeError
  | nameError
  | runtimeError
  | notImplementedError
  | codeGenerationError
  | notSupportedError
  | typeLookupError (tried : List Str)
  | typeConfigurationError
  | skipWrapper
  deriving Repr, DecidableEq

/-- Result of a Python call: a value or a raised exception. -/
abbrev PyRes (α : Type _) := Except PyErr α

/-- `sep.split` on one character: Python `s.split(c)`; never returns an empty list. -/
def splitOn (c : Char) : Str → List Str
  | [] => [[]]
  | x :: xs =>
    if x = c then [] :: splitOn c xs
    else match splitOn c xs with
      | [] => [[x]]
      | l :: ls => (x :: l) :: ls

/-- Python `sep.join(parts)`. -/
def pyJoin (sep : Str) : List Str → Str
  | [] => []
  | [l] => l
  | l :: ls => l ++ sep ++ pyJoin sep ls

/-- Unicode's white space as CPython's `str.isspace` has it. -/
def pySpaces : List Char :=
  ['\t', '\n', '\x0b', '\x0c', '\r', '\x1c', '\x1d', '\x1e', '\x1f', ' ', '\u0085', '\u00a0',
   '\u1680', '\u2000', '\u2001', '\u2002', '\u2003', '\u2004', '\u2005', '\u2006', '\u2007',
   '\u2008', '\u2009', '\u200a', '\u2028', '\u2029', '\u202f', '\u205f', '\u3000']

/-- Python `str.isspace` on one character. -/
def isPySpace (c : Char) : Bool := pySpaces.contains c

/-- Python `s.rstrip()`. -/
def rstrip (s : Str) : Str := (s.reverse.dropWhile isPySpace).reverse

/-- Python `s.lstrip()`. -/
def lstrip (s : Str) : Str := s.dropWhile isPySpace

/-- Python `s.strip()`. -/
def pyStrip (s : Str) : Str := rstrip (lstrip s)

/-- Python `' ' * n` for an integer `n` (empty when `n ≤ 0`). -/
def spaces (n : Int) : Str := List.replicate n.toNat ' '

/-- Decimal rendering of a natural number (Python `"%i" % n`). -/
def natStr (n : Nat) : Str := Nat.toDigits 10 n

theorem splitOn_ne_nil (c : Char) (s : Str) : splitOn c s ≠ [] := by
  cases s with
  | nil => simp [splitOn]
  | cons x xs =>
    unfold splitOn
    split
    · simp
    · split <;> simp

/-- A string without the separator is one piece. -/
theorem splitOn_of_not_mem {c : Char} {s : Str} (h : c ∉ s) : splitOn c s = [s] := by
  induction s with
  | nil => rfl
  | cons x xs ih =>
    simp only [List.mem_cons, not_or] at h
    unfold splitOn
    rw [ih h.2]
    simp [Ne.symm h.1]

/-- `c.join(s.split(c)) == s`. -/
theorem pyJoin_splitOn (c : Char) (s : Str) : pyJoin [c] (splitOn c s) = s := by
  induction s with
  | nil => rfl
  | cons x xs ih =>
    unfold splitOn
    split
    · next h =>
      subst h
      cases hs : splitOn x xs with
      | nil => exact absurd hs (splitOn_ne_nil _ _)
      | cons l ls => rw [hs] at ih; simp [pyJoin, ih]
    · cases hs : splitOn c xs with
      | nil => exact absurd hs (splitOn_ne_nil _ _)
      | cons l ls =>
        rw [hs] at ih
        cases ls with
        | nil => simp_all [pyJoin]
        | cons m ms => simp_all [pyJoin]

/-- The pieces contain no separator. -/
theorem not_mem_of_mem_splitOn {c : Char} {s p : Str} (h : p ∈ splitOn c s) : c ∉ p := by
  induction s generalizing p with
  | nil => simp [splitOn] at h; simp [h]
  | cons x xs ih =>
    unfold splitOn at h
    split at h
    · rcases List.mem_cons.1 h with rfl | h
      · simp
      · exact ih h
    · next hx =>
      cases hs : splitOn c xs with
      | nil => exact absurd hs (splitOn_ne_nil _ _)
      | cons l ls =>
        rw [hs] at h ih
        rcases List.mem_cons.1 h with rfl | h
        · have := ih (p := l) (by simp)
          simp only [List.mem_cons, not_or]
          exact ⟨fun h => hx h.symm, this⟩
        · exact ih (List.mem_cons_of_mem _ h)

theorem natStr_injective {a b : Nat} (h : natStr a = natStr b) : a = b := by
  have := congrArg (fun l => Nat.ofDigitChars 10 l 0) h
  simpa [natStr, Nat.ofDigitChars_ten_toDigits] using this

theorem isDigit_of_mem_natStr {n : Nat} {c : Char} (h : c ∈ natStr n) : c.isDigit = true :=
  Nat.isDigit_of_mem_toDigits (by decide) (by decide) h

theorem natStr_ne_nil (n : Nat) : natStr n ≠ [] := Nat.toDigits_ne_nil

end Verif
