import Verif.PyDict
import Verif.CType.TraitsProps

/-!
# The type registry  (pybindgen/typehandlers/base.py:1349-1468, `TypeMatcher`)

`H` stands for handler classes.  A transformation (base.py:988-1043) is represented by its
`get_untransformed_name`, a function from type names to an optional name; that it may raise is not
modelled.
-/
namespace Verif.Matcher
open Verif Verif.CType

/-- `TypeMatcher`, base.py:1355-1360. -/
structure Matcher (H : Type) where
  types : Dict Str H := []
  transformations : List (Str → Option Str) := []
  aliases : Dict Str Str := []
  aliasesRev : Dict Str Str := []

variable {H : Type}

/-- `register_transformation`, base.py:1363-1366. -/
def Matcher.registerTransformation (m : Matcher H) (t : Str → Option Str) : Matcher H :=
  { m with transformations := m.transformations ++ [t] }

/-- `register`, base.py:1368-1378. -/
def Matcher.register (m : Matcher H) (name : Str) (h : H) : CRes (Matcher H) :=
  match normalize name with
  | .ok n =>
    match m.types.get n with
    | some _ => .raised .valueError
    | none => .ok { m with types := m.types.set n h }
  | .raised e => .raised e
  | .unmodelled => .unmodelled
  | .running => .running

/-- `add_type_alias`, base.py:1456-1460.  `str(TypeTraits(x).ctype)` is the normal form of `x`
(`TypeTraits` never fails on a type that parses, see `CType.traits_total`). -/
def Matcher.addTypeAlias (m : Matcher H) (fromName toName : Str) : CRes (Matcher H) :=
  match normalize fromName with
  | .ok f =>
    match normalize toName with
    | .ok t => .ok { m with aliases := m.aliases.set t f, aliasesRev := m.aliasesRev.set f t }
    | .raised e => .raised e
    | .unmodelled => .unmodelled
    | .running => .running
  | .raised e => .raised e
  | .unmodelled => .unmodelled
  | .running => .running

/-- The aliases to try for a name, base.py:1388-1396. -/
def Matcher.toTry (m : Matcher H) (name : Str) : List Str :=
  (m.aliases.get name).toList ++ (m.aliasesRev.get name).toList

/-- Outcome of a raw lookup: a handler, `KeyError`, or still running. -/
inductive Raw (H : Type) where
  | found (h : H)
  | keyError
  | running
  deriving Repr, DecidableEq

/-- `_raw_lookup_with_alias_support_recursive`, base.py:1384-1405: only the first alias not yet
tried is followed, and its outcome is final. -/
def Matcher.rawRec (m : Matcher H) : Nat → Str → List Str → Raw H
  | 0, _, _ => .running
  | f + 1, name, tried =>
    match m.types.get name with
    | some h => .found h
    | none =>
      match (m.toTry name).find? (fun a => !tried.contains a) with
      | some a => m.rawRec f a (tried ++ [name])
      | none => .keyError

/-- Enough recursion depth, see `C19_terminates`. -/
def Matcher.rawFuel (m : Matcher H) : Nat := 2 * (m.aliases.length + m.aliasesRev.length) + 2

/-- `_raw_lookup_with_alias_support`, base.py:1380-1382. -/
def Matcher.raw (m : Matcher H) (name : Str) : Raw H := m.rawRec m.rawFuel name []

/-- Result of `lookup`: the handler, the transformation used (by position) and the traits. -/
abbrev Found (H : Type) := H × Option Nat × Traits

/-- The loop over the transformations, base.py:1426-1447; `i` is the position of the first one
left, `tried` is `tried_names`. -/
def Matcher.tryTransf (m : Matcher H) (name : Str) : Nat → List (Str → Option Str) → List Str →
    CRes (Found H)
  | _, [], tried => .raised (.typeLookupError tried)
  | i, tr :: rest, tried =>
    match tr name with
    | none => m.tryTransf name (i + 1) rest tried
    | some u =>
      match traits u with
      | .ok t =>
        match m.raw (render t.noModifiers) with
        | .found h => .ok (h, some i, t)
        | .keyError => m.tryTransf name (i + 1) rest (tried ++ [render t.noModifiers])
        | .running => .running
      | .raised e => .raised e
      | .unmodelled => .unmodelled
      | .running => .running

/-- `lookup`, base.py:1407-1450. -/
def Matcher.lookup (m : Matcher H) (name : Str) : CRes (Found H) :=
  match traits name with
  | .ok t =>
    match m.raw (render t.noModifiers) with
    | .found h => .ok (h, none, t)
    | .keyError => m.tryTransf name 0 m.transformations [render t.noModifiers]
    | .running => .running
  | .raised e => .raised e
  | .unmodelled => .unmodelled
  | .running => .running

/-- One call of the mutating API. -/
inductive Op (H : Type) where
  | register (name : Str) (h : H)
  | alias (fromName toName : Str)
  | transformation (t : Str → Option Str)

/-- A call; one that raises leaves the object as it was (nothing is assigned before the
exceptions of these methods). -/
def Matcher.apply (m : Matcher H) : Op H → Matcher H
  | .register n h => match m.register n h with | .ok m' => m' | _ => m
  | .alias a b => match m.addTypeAlias a b with | .ok m' => m' | _ => m
  | .transformation t => m.registerTransformation t

/-- A `TypeMatcher` after a history of calls. -/
def run (ops : List (Op H)) : Matcher H := ops.foldl Matcher.apply {}

end Verif.Matcher
