import Verif.CType.Tokenizer

/-!
# C types  (pybindgen/typehandlers/ctypeparser/__init__.py)

A `CType` is a list of items, each a token or a nested `CType` (lines 12-23).  `CType` objects
are mutable in Python; here every mutating method returns the new token list.
-/
namespace Verif.CType
open Verif

/-- An item of `CType.tokens`, lines 13-16. -/
inductive Item where
  | tok (t : Tok)
  | sub (c : List Item)
  deriving Repr

/-- `isinstance(item, Token) and item.name == n`. -/
def Item.isNamed (n : Str) : Item → Bool
  | .tok t => t.name == n
  | .sub _ => false

/-- `MODIFIERS`, line 4. -/
def kConst : Str := "const".toList
def kVolatile : Str := "volatile".toList
def kModifiers : List Str := [kConst, kVolatile]

/-- A top-level `*` or `&` (line 54). -/
def Item.isPtrRef (i : Item) : Bool := i.isNamed ['*'] || i.isNamed ['&']

/-- Lines 50-59: insert the popped token before the first `*`/`&` from its old place on, or
append it. -/
def insertBefore (x : Item × Bool) : List (Item × Bool) → List (Item × Bool)
  | [] => [x]
  | y :: ys => if y.1.isPtrRef then x :: y :: ys else y :: insertBefore x ys

/-- Lines 40-63: one run of the `for` loop.  The flag records `token in tokens_moved` (tokens
are compared by identity, line 43).  `none` when nothing was reordered. -/
def moveFirst (m : Str) : List (Item × Bool) → Option (List (Item × Bool))
  | [] => none
  | x :: rest =>
    if x.1.isNamed m && !x.2 then some (insertBefore (x.1, true) rest)
    else (moveFirst m rest).map (x :: ·)

/-- Lines 38-65: the `while 1` loop, for at most `n` rounds.  (`reorderModifier` allows as many
rounds as there are items; `reorderModifier_eq` shows it then has ended by itself.) -/
def reorderLoop (m : Str) : Nat → List (Item × Bool) → List (Item × Bool)
  | 0, l => l
  | n + 1, l =>
    match moveFirst m l with
    | none => l
    | some l' => reorderLoop m n l'

/-- `CType._reorder_modifier`, lines 36-65. -/
def reorderModifier (m : Str) (l : List Item) : List Item :=
  (reorderLoop m l.length (l.map (·, false))).map (·.1)

/-- `CType.reorder_modifiers`, lines 28-34. -/
def reorder (l : List Item) : List Item :=
  kModifiers.foldl (fun l m => reorderModifier m l) l

/-- Lines 82-89: delete the first token named `m`. -/
def deleteFirst (m : Str) : List Item → Option (List Item)
  | [] => none
  | x :: rest => if x.isNamed m then some rest else (deleteFirst m rest).map (x :: ·)

/-- `CType._remove_modifier`, lines 77-90, loop limited to `n` rounds (one per item suffices). -/
def removeLoop (m : Str) : Nat → List Item → List Item × Bool → List Item × Bool
  | 0, _, r => r
  | n + 1, l, r =>
    match deleteFirst m l with
    | none => (l, r.2)
    | some l' => removeLoop m n l' (l', true)

def removeModifier (m : Str) (l : List Item) : List Item × Bool :=
  removeLoop m (l.length + 1) l (l, false)

/-- `CType.remove_modifiers`, lines 67-75 (the returned set is not used by callers). -/
def removeModifiers (l : List Item) : List Item :=
  kModifiers.foldl (fun l m => (removeModifier m l).1) l

/-- `CType.remove_outer_modifier`, lines 92-105: delete the last token named `m`; the flag is
the returned value.  (It does not stop at `*` or `&`, although its docstring says so.) -/
def removeOuter (m : Str) (l : List Item) : List Item × Bool :=
  match deleteFirst m l.reverse with
  | none => (l, false)
  | some r => (r.reverse, true)

/-- `token.name in "<,"`, line 112: a substring test. -/
def isGlue (n : Str) : Bool := n == [] || n == ['<'] || n == [','] || n == ['<', ',']

mutual
/-- `CType.__str__`, lines 107-126; `first` is the flag of the loop. -/
def renderAux (first : Bool) : List Item → Str
  | [] => []
  | i :: rest => renderItem first i ++ renderAux false rest
/-- One turn of the loop, lines 111-124. -/
def renderItem (first : Bool) : Item → Str
  | .tok t => if isGlue t.name then t.name else if first then t.name else ' ' :: t.name
  | .sub c => if first then renderAux true c else ' ' :: renderAux true c
end

def render (l : List Item) : Str := renderAux true l

/-- Lines 133-134: strip a leading `::`. -/
def stripColons (t : Tok) : Tok :=
  match t.name with
  | ':' :: ':' :: n => { t with name := n }
  | _ => t

/-- Outcome of a computation that may raise, leave the model, or still be running. -/
inductive CRes (α : Type) where
  | ok (a : α)
  | raised (e : PyErr)
  | unmodelled
  | running
  deriving Repr

mutual
/-- `_parse_type_recursive`, lines 129-161: `cur` is `ctype.tokens`, the result is the `CType`,
the closing token (`None` at the end of input) and the remaining tokens.  `running` when the
fuel is used up (never with `parseFuel`, see `parse_terminates`). -/
def parseRec : Nat → List Tok → List Item → CRes (List Item × Option Tok × List Tok)
  | 0, _, _ => .running
  | _ + 1, [], cur => .ok (reorder cur, none, [])
  | f + 1, t0 :: ts, cur =>
    let t := stripColons t0
    if t.kind = .syntax_ then
      if t.name = ['>', '>'] then
        parseRec f (⟨.syntax_, ['>']⟩ :: ⟨.syntax_, ['>']⟩ :: ts) cur
      else if t.name ∈ [[','], ['>'], [')']] then .ok (reorder cur, some t, ts)
      else if t.name ∈ [['<'], ['(']] then
        match parseArgs f ts (cur ++ [.tok t]) with
        | .ok (cur', ts') => parseRec f ts' cur'
        | .raised e => .raised e
        | .unmodelled => .unmodelled
        | .running => .running
      else parseRec f ts (cur ++ [.tok t])
    else parseRec f ts (cur ++ [.tok t])
/-- The inner `while 1` loop, lines 145-155.  When the input ends inside, `last_token` is `None`
and `last_token.name` raises `AttributeError`. -/
def parseArgs : Nat → List Tok → List Item → CRes (List Item × List Tok)
  | 0, _, _ => .running
  | f + 1, ts, cur =>
    match parseRec f ts [] with
    | .ok (_, none, _) => .raised .attributeError
    | .ok (n, some l, ts') =>
      if l.name = [','] then parseArgs f ts' (cur ++ [.sub n, .tok l])
      else if l.name ∈ [['>'], [')']] then .ok (cur ++ [.sub n, .tok l], ts')
      else .raised .assertionError
    | .raised e => .raised e
    | .unmodelled => .unmodelled
    | .running => .running
end

/-- Enough fuel for a token list. -/
def parseFuel (ts : List Tok) : Nat := 6 * ts.length + 2

/-- `parse_type` on the token list, lines 171-174. -/
def parseTokens (ts : List Tok) : CRes (List Item) :=
  match parseRec (parseFuel ts) ts [] with
  | .ok (c, none, _) => .ok c
  | .ok (_, some _, _) => .raised .assertionError
  | .raised e => .raised e
  | .unmodelled => .unmodelled
  | .running => .running

/-- `parse_type`, lines 164-174. -/
def parseType (s : Str) : CRes (List Item) :=
  match getTokens (s ++ ['\n']) with
  | .done ts => parseTokens ts
  | .raised e => .raised e
  | .unmodelled => .unmodelled
  | .running => .running

/-- `normalize_type_string`, lines 176-200. -/
def normalize (s : Str) : CRes Str :=
  match parseType s with
  | .ok c => .ok (render c)
  | .raised e => .raised e
  | .unmodelled => .unmodelled
  | .running => .running

/-- `TypeTraits` attributes, lines 203-221. -/
structure Traits where
  ctype : List Item
  noModifiers : List Item
  noConst : List Item
  isConst : Bool
  isRef : Bool
  isPtr : Bool
  targetConst : Bool
  target : Option (List Item)
  noConstNoRef : List Item
  deriving Repr

/-- Loop variables of `TypeTraits.__init__`, lines 317-325. -/
structure TState where
  level : Nat := 0
  isConst : Bool := false
  isRef : Bool := false
  isPtr : Bool := false
  targetConst : Bool := false
  targetPos : Option Nat := none
  noConst : List Item

/-- One turn of the loop, lines 327-345; `none` when the assert at 333 fails. -/
def traitStep (pos : Nat) (st : TState) (it : Item) : Option TState :=
  if it.isNamed kConst then
    if st.level = 0 then
      let r := removeOuter kConst st.noConst
      if r.2 then some { st with isConst := true, noConst := r.1 } else none
    else if st.level = 1 then some { st with targetConst := true }
    else some st
  else if it.isNamed ['*'] then
    some { (if st.level = 0 then { st with isPtr := true, targetPos := some (pos + 1) } else st)
      with level := st.level + 1 }
  else if it.isNamed ['&'] then
    some { (if st.level = 0 then { st with isRef := true, targetPos := some (pos + 1) } else st)
      with level := st.level + 1 }
  else some st

/-- The loop over `enumerate(reversed tokens)`, line 326. -/
def traitLoop : Nat → TState → List Item → Option TState
  | _, st, [] => some st
  | pos, st, it :: rest => (traitStep pos st it).bind (fun st' => traitLoop (pos + 1) st' rest)

/-- `TypeTraits.__init__` after parsing, lines 314-352; an `AssertionError` shows as `none`. -/
def traitsOf (ctype : List Item) : Option Traits :=
  (traitLoop 0 { noConst := ctype } ctype.reverse).map (fun st =>
    { ctype := ctype
      noModifiers := removeModifiers ctype
      noConst := st.noConst
      isConst := st.isConst
      isRef := st.isRef
      isPtr := st.isPtr
      targetConst := st.targetConst
      target := st.targetPos.map (fun p => removeModifiers (ctype.reverse.drop p).reverse)
      noConstNoRef := (removeOuter ['&'] st.noConst).1 })

/-- A new `const` token, lines 361, 377. -/
def constTok : Item := .tok ⟨.name, kConst⟩

/-- `TypeTraits.make_const`, lines 354-361. -/
def Traits.makeConst (t : Traits) : Traits :=
  if t.isConst then t else { t with isConst := true, ctype := t.ctype ++ [constTok] }

/-- Lines 372-378: insert `const` before the last `*`/`&`; on the reversed list: after the first
one. -/
def insertAfterFirst : List Item → List Item
  | [] => []
  | x :: rest => if x.isPtrRef then x :: constTok :: rest else x :: insertAfterFirst rest

def insertTargetConst (l : List Item) : List Item := (insertAfterFirst l.reverse).reverse

/-- `TypeTraits.make_target_const`, lines 363-378. -/
def Traits.makeTargetConst (t : Traits) : PyRes Traits :=
  if !(t.isPtr || t.isRef) then .error .assertionError
  else if t.targetConst then .ok t
  else .ok { t with targetConst := true, ctype := insertTargetConst t.ctype,
                    noConst := insertTargetConst t.noConst }

example : (match normalize "const foo::bar<const char*, zbr&>*".toList with
    | .ok s => s | _ => []) = "foo::bar< char const *, zbr & > const *".toList := by decide +kernel

end Verif.CType
