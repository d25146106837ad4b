import Verif.Utils.Model

/-!
# C26, C27, C28 and parameter specifications
-/
namespace Verif.Utils
open Verif

/-! ## C26, C27: name mangling -/

/-- What each character becomes. -/
def mangleChar (c : Char) : Str :=
  if c = '<' then "__lt__".toList
  else if c = '>' then "__gt__".toList
  else if c = '&' then "__amp__".toList
  else if c = '*' then "__star__".toList
  else if c = '(' then "_lp_".toList
  else if c = ')' then "_rp_".toList
  else if c = ',' ∨ c = ' ' ∨ c = ':' then ['_']
  else [c]

theorem replace1_append (c : Char) (r a b : Str) :
    replace1 c r (a ++ b) = replace1 c r a ++ replace1 c r b := by simp [replace1]

theorem mangle_nil : mangleName [] = [] := rfl

theorem mangle_append (a b : Str) : mangleName (a ++ b) = mangleName a ++ mangleName b := by
  simp only [mangleName, replace1_append]

theorem mangle_single (c : Char) : mangleName [c] = mangleChar c := by
  have hr : ∀ (d : Char) (r : Str), replace1 d r [c] = if c = d then r else [c] := by
    intro d r; simp [replace1]
  by_cases h1 : c = '<'
  · subst h1; decide
  by_cases h2 : c = '>'
  · subst h2; decide
  by_cases h3 : c = '&'
  · subst h3; decide
  by_cases h4 : c = '*'
  · subst h4; decide
  by_cases h5 : c = '('
  · subst h5; decide
  by_cases h6 : c = ')'
  · subst h6; decide
  by_cases h7 : c = ','
  · subst h7; decide
  by_cases h8 : c = ' '
  · subst h8; decide
  by_cases h9 : c = ':'
  · subst h9; decide
  simp [mangleName, mangleChar, hr, h1, h2, h3, h4, h5, h6, h7, h8, h9]

/-- C26: mangling works character by character, whatever the order of the replacements. -/
theorem C26_charwise (s : Str) : mangleName s = s.flatMap mangleChar := by
  induction s with
  | nil => rfl
  | cons c cs ih =>
    have : c :: cs = [c] ++ cs := rfl
    rw [this, mangle_append, mangle_single, ih]
    simp

/-- C26: mangling distributes over concatenation. -/
theorem C26_concat (a b : Str) : mangleName (a ++ b) = mangleName a ++ mangleName b := mangle_append a b

/-- Characters of a C identifier. -/
def identChar (c : Char) : Bool :=
  ('a' ≤ c && c ≤ 'z') || ('A' ≤ c && c ≤ 'Z') || ('0' ≤ c && c ≤ '9') || c == '_'

/-- The punctuation mangling knows. -/
def knownPunct (c : Char) : Bool := c ∈ ['<', '>', ',', ' ', '&', '*', ':', '(', ')']

theorem mangleChar_ident {c : Char} (h : identChar c = true) : mangleChar c = [c] := by
  have : ∀ d ∈ ['<', '>', '&', '*', '(', ')', ',', ' ', ':'], c ≠ d := by
    intro d hd e
    subst e
    revert h
    simp at hd
    rcases hd with rfl | rfl | rfl | rfl | rfl | rfl | rfl | rfl | rfl <;> decide
  simp at this
  simp [mangleChar, this]

theorem mangleChar_out (c : Char) (h : identChar c = true ∨ knownPunct c = true) :
    ∀ x ∈ mangleChar c, identChar x = true := by
  rcases h with h | h
  · rw [mangleChar_ident h]; intro x hx; simp at hx; rw [hx]; exact h
  · simp [knownPunct] at h
    rcases h with rfl | rfl | rfl | rfl | rfl | rfl | rfl | rfl | rfl <;> decide

/-- C26: a name made of identifier characters and the known punctuation mangles to a string of
identifier characters only; an identifier is left unchanged; and mangling twice is mangling once
(for every name). -/
theorem C26_identifier (s : Str) :
    ((∀ c ∈ s, identChar c = true ∨ knownPunct c = true) → ∀ x ∈ mangleName s, identChar x = true) ∧
    ((∀ c ∈ s, identChar c = true) → mangleName s = s) ∧
    mangleName (mangleName s) = mangleName s := by
  refine ⟨?_, ?_, ?_⟩
  · intro h x hx
    rw [C26_charwise, List.mem_flatMap] at hx
    obtain ⟨c, hc, hx⟩ := hx
    exact mangleChar_out c (h c hc) x hx
  · intro h
    rw [C26_charwise]
    induction s with
    | nil => rfl
    | cons c cs ih =>
      rw [List.flatMap_cons, mangleChar_ident (h c (by simp)), ih (fun d hd => h d (by simp [hd]))]
      rfl
  · rw [C26_charwise (mangleName s), C26_charwise s, List.flatMap_assoc]
    congr 1
    funext c
    by_cases h : c ∈ ['<', '>', '&', '*', '(', ')', ',', ' ', ':']
    · simp at h
      rcases h with rfl | rfl | rfl | rfl | rfl | rfl | rfl | rfl | rfl <;> decide
    · have e : mangleChar c = [c] := by simp at h; simp [mangleChar, h]
      rw [e]; simp [e]

/-- C26: none of the known punctuation survives, for any name at all. -/
theorem C26_no_punctuation (s : Str) : ∀ x ∈ mangleName s, knownPunct x = false := by
  intro x hx
  rw [C26_charwise, List.mem_flatMap] at hx
  obtain ⟨c, hc, hx⟩ := hx
  by_cases h : c ∈ ['<', '>', '&', '*', '(', ')', ',', ' ', ':']
  · have : ∀ c ∈ ['<', '>', '&', '*', '(', ')', ',', ' ', ':'], ∀ x ∈ mangleChar c, knownPunct x = false := by decide
    exact this c h x hx
  · have e : mangleChar c = [c] := by simp at h; simp [mangleChar, h]
    rw [e] at hx
    simp at hx
    subst hx
    cases hk : knownPunct x with
    | false => rfl
    | true => exfalso; apply h; simp [knownPunct] at hk; simp; tauto

/-- Punctuation the code does not know survives: an array or pointer-to-member type does not
mangle to an identifier. -/
theorem C26_unknown_punctuation_counterexample :
    mangleName "int[3]".toList = "int[3]".toList ∧ identChar '[' = false := by decide

/-- C27 fails: distinct C++ names with one mangled name — template arguments against a plain
name, nested namespaces, and two argument lists. -/
theorem C27_not_injective_counterexample :
    mangleName "ns::Foo".toList = mangleName "ns__Foo".toList ∧
    mangleName "A<b,c>".toList = mangleName "A<b:c>".toList ∧
    getMangledName "A".toList ["b".toList, "c".toList] = getMangledName "A".toList ["b_c".toList] := by
  decide

/-- C27, the part that holds: names made of identifier characters only are kept apart.
(Missing: names with punctuation, where `C27_not_injective_counterexample` refutes the claim.) -/
theorem C27_injective_plain_partial (a b : Str) (ha : ∀ c ∈ a, identChar c = true)
    (hb : ∀ c ∈ b, identChar c = true) (h : mangleName a = mangleName b) : a = b := by
  rw [(C26_identifier a).2.1 ha, (C26_identifier b).2.1 hb] at h
  exact h

example : (∀ c ∈ "Foo_1".toList, identChar c = true) ∧
    mangleName "std::vector<int *>".toList = "std__vector__lt__int___star____gt__".toList := by decide

/-! ## Template instances -/

/-- Without template arguments the mangled name is that of the base name; with them it is the
mangling of the text `base<arg,...,arg>`: naming a template instance by parts or by its full C++
text gives the same Python identifier. -/
theorem C26_template_instance (base : Str) (args : List Str) :
    getMangledName base args =
      mangleName (if args = [] then base
        else base ++ "<".toList ++ pyJoin ",".toList args ++ ">".toList) := by
  have hj : ∀ l : List Str, mangleName (pyJoin ",".toList l) = pyJoin "_".toList (l.map mangleName) := by
    intro l
    induction l with
    | nil => rfl
    | cons x xs ih =>
      cases xs with
      | nil => rfl
      | cons y ys =>
        have e : mangleName ",".toList = "_".toList := by decide
        simp only [pyJoin, List.map_cons, mangle_append, e] at ih ⊢
        rw [ih]
  unfold getMangledName
  cases args with
  | nil => simp
  | cons x xs =>
    have e1 : mangleName "<".toList = "__lt__".toList := by decide
    have e2 : mangleName ">".toList = "__gt__".toList := by decide
    simp only [List.isEmpty_cons, Bool.false_eq_true, if_false, reduceCtorEq, mangle_append, hj, e1, e2]

example : getMangledName "pair".toList ["int".toList, "a::B".toList] = "pair__lt__int_a__B__gt__".toList := by
  decide

/-! ## C28: error handling policy -/

/-- C28: the outcome of a guarded call, for every callable outcome, handler and set of handled
exceptions.  It is the callable's own outcome except when a handler is installed, the exception
is of a handled class and the handler accepts it; exactly then it is `SkipWrapper`. -/
theorem C28_outcome {W α : Type} (handler : Handler W) (handled : PyErr → Bool) (w : W)
    (res : PyRes α) :
    ((∃ h e, handler = some h ∧ res = .error e ∧ handled e = true ∧ h w e = true) →
      callWithErrorHandling handler handled w res = .error .skipWrapper) ∧
    ((¬ ∃ h e, handler = some h ∧ res = .error e ∧ handled e = true ∧ h w e = true) →
      callWithErrorHandling handler handled w res = res) := by
  constructor
  · rintro ⟨h, e, rfl, rfl, h1, h2⟩
    simp [callWithErrorHandling, h1, h2]
  · intro hn
    cases handler with
    | none => rfl
    | some h =>
      cases res with
      | ok a => rfl
      | error e =>
        by_cases h1 : handled e = true
        · by_cases h2 : h w e = true
          · exact absurd ⟨h, e, rfl, rfl, h1, h2⟩ hn
          · simp [callWithErrorHandling, h2]
        · simp [callWithErrorHandling, h1]

/-- C28: a value is returned exactly when the callable returned that value. -/
theorem C28_value_iff {W α : Type} (handler : Handler W) (handled : PyErr → Bool) (w : W)
    (res : PyRes α) (a : α) :
    callWithErrorHandling handler handled w res = .ok a ↔ res = .ok a := by
  cases handler with
  | none => rfl
  | some h =>
    cases res with
    | ok b => rfl
    | error e => unfold callWithErrorHandling; dsimp only; split <;> (try split) <;> simp

/-- C28: with the default class list a guarded call that fails with a lookup error always
propagates it, while the parameter evaluators turn it into a skip when the handler accepts. -/
theorem C28_lookup_errors {W α : Type} (h : W → PyErr → Bool) (w : W) (tried : List Str) :
    callWithErrorHandling (α := α) (some h) defaultHandled w (.error (.typeLookupError tried)) =
      .error (.typeLookupError tried) ∧
    (h w (.typeLookupError tried) = true →
      callWithErrorHandling (α := α) (some h) evalHandled w (.error (.typeLookupError tried)) =
        .error .skipWrapper) := by
  constructor
  · rfl
  · intro hh; simp [callWithErrorHandling, evalHandled, hh]

example : callWithErrorHandling (α := Nat) (some fun (_ : Nat) e => e == .notSupportedError) defaultHandled 3
    (.error .notSupportedError) = .error .skipWrapper := by decide
example : callWithErrorHandling (α := Nat) (some fun (_ : Nat) e => e == .notSupportedError) defaultHandled 3
    (.error .codeGenerationError) = .error .codeGenerationError := by decide

/-! ## C47: parameter and return value specifications -/

/-- C47: what `param`/`retval` packs, the parser unpacks: the same positional arguments in the
same order and the same keyword dictionary. -/
theorem C47_spec_round_trip {V K : Type} (minLen : Nat) (emptyDict : K) (args : List V) (kwargs : K)
    (h : minLen ≤ args.length + 1) :
    parseSpec minLen emptyDict (param args kwargs) = .ok (args.map .val, kwargs) := by
  have : ¬ ((param args kwargs).length < minLen) := by simp [param]; omega
  unfold parseSpec
  rw [if_neg this]
  simp [param]

/-- C47: a bare tuple of values is taken as is, with no keywords. -/
theorem C47_plain_spec {V K : Type} (minLen : Nat) (emptyDict : K) (args : List V)
    (h : minLen ≤ args.length) :
    parseSpec minLen emptyDict (args.map .val) = .ok (args.map .val, emptyDict) := by
  have : ¬ ((args.map (SpecItem.val (K := K))).length < minLen) := by simp; omega
  unfold parseSpec
  rw [if_neg this, List.getLast?_map]
  cases args.getLast? <;> rfl

/-- C47: a specification is refused exactly when it has fewer items than required. -/
theorem C47_refused_iff {V K : Type} (minLen : Nat) (emptyDict : K) (spec : List (SpecItem V K)) :
    (∃ e, parseSpec minLen emptyDict spec = .error e) ↔ spec.length < minLen := by
  unfold parseSpec
  split
  · simp_all
  · next h => cases hl : spec.getLast? with
    | none => simp [h]
    | some x => cases x <;> simp [h]

/-- The length test counts the keyword dictionary, so a specification holding a type and
keywords, but no name, passes it. -/
theorem C47_nameless_accepted_counterexample :
    parseSpec 2 0 (param ["int"] 7) = .ok ([.val "int"], (7 : Nat)) := by decide

example : parseSpec 2 0 (param ["int", "x"] 7) = .ok ([.val "int", .val "x"], (7 : Nat)) := by decide

/-- C28: the classes of errors that are skipped.  Around a wrapper: an incomplete type
specification, a code generation error, or something not supported; around a parameter or return
value specification: an incomplete or unknown type, or something not supported.  Nothing else. -/
theorem C28_classes {W α : Type} (h : W → PyErr → Bool) (w : W) (e : PyErr) (he : e ≠ .skipWrapper) :
    (callWithErrorHandling (α := α) (some h) defaultHandled w (.error e) = .error .skipWrapper ↔
      h w e = true ∧ (e = .typeConfigurationError ∨ e = .codeGenerationError ∨ e = .notSupportedError)) ∧
    (callWithErrorHandling (α := α) (some h) evalHandled w (.error e) = .error .skipWrapper ↔
      h w e = true ∧ (e = .typeConfigurationError ∨ e = .notSupportedError ∨ ∃ t, e = .typeLookupError t)) := by
  constructor <;> cases e <;> simp_all [callWithErrorHandling, defaultHandled, evalHandled]

end Verif.Utils
