import Verif.CType.RenderProps

/-!
# C13, C14, C15: normalization of C type strings
-/
namespace Verif.CType
open Verif

theorem loop_tokens (src : Str) : ∀ (fuel : Nat) (s : Str) (acc ts : List Tok),
    loop src fuel s acc = .done ts → (∀ t ∈ acc, IsToken t) → ∀ t ∈ ts, IsToken t := by
  intro fuel
  induction fuel with
  | zero => intro s acc ts h; simp [loop] at h
  | succ f ih =>
    intro s acc ts h hacc
    unfold loop at h
    split at h
    · cases h; exact hacc
    · rename_i t r hs
      refine ih _ _ _ h ?_
      intro u hu
      simp at hu
      rcases hu with hu | rfl
      · exact hacc u hu
      · exact ⟨_, _, hs⟩
    · exact ih _ _ _ h hacc
    · exact ih _ _ _ h hacc
    · cases h
    · cases h

/-- All tokens come from the tokenizer. -/
theorem getTokens_tokens {s : Str} {ts : List Tok} (h : getTokens s = .done ts) : ∀ t ∈ ts, IsToken t :=
  loop_tokens s _ _ _ _ h (by simp)

/-- `Spells s ts`: the type string `s` is lexically the tokens `ts`. -/
def Spells (s : Str) (ts : List Tok) : Prop := getTokens (s ++ ['\n']) = .done ts

/-- `Denotes s l`: the type string `s` is a type expression with items `l`: it tokenizes, and
with leading `::` dropped and `>>` split its tokens follow the grammar. -/
def Denotes (s : Str) (l : List Item) : Prop := ∃ ts, Spells s ts ∧ Reads (prep ts) l

/-- Every token that starts with `::` continues with an identifier: no lone `::`, no `::::`. -/
def ProperColons (s : Str) : Prop :=
  ∀ ts, Spells s ts → ∀ t ∈ ts, ∀ n, t.name = ':' :: ':' :: n →
    ∃ c n', n = c :: n' ∧ isIdent c = true ∧ isDig c = false

theorem normalize_iff (s n : Str) : normalize s = .ok n ↔ ∃ l, Denotes s l ∧ n = render (deepCanon l) := by
  unfold normalize parseType Denotes Spells
  constructor
  · intro h
    cases ht : getTokens (s ++ ['\n']) with
    | done ts =>
      rw [ht] at h
      simp only at h
      cases hp : parseTokens ts with
      | ok c =>
        rw [hp] at h
        cases h
        obtain ⟨l, h1, h2⟩ := (parse_iff ts c).1 hp
        exact ⟨l, ⟨ts, rfl, h1⟩, by rw [h2]⟩
      | raised e => rw [hp] at h; cases h
      | unmodelled => rw [hp] at h; cases h
      | running => rw [hp] at h; cases h
    | raised e => rw [ht] at h; cases h
    | unmodelled => rw [ht] at h; cases h
    | running => rw [ht] at h; cases h
  · rintro ⟨l, ⟨ts, h1, h2⟩, rfl⟩
    rw [h1]
    simp only
    rw [(parse_iff ts _).2 ⟨l, h2, rfl⟩]

theorem strip_token {t : Tok} (ht : IsToken t)
    (hc : ∀ n, t.name = ':' :: ':' :: n → ∃ c n', n = c :: n' ∧ isIdent c = true ∧ isDig c = false) :
    IsToken (stripColons t) ∧ ∀ n, (stripColons t).name ≠ ':' :: ':' :: n := by
  by_cases h : ∃ n, t.name = ':' :: ':' :: n
  · obtain ⟨n, hn⟩ := h
    obtain ⟨c, n', rfl, h1, h2⟩ := hc n hn
    have hs : stripColons t = { t with name := c :: n' } := by
      unfold stripColons; rw [hn]; rfl
    rw [hs]
    constructor
    · obtain ⟨s, r, hstep⟩ := ht
      obtain ⟨hsr, _, _⟩ := step1_emit hstep
      rw [hn] at hsr
      subst hsr
      have : step1 ((':' :: ':' :: c :: n') ++ r) = nameStep ((':' :: ':' :: c :: n') ++ r) := by
        simp [step1]
      rw [this] at hstep
      obtain ⟨_, hk, hname, hr⟩ := nameStep_emit hstep
      refine ⟨c :: n' ++ r, r, ?_⟩
      have e1 : step1 (c :: n' ++ r) = nameStep (c :: n' ++ r) := by
        simp [step1, h1, h2]
      rw [e1]
      have e2 : scanName ((':' :: ':' :: c :: n') ++ r) =
          (':' :: ':' :: (scanName (c :: n' ++ r)).1, (scanName (c :: n' ++ r)).2) := by
        simp only [List.cons_append]
        rw [scanName]
      rw [e2] at hr hname
      simp only at hr hname
      rw [hn] at hname
      simp only [List.cons.injEq, true_and] at hname
      unfold nameStep at hstep ⊢
      rw [e2] at hstep
      have e3 : scanName (c :: n' ++ r) = (c :: n', r) := by
        exact Prod.ext hname.symm hr.symm
      rw [e3] at hstep ⊢
      cases r with
      | nil => simp at hstep
      | cons d ds =>
        simp only at hstep ⊢
        split at hstep
        · cases hstep
        · rename_i hd
          rw [if_neg hd, ← hk]
    · intro n h
      simp at h
      rw [h.1] at h1
      revert h1; decide
  · have hs : stripColons t = t := by
      unfold stripColons
      split
      · rename_i n hn; exact absurd ⟨n, hn⟩ h
      · rfl
    rw [hs]
    exact ⟨ht, fun n hn => h ⟨n, hn⟩⟩

theorem prep_tokens {s : Str} {ts : List Tok} (hs : Spells s ts) (hp : ProperColons s) :
    ∀ t ∈ prep ts, IsToken t ∧ prep1 t = [t] := by
  intro t ht
  unfold prep at ht
  rw [List.mem_flatMap] at ht
  obtain ⟨t0, h0, h1⟩ := ht
  have hgt : IsToken gt ∧ prep1 gt = [gt] := ⟨⟨"> ".toList, [' '], by decide⟩, rfl⟩
  by_cases hsh : (stripColons t0).kind = .syntax_ ∧ (stripColons t0).name = ['>', '>']
  · rw [prep1_shift hsh.1 hsh.2] at h1
    have : t = gt := by simpa using h1
    rw [this]; exact hgt
  · rw [prep1_other hsh] at h1
    have : t = stripColons t0 := by simpa using h1
    subst this
    obtain ⟨h2, h3⟩ := strip_token (getTokens_tokens hs t0 h0) (hp ts hs t0 h0)
    refine ⟨h2, ?_⟩
    have : stripColons (stripColons t0) = stripColons t0 := by
      conv_lhs => unfold stripColons
      split
      · rename_i n hn; exact absurd hn (h3 n)
      · rfl
    unfold prep1
    rw [this, if_neg hsh]

theorem prep_self {as : List Tok} (h : ∀ t ∈ as, prep1 t = [t]) : prep as = as := by
  induction as with
  | nil => rfl
  | cons t ts ih =>
    rw [prep_cons, h t (by simp), ih (fun u hu => h u (List.mem_cons_of_mem _ hu))]; rfl

/-- The normal form of a type string denotes the canonical items. -/
theorem denotes_render {s : Str} {l : List Item} (hd : Denotes s l) (hp : ProperColons s) :
    Denotes (render (deepCanon l)) (deepCanon l) := by
  obtain ⟨ts, h1, h2⟩ := hd
  obtain ⟨bs, h3, h4⟩ := reads_deepCanon h2
  refine ⟨bs, getTokens_render h3 (fun t ht => (prep_tokens h1 hp t (h4 ht)).1), ?_⟩
  rw [prep_self (fun t ht => (prep_tokens h1 hp t (h4 ht)).2)]
  exact h3

theorem denotes_unique {s : Str} {l l' : List Item} (h : Denotes s l) (h' : Denotes s l') :
    deepCanon l = deepCanon l' := by
  obtain ⟨ts, h1, h2⟩ := h
  obtain ⟨ts', h1', h2'⟩ := h'
  unfold Spells at h1 h1'
  rw [h1] at h1'
  cases h1'
  have e1 := (parse_iff ts _).2 ⟨l, h2, rfl⟩
  have e2 := (parse_iff ts _).2 ⟨l', h2', rfl⟩
  rw [e1] at e2
  injection e2

/-! ## C13 -/

/-- C13 fails in general: `::::a` normalizes to `::a`, which normalizes to `a`. -/
theorem C13_not_idempotent_counterexample :
    normalize "::::a".toList = .ok "::a".toList ∧ normalize "::a".toList = .ok "a".toList := by
  have h1 : ∀ x y : Str, (match normalize x with | .ok s => decide (s = y) | _ => false) = true →
      normalize x = .ok y := by
    intro x y h
    split at h
    · rename_i s hs; rw [hs]; simp at h; rw [h]
    · cases h
  exact ⟨h1 _ _ (by decide +kernel), h1 _ _ (by decide +kernel)⟩

/-- C13: normalizing a normalized type string changes nothing, for every type string in which a
leading `::` is followed by an identifier.  (Missing for the full property: type strings such as
`::::a`, for which it is false, see the counterexample.) -/
theorem C13_idempotent_partial (s n : Str) (hp : ProperColons s) (h : normalize s = .ok n) :
    normalize n = .ok n := by
  obtain ⟨l, h1, rfl⟩ := (normalize_iff s n).1 h
  rw [normalize_iff]
  exact ⟨deepCanon l, denotes_render h1 hp, by rw [deepCanon_idem]⟩

/-- The type strings that normalize are exactly those that follow the grammar. -/
theorem C13_normalizes_iff_grammatical (s : Str) :
    (∃ n, normalize s = .ok n) ↔ ∃ ts l, Spells s ts ∧ Reads (prep ts) l := by
  constructor
  · rintro ⟨n, h⟩
    obtain ⟨l, ⟨ts, h1, h2⟩, _⟩ := (normalize_iff s n).1 h
    exact ⟨ts, l, h1, h2⟩
  · rintro ⟨ts, l, h1, h2⟩
    exact ⟨_, (normalize_iff s _).2 ⟨l, ⟨ts, h1, h2⟩, rfl⟩⟩

/-- Type parsing always ends, with a type, an exception, or outside the model. -/
theorem C13_parse_terminates (s : Str) (hc : CommentsClosed (s ++ ['\n'])) : normalize s ≠ .running := by
  have h1 := C12_terminates_partial (s ++ ['\n']) hc ((s ++ ['\n']).length + 1) (by omega)
  unfold normalize parseType
  have : getTokens (s ++ ['\n']) ≠ .running := h1.1
  cases ht : getTokens (s ++ ['\n']) with
  | done ts =>
    have := parse_terminates ts
    simp only
    cases hp : parseTokens ts with
    | running => exact absurd hp this
    | _ => simp
  | raised e => simp
  | unmodelled => simp
  | running => exact absurd ht this

/-! ## C14, C15 -/

/-- C14: two type strings that denote the same type — the same tokens up to spacing, modifiers
placed anywhere within their level, at any nesting depth — normalize to the same string. -/
theorem C14_same_type_same_string (s s' : Str) (l l' : List Item)
    (h : Denotes s l) (h' : Denotes s' l') (hs : Same l l') :
    ∃ n, normalize s = .ok n ∧ normalize s' = .ok n := by
  refine ⟨render (deepCanon l), (normalize_iff s _).2 ⟨l, h, rfl⟩, ?_⟩
  rw [(same_iff_deepCanon l l').1 hs]
  exact (normalize_iff s' _).2 ⟨l', h', rfl⟩

/-- C15: types that normalize to the same string are the same type: normalization never
identifies two type expressions that differ in anything but spacing and modifier placement within
a level.  (Missing for the full property: leading `::` is dropped and `**`, `&&` are single
tokens, see the counterexamples.) -/
theorem C15_same_string_same_type_partial (s s' n : Str) (l l' : List Item)
    (hp : ProperColons s) (hp' : ProperColons s') (h : Denotes s l) (h' : Denotes s' l')
    (hn : normalize s = .ok n) (hn' : normalize s' = .ok n) : Same l l' := by
  have e1 := (normalize_iff s _).2 ⟨l, h, rfl⟩
  have e2 := (normalize_iff s' _).2 ⟨l', h', rfl⟩
  rw [hn] at e1
  rw [hn'] at e2
  cases e1
  have e3 : render (deepCanon l) = render (deepCanon l') := by
    injection e2
  have d1 := denotes_render h hp
  have d2 := denotes_render h' hp'
  rw [← e3] at d2
  have := denotes_unique d1 d2
  rw [deepCanon_idem, deepCanon_idem] at this
  exact (same_iff_deepCanon l l').2 this

/-- C15: the normalized string denotes the same type as the original. -/
theorem C15_normal_form_same_type_partial (s n : Str) (hp : ProperColons s) (hn : normalize s = .ok n) :
    ∃ l l', Denotes s l ∧ Denotes n l' ∧ Same l l' := by
  obtain ⟨l, h1, rfl⟩ := (normalize_iff s n).1 hn
  exact ⟨l, deepCanon l, h1, denotes_render h1 hp, same_deepCanon l⟩

/-- What `Same` keeps, among other things: the sequence of `*`/`&`, and how often each modifier
occurs. -/
theorem same_keeps_levels {l l' : List Item} (h : Same l l') :
    l.filter (fun i => !i.isMod && i.isPtrRef) = l'.filter (fun i => !i.isMod && i.isPtrRef) ∧
    l.countP (·.isNamed kConst) = l'.countP (·.isNamed kConst) ∧
    l.countP (·.isNamed kVolatile) = l'.countP (·.isNamed kVolatile) ∧
    l.length = l'.length := by
  induction h with
  | refl => simp
  | symm _ ih => exact ⟨ih.1.symm, ih.2.1.symm, ih.2.2.1.symm, ih.2.2.2.symm⟩
  | trans _ _ a b => exact ⟨a.1.trans b.1, a.2.1.trans b.2.1, a.2.2.1.trans b.2.2.1, a.2.2.2.trans b.2.2.2⟩
  | swap a b hm hx hd =>
    refine ⟨?_, ?_, ?_, ?_⟩
    · simp [List.filter_cons, hm, hx]
    · simp [List.countP_cons]; omega
    · simp [List.countP_cons]; omega
    · simp
  | inside a b _ ih => simp [List.filter_cons, List.countP_cons, Item.isMod, Item.isNamed, Item.isPtrRef]

theorem norm_eq (x y : Str)
    (h : (match normalize x with | .ok s => decide (s = y) | _ => false) = true) : normalize x = .ok y := by
  split at h
  · rename_i s hs; rw [hs]; simp at h; rw [h]
  · cases h

/-- C14 fails across spacing when two `*` are written together: `const char **` and
`const char * *` are one C type with two normal forms. -/
theorem C14_double_star_counterexample :
    normalize "const char **".toList = .ok "char ** const".toList ∧
    normalize "const char * *".toList = .ok "char const * *".toList :=
  ⟨norm_eq _ _ (by decide +kernel), norm_eq _ _ (by decide +kernel)⟩

/-- C15 fails: `const char **` (pointer to pointer to const) and `char ** const` (const pointer)
are different C types with one normal form; and a `::` written with spaces is lost. -/
theorem C15_meaning_lost_counterexample :
    normalize "const char **".toList = normalize "char ** const".toList ∧
    normalize "ns :: Foo".toList = normalize "ns Foo".toList := by
  constructor
  · rw [norm_eq "const char **".toList "char ** const".toList (by decide +kernel),
      norm_eq "char ** const".toList "char ** const".toList (by decide +kernel)]
  · rw [norm_eq "ns :: Foo".toList "ns Foo".toList (by decide +kernel),
      norm_eq "ns Foo".toList "ns Foo".toList (by decide +kernel)]

/-- Non-vacuity: a nested template type with modifiers before and after meets the hypotheses of
C13–C15, and its two spellings denote `Same` items. -/
example : ∃ l l', Denotes "const T<const char*>&".toList l ∧ Denotes "T<char const *> const &".toList l' ∧
    Same l l' := by
  have n1 := norm_eq "const T<const char*>&".toList "T< char const * > const &".toList (by decide +kernel)
  have n2 := norm_eq "T<char const *> const &".toList "T< char const * > const &".toList (by decide +kernel)
  obtain ⟨l, h1, e1⟩ := (normalize_iff _ _).1 n1
  obtain ⟨l', h2, e2⟩ := (normalize_iff _ _).1 n2
  have p : ∀ s : Str, (match getTokens (s ++ ['\n']) with
      | .done ts => ts.all (fun t => t.name.head? != some ':') | _ => false) = true → ProperColons s := by
    intro s h ts hs t ht n hn
    unfold Spells at hs
    rw [hs] at h
    simp only [List.all_eq_true] at h
    have := h t ht
    rw [hn] at this
    simp at this
  exact ⟨l, l', h1, h2, C15_same_string_same_type_partial _ _ _ l l' (p _ (by decide +kernel))
    (p _ (by decide +kernel)) h1 h2 n1 n2⟩

end Verif.CType
