import Verif.CType.TokSpec
import Mathlib.Tactic.Set

/-!
# C12: termination and losslessness of the tokenizer, and independence from spacing
-/
namespace Verif.CType
open Verif

/-! ## Helper lemmas: character classes -/

theorem space_class {c : Char} (h : isPySpace c = true) :
    isIdent c = false ∧ isOp c = false ∧ isSingle c = false ∧ isDig c = false ∧ c ≠ '/' ∧
    c ≠ '"' ∧ c ≠ '\'' ∧ c ≠ '#' ∧ c ≠ '\\' ∧ c ≠ ':' := by
  have : ∀ c ∈ pySpaces, isIdent c = false ∧ isOp c = false ∧ isSingle c = false ∧
      isDig c = false ∧ c ≠ '/' ∧ c ≠ '"' ∧ c ≠ '\'' ∧ c ≠ '#' ∧ c ≠ '\\' ∧ c ≠ ':' := by decide
  exact this c (by simpa [isPySpace] using h)

theorem ident_not_colon {c : Char} (h : isIdent c = true) : c ≠ ':' := by
  rintro rfl; revert h; decide

theorem dig_ident {c : Char} (h : isDig c = true) : isIdent c = true := by
  unfold isDig at h; unfold isIdent; simp only [h, Bool.or_true, Bool.true_or]

theorem hex_ident {c : Char} (h : isHex c = true) : isIdent c = true := by
  unfold isHex at h
  simp only [Bool.or_eq_true] at h
  rcases h with (h | h) | h
  · exact dig_ident h
  · unfold isIdent
    simp only [Bool.and_eq_true, decide_eq_true_eq] at h
    have : c ≤ 'z' := Char.le_trans h.2 (by decide)
    simp [h.1, this]
  · unfold isIdent
    simp only [Bool.and_eq_true, decide_eq_true_eq] at h
    have : c ≤ 'Z' := Char.le_trans h.2 (by decide)
    simp [h.1, this]

/-! ## Helper lemmas: scanners -/

theorem scanName_eq (s : Str) : (scanName s).1 ++ (scanName s).2 = s := by
  fun_induction scanName s <;> simp_all

theorem scanWhile_eq (p : Char → Bool) (s : Str) : (scanWhile p s).1 ++ (scanWhile p s).2 = s := by
  fun_induction scanWhile p s <;> simp_all

theorem scanWhile_all (p : Char → Bool) (s : Str) : ∀ c ∈ (scanWhile p s).1, p c = true := by
  fun_induction scanWhile p s <;> simp_all

theorem scanWhile_stop (p : Char → Bool) (s : Str) : ∀ c cs, (scanWhile p s).2 = c :: cs → p c = false := by
  fun_induction scanWhile p s with
  | case1 => simp
  | case2 c cs h ih => exact ih
  | case3 c cs h => intro d ds he; simp at he; rw [← he.1]; simpa using h

theorem scanWhile_again {p : Char → Bool} {n r : Str} (h : ∀ c ∈ n, p c = true)
    (hr : ∀ c cs, r = c :: cs → p c = false) : scanWhile p (n ++ r) = (n, r) := by
  induction n with
  | nil =>
    cases r with
    | nil => rfl
    | cons c cs => simp [scanWhile, hr c cs rfl]
  | cons c cs ih =>
    have := ih (fun x hx => h x (List.mem_cons_of_mem _ hx))
    simp [scanWhile, h c (by simp), this]

theorem scanSuffix_eq (ss : List Str) (r : Str) : (scanSuffix ss r).1 ++ (scanSuffix ss r).2 = r := by
  induction ss with
  | nil => rfl
  | cons s ss ih =>
    unfold scanSuffix
    split
    · simp
    · exact ih

theorem lower_letter {c : Char} (h : 'a' ≤ lower c ∧ lower c ≤ 'z') : isIdent c = true := by
  unfold lower at h
  unfold isIdent
  split at h
  · next h' => simp [h']
  · simp [h.1, h.2]

/-- All suffixes are made of lower case letters and are not empty. -/
def SuffixList (ss : List Str) : Prop := ∀ s ∈ ss, s ≠ [] ∧ ∀ c ∈ s, 'a' ≤ c ∧ c ≤ 'z'

theorem scanSuffix_mem (ss : List Str) (r : Str) (h : SuffixList ss) :
    ∀ c ∈ (scanSuffix ss r).1, isIdent c = true := by
  induction ss with
  | nil => simp [scanSuffix]
  | cons s ss ih =>
    unfold scanSuffix
    split
    · next hm =>
      intro c hc
      apply lower_letter
      exact (h s (by simp)).2 _ (by rw [← hm]; exact List.mem_map_of_mem hc)
    · exact ih (fun x hx => h x (List.mem_cons_of_mem _ hx))

theorem scanSuffix_again (ss : List Str) (r : Str) (h : SuffixList ss) (d : Char) (ds : Str)
    (hd : isIdent d = false) :
    scanSuffix ss ((scanSuffix ss r).1 ++ d :: ds) = ((scanSuffix ss r).1, d :: ds) := by
  induction ss with
  | nil => rfl
  | cons s ss ih =>
    have hs := h s (by simp)
    by_cases hm : (r.take s.length).map lower = s
    · have hlen : (r.take s.length).length = s.length := by
        have := congrArg List.length hm; simpa using this
      have e : scanSuffix (s :: ss) r = (r.take s.length, r.drop s.length) := by
        simp only [scanSuffix]; rw [if_pos hm]
      rw [e]
      simp only [scanSuffix]
      rw [if_pos]
      · rw [List.take_append_of_le_length (by omega), List.drop_append_of_le_length (by omega)]
        rw [List.take_of_length_le (by omega), List.drop_of_length_le (by omega)]
        simp
      · rw [List.take_append_of_le_length (by omega), List.take_of_length_le (by omega)]
        exact hm
    · have e : scanSuffix (s :: ss) r = scanSuffix ss r := by
        simp only [scanSuffix]; rw [if_neg hm]
      rw [e]
      have hss : SuffixList ss := fun x hx => h x (List.mem_cons_of_mem _ hx)
      have := ih hss
      conv_lhs => unfold scanSuffix
      rw [if_neg, this]
      intro hm2
      set u := (scanSuffix ss r).1 with hu
      have hur : u ++ (scanSuffix ss r).2 = r := scanSuffix_eq ss r
      by_cases hl : s.length ≤ u.length
      · apply hm
        rw [List.take_append_of_le_length hl] at hm2
        rw [← hur, List.take_append_of_le_length hl]
        exact hm2
      · -- the character d takes part in the match
        have : d ∈ (u ++ d :: ds).take s.length := by
          rw [List.take_append]
          apply List.mem_append_right
          obtain ⟨k, hk⟩ : ∃ k, s.length - u.length = k + 1 := ⟨s.length - u.length - 1, by omega⟩
          rw [hk]; simp
        have hmem : lower d ∈ s := by rw [← hm2]; exact List.mem_map_of_mem this
        have := lower_letter (hs.2 _ hmem)
        rw [hd] at this; cases this

theorem suffixList_int : SuffixList intSuffixes := by
  unfold SuffixList intSuffixes; decide

theorem suffixList_lf : SuffixList [['l'], ['f']] := by
  unfold SuffixList; decide

theorem scanName_again {s : Str} {d : Char} {ds : Str} (h1 : isIdent d = false) (h2 : d ≠ ':') :
    scanName ((scanName s).1 ++ d :: ds) = ((scanName s).1, d :: ds) := by
  have hd : scanName (d :: ds) = ([], d :: ds) := by
    unfold scanName
    split
    · next h => simp only [List.cons.injEq] at h; exact absurd h.1 h2
    · next h => simp only [List.cons.injEq] at h; obtain ⟨rfl, rfl⟩ := h; simp [h1]
    · next h => cases h
  fun_induction scanName s with
  | case1 cs ih => simp [scanName, ih]
  | case2 c cs hno hc ih =>
    have hcc := ident_not_colon hc
    simp only [List.cons_append]
    conv_lhs => unfold scanName
    split
    · next h => simp only [List.cons.injEq] at h; exact absurd h.1 hcc
    · next h => simp only [List.cons.injEq] at h; obtain ⟨rfl, rfl⟩ := h; simp [hc, ih]
    · next h => cases h
  | case3 c cs hno hc => simpa using hd
  | case4 => simpa using hd

theorem afterComment_spec {s r : Str} (h : afterComment s = some r) :
    ∃ a, s = a ++ '*' :: '/' :: r := by
  fun_induction afterComment s with
  | case1 cs => cases h; exact ⟨[], rfl⟩
  | case2 c cs hno ih =>
    obtain ⟨a, ha⟩ := ih h
    exact ⟨c :: a, by simp [ha]⟩
  | case3 => cases h

theorem afterComment_none {s : Str} (h : afterComment s = none) :
    ¬ ∃ a b, s = a ++ '*' :: '/' :: b := by
  fun_induction afterComment s with
  | case1 cs => cases h
  | case2 c cs hno ih =>
    rintro ⟨a, b, hab⟩
    cases a with
    | nil => simp only [List.nil_append, List.cons.injEq] at hab; exact hno b hab.1 hab.2
    | cons x xs =>
      simp only [List.cons_append, List.cons.injEq] at hab
      exact ih h ⟨xs, b, hab.2⟩
  | case3 => rintro ⟨a, b, hab⟩; cases a <;> simp at hab

theorem fromNewline_spec (s : Str) :
    ∃ b, s = b ++ fromNewline s ∧ '\n' ∉ b ∧ (fromNewline s).head? ∈ [none, some '\n'] := by
  induction s with
  | nil => exact ⟨[], rfl, by simp, by simp [fromNewline]⟩
  | cons c cs ih =>
    unfold fromNewline
    split
    · next h => exact ⟨[], rfl, by simp, by simp [h]⟩
    · next h =>
      obtain ⟨b, h1, h2, h3⟩ := ih
      refine ⟨c :: b, by rw [List.cons_append, ← h1], ?_, h3⟩
      simp only [List.mem_cons, not_or]
      exact ⟨fun e => h e.symm, h2⟩

/-! ## Helper lemmas: one turn -/

theorem nameStep_emit {s r : Str} {t : Tok} (h : nameStep s = .emit t r) :
    s = t.name ++ r ∧ t.kind = .name ∧ t.name = (scanName s).1 ∧ r = (scanName s).2 := by
  unfold nameStep at h
  have he := scanName_eq s
  rcases hs : scanName s with ⟨n, rr⟩
  rw [hs] at h he
  cases rr with
  | nil => simp at h
  | cons c cs =>
    simp only at h
    split at h
    · cases h
    · cases h; exact ⟨he.symm, rfl, rfl, rfl⟩

theorem opStep_emit {c : Char} {cs r : Str} {t : Tok} (h : opStep c cs = .emit t r) :
    c :: cs = t.name ++ r ∧ t.kind = .syntax_ ∧
      (t.name = [c] ∨ ∃ d, t.name = [c, d] ∧ (d = c ∨ (c = '-' ∧ d = '>') ∨ d = '=')) := by
  unfold opStep at h
  split at h
  · cases h
  · split at h
    · next hd => cases h; exact ⟨rfl, rfl, .inr ⟨_, rfl, .inl hd⟩⟩
    · split at h
      · next hd => cases h; exact ⟨rfl, rfl, .inr ⟨_, rfl, .inr (.inl hd)⟩⟩
      · split at h
        · next hd => cases h; exact ⟨rfl, rfl, .inr ⟨_, rfl, .inr (.inr hd)⟩⟩
        · cases h; exact ⟨rfl, rfl, .inl rfl⟩

theorem singleStep_emit {c : Char} {cs r : Str} {t : Tok} (h : singleStep c cs = .emit t r) :
    c :: cs = t.name ++ r ∧ t.name.head? = some c := by
  unfold singleStep at h
  split at h
  · split at h
    · cases h
    · next d ds =>
      split at h
      · have he := scanWhile_eq isIntFloat ds
        rcases hs : scanWhile isIntFloat ds with ⟨n, rr⟩
        rw [hs] at h he
        cases rr with
        | nil => simp at h
        | cons x xs =>
          simp only [Step.emit.injEq] at h
          obtain ⟨rfl, rfl⟩ := h
          have h2 := scanSuffix_eq [['l'], ['f']] (x :: xs)
          refine ⟨?_, rfl⟩
          simp only [List.cons_append, List.append_assoc, h2, he]
      · cases h; exact ⟨rfl, rfl⟩
  · cases h; exact ⟨rfl, rfl⟩

/-- The two shapes of the number branch. -/
theorem numStep_cases (c : Char) (cs : Str) (hc : isDig c = true) :
    (c = '0' ∧ cs = [] ∧ numStep c cs = .raise .indexError) ∨
    (∃ x ds, c = '0' ∧ (x = 'x' ∨ x = 'X') ∧ cs = x :: ds ∧
      numStep c cs = match scanWhile isHex ds with
        | (_, []) => .raise .indexError
        | (n, r) => .emit ⟨.constant, c :: x :: n ++ (scanSuffix intSuffixes r).1⟩
            (scanSuffix intSuffixes r).2) ∨
    (¬ (c = '0' ∧ (cs.head? = some 'x' ∨ cs.head? = some 'X')) ∧ ¬ (c = '0' ∧ cs = []) ∧
      numStep c cs = match scanWhile isIntFloat2 (c :: cs) with
        | (_, []) => .raise .indexError
        | (n, r) => .emit ⟨.constant, n ++ (scanSuffix intSuffixes r).1⟩
            (scanSuffix intSuffixes r).2) := by
  unfold numStep
  split
  · exact .inl ⟨rfl, rfl, rfl⟩
  · next ds => exact .inr (.inl ⟨'x', ds, rfl, .inl rfl, rfl, rfl⟩)
  · next ds => exact .inr (.inl ⟨'X', ds, rfl, .inr rfl, rfl, rfl⟩)
  · next h1 h2 h3 =>
    refine .inr (.inr ⟨?_, ?_, rfl⟩)
    · rintro ⟨rfl, h | h⟩
      · cases cs with
        | nil => simp at h
        | cons x xs => simp at h; subst h; exact h2 xs rfl rfl
      · cases cs with
        | nil => simp at h
        | cons x xs => simp at h; subst h; exact h3 xs rfl rfl
    · rintro ⟨rfl, rfl⟩; exact h1 rfl rfl

theorem numStep_emit {c : Char} {cs r : Str} {t : Tok} (hc : isDig c = true)
    (h : numStep c cs = .emit t r) : c :: cs = t.name ++ r ∧ t.name.head? = some c := by
  rcases numStep_cases c cs hc with ⟨_, _, h1⟩ | ⟨x, ds, _, _, rfl, h1⟩ | ⟨_, _, h1⟩
  · rw [h1] at h; cases h
  · rw [h1] at h
    have he := scanWhile_eq isHex ds
    rcases hs : scanWhile isHex ds with ⟨n, rr⟩
    rw [hs] at h he
    cases rr with
    | nil => simp at h
    | cons y ys =>
      simp only [Step.emit.injEq] at h
      obtain ⟨rfl, rfl⟩ := h
      refine ⟨?_, rfl⟩
      simp only [List.cons_append, List.append_assoc, scanSuffix_eq, he]
  · rw [h1] at h
    have he := scanWhile_eq isIntFloat2 (c :: cs)
    have hp : isIntFloat2 c = true := by unfold isIntFloat2 isIntFloat; simp [hc]
    have hfst : (scanWhile isIntFloat2 (c :: cs)).1 = c :: (scanWhile isIntFloat2 cs).1 := by
      simp [scanWhile, hp]
    rcases hs : scanWhile isIntFloat2 (c :: cs) with ⟨n, rr⟩
    rw [hs] at h he hfst
    cases rr with
    | nil => simp at h
    | cons y ys =>
      simp only [Step.emit.injEq] at h
      obtain ⟨rfl, rfl⟩ := h
      simp only at hfst he
      refine ⟨?_, by simp [hfst]⟩
      simp only [List.append_assoc, scanSuffix_eq, he]

theorem step1_emit {s r : Str} {t : Tok} (h : step1 s = .emit t r) :
    s = t.name ++ r ∧ t.name ≠ [] ∧ ∃ c, t.name.head? = some c ∧ isPySpace c = false := by
  unfold step1 at h
  cases s with
  | nil => cases h
  | cons c cs =>
    simp only at h
    have hsp : ∀ {t : Tok} {r : Str}, c :: cs = t.name ++ r → t.name.head? = some c →
        (isIdent c = true ∨ c = ':' ∨ isOp c = true ∨ isSingle c = true ∨ isDig c = true) →
        c :: cs = t.name ++ r ∧ t.name ≠ [] ∧ ∃ c, t.name.head? = some c ∧ isPySpace c = false := by
      intro t r h1 h2 h3
      refine ⟨h1, by intro h0; simp [h0] at h2, c, h2, ?_⟩
      cases hs : isPySpace c with
      | false => rfl
      | true =>
        have := space_class hs
        rcases h3 with h3 | h3 | h3 | h3 | h3 <;> simp_all
    split at h
    · next hc =>
      obtain ⟨h1, _, h2, _⟩ := nameStep_emit h
      refine hsp h1 ?_ ?_
      · rw [h2]
        unfold scanName
        split
        · next h0 => simp only [List.cons.injEq] at h0; simp [h0.1]
        · next c' cs' hno h0 =>
          simp only [List.cons.injEq] at h0
          obtain ⟨rfl, rfl⟩ := h0
          split
          · rfl
          · next hi =>
            simp only [Bool.or_eq_true, Bool.and_eq_true] at hc
            rcases hc with hc | hc
            · exact absurd hc.1 hi
            · exfalso
              cases cs with
              | nil => simp at hc
              | cons x xs =>
                simp at hc
                exact hno xs hc.1 (by rw [hc.2])
        · next h0 => cases h0
      · simp only [Bool.or_eq_true, Bool.and_eq_true, beq_iff_eq] at hc
        rcases hc with hc | hc
        · exact .inl hc.1
        · exact .inr (.inl hc.1)
    · split at h
      · cases h
      · split at h
        · cases h
        · split at h
          · split at h <;> cases h
          · split at h
            · next hop =>
              obtain ⟨h1, _, h2⟩ := opStep_emit h
              refine hsp h1 ?_ (.inr (.inr (.inl hop)))
              rcases h2 with h2 | ⟨d, h2, _⟩ <;> simp [h2]
            · split at h
              · next hsg =>
                obtain ⟨h1, h2⟩ := singleStep_emit h
                exact hsp h1 h2 (.inr (.inr (.inr (.inl hsg))))
              · split at h
                · next hdg =>
                  obtain ⟨h1, h2⟩ := numStep_emit hdg h
                  exact hsp h1 h2 (.inr (.inr (.inr (.inr hdg))))
                · split at h
                  · cases h
                  · split at h <;> cases h

theorem step1_skip {s r : Str} (h : step1 s = .skip r) :
    (s = '\\' :: r) ∨
    (∃ body, s = "//".toList ++ body ++ r ∧ '\n' ∉ body ∧ r.head? ∈ [none, some '\n']) ∨
    (∃ b, s = b ++ r ∧ "/*".toList <+: b ∧ "*/".toList <:+ b) := by
  unfold step1 at h
  cases s with
  | nil => cases h
  | cons c cs =>
    simp only at h
    split at h
    · unfold nameStep at h
      split at h
      · cases h
      · split at h <;> cases h
    · split at h
      · cases h
      · split at h
        · next hc =>
          cases h
          obtain ⟨rfl, hcs⟩ := hc
          cases cs with
          | nil => simp at hcs
          | cons x xs =>
            simp at hcs; subst hcs
            obtain ⟨b, h1, h2, h3⟩ := fromNewline_spec ('/' :: '/' :: xs)
            -- the first two characters are slashes, so b starts with them
            have hb : ∃ b', b = '/' :: '/' :: b' := by
              have : fromNewline ('/' :: '/' :: xs) = fromNewline xs := by
                simp [fromNewline]
              rw [this] at h1 h3
              obtain ⟨b2, g1, _, _⟩ := fromNewline_spec xs
              refine ⟨b2, ?_⟩
              have : b ++ fromNewline xs = ('/' :: '/' :: b2) ++ fromNewline xs := by
                rw [← h1]; simp [← g1]
              exact List.append_cancel_right this
            obtain ⟨b', rfl⟩ := hb
            refine .inr (.inl ⟨b', ?_, ?_, h3⟩)
            · exact h1
            · intro hm; exact h2 (by simp [hm])
        · split at h
          · next hc =>
            obtain ⟨rfl, hcs⟩ := hc
            cases cs with
            | nil => simp at hcs
            | cons x xs =>
              simp at hcs; subst hcs
              split at h
              · next r' hr' =>
                cases h
                obtain ⟨a, ha⟩ := afterComment_spec hr'
                refine .inr (.inr ⟨a ++ ['*', '/'], by simp [ha], ?_, ?_⟩)
                · cases a with
                  | nil => simp at ha
                  | cons y ys =>
                    simp only [List.cons_append, List.cons.injEq] at ha
                    obtain ⟨rfl, ha⟩ := ha
                    cases ys with
                    | nil => simp at ha; simp
                    | cons z zs =>
                      simp only [List.cons_append, List.cons.injEq] at ha
                      obtain ⟨rfl, _⟩ := ha
                      simp
                · exact List.suffix_append _ _
              · cases h
          · split at h
            · unfold opStep at h
              split at h
              · cases h
              · split at h
                · cases h
                · split at h
                  · cases h
                  · split at h <;> cases h
            · split at h
              · unfold singleStep at h
                split at h
                · split at h
                  · cases h
                  · split at h
                    · split at h <;> cases h
                    · cases h
                · cases h
              · split at h
                · next hd =>
                  rcases numStep_cases c cs hd with ⟨_, _, h1⟩ | ⟨x, ds, _, _, _, h1⟩ | ⟨_, _, h1⟩
                  · rw [h1] at h; cases h
                  · rw [h1] at h; split at h <;> cases h
                  · rw [h1] at h; split at h <;> cases h
                · split at h
                  · cases h
                  · split at h
                    · next hb => cases h; exact .inl (by rw [hb])
                    · cases h

theorem step1_jump {s : Str} (h : step1 s = .jumpTo1) :
    ∃ post, s = '/' :: '*' :: post ∧ afterComment s = none := by
  unfold step1 at h
  cases s with
  | nil => cases h
  | cons c cs =>
    simp only at h
    split at h
    · unfold nameStep at h
      split at h
      · cases h
      · split at h <;> cases h
    · split at h
      · cases h
      · split at h
        · cases h
        · split at h
          · next hc =>
            obtain ⟨rfl, hcs⟩ := hc
            cases cs with
            | nil => simp at hcs
            | cons x xs =>
              simp at hcs; subst hcs
              split at h
              · cases h
              · next hn => exact ⟨xs, rfl, hn⟩
          · split at h
            · unfold opStep at h
              split at h
              · cases h
              · split at h
                · cases h
                · split at h
                  · cases h
                  · split at h <;> cases h
            · split at h
              · unfold singleStep at h
                split at h
                · split at h
                  · cases h
                  · split at h
                    · split at h <;> cases h
                    · cases h
                · cases h
              · split at h
                · next hd =>
                  rcases numStep_cases c cs hd with ⟨_, _, h1⟩ | ⟨x, ds, _, _, _, h1⟩ | ⟨_, _, h1⟩
                  · rw [h1] at h; cases h
                  · rw [h1] at h; split at h <;> cases h
                  · rw [h1] at h; split at h <;> cases h
                · split at h
                  · cases h
                  · split at h <;> cases h

theorem dropWhile_space (s : Str) : ∃ w, s = w ++ s.dropWhile isPySpace ∧
    ∀ c ∈ w, isPySpace c = true := by
  induction s with
  | nil => exact ⟨[], rfl, by simp⟩
  | cons x xs ih =>
    obtain ⟨w, h1, h2⟩ := ih
    by_cases hx : isPySpace x = true
    · refine ⟨x :: w, by simpa [List.dropWhile, hx] using h1, ?_⟩
      intro c hc
      rcases List.mem_cons.1 hc with rfl | hc
      · exact hx
      · exact h2 c hc
    · exact ⟨[], by simp [List.dropWhile, hx], by simp⟩

theorem step_shorter {s r : Str} (h : (∃ t, step s = .emit t r) ∨ step s = .skip r) :
    r.length < s.length ∧ ∃ p, s = p ++ r := by
  obtain ⟨w, hw, _⟩ := dropWhile_space s
  unfold step at h
  generalize s.dropWhile isPySpace = s' at h hw
  rcases h with ⟨t, h⟩ | h
  · obtain ⟨h1, h2, _⟩ := step1_emit h
    subst hw h1
    have : 0 < t.name.length := List.length_pos_iff.2 h2
    exact ⟨by simp; omega, w ++ t.name, by simp⟩
  · rcases step1_skip h with h1 | ⟨b, h1, _⟩ | ⟨b, h1, ⟨x, rfl⟩, _⟩
    · subst hw h1; exact ⟨by simp; omega, w ++ ['\\'], by simp⟩
    · subst hw h1; exact ⟨by simp; omega, w ++ ("//".toList ++ b), by simp⟩
    · subst hw h1; exact ⟨by simp; omega, w ++ ("/*".toList ++ x), by simp⟩

theorem step_no_jump {src p s : Str} (hc : CommentsClosed src) (hs : src = p ++ s) :
    step s ≠ .jumpTo1 := by
  intro h
  obtain ⟨w, hw, _⟩ := dropWhile_space s
  unfold step at h
  generalize s.dropWhile isPySpace = s' at h hw
  obtain ⟨post, h1, h2⟩ := step1_jump h
  subst h1
  obtain ⟨a, b, hab⟩ := hc (p ++ w) post (by rw [hs, hw]; simp)
  exact afterComment_none h2 ⟨'/' :: a, b, by rw [hab]; rfl⟩

/-! ## C12 -/

theorem loop_terminates {src : Str} (hc : CommentsClosed src) :
    ∀ (fuel : Nat) (p s : Str) (acc : List Tok), src = p ++ s → s.length < fuel →
      loop src fuel s acc ≠ .running := by
  intro fuel
  induction fuel with
  | zero => intro p s acc _ h; omega
  | succ f ih =>
    intro p s acc hs hlen
    unfold loop
    split
    · simp
    · next t r hr =>
      obtain ⟨h1, q, h2⟩ := step_shorter (.inl ⟨t, hr⟩)
      exact ih (p ++ q) r _ (by rw [hs, h2]; simp) (by omega)
    · next r hr =>
      obtain ⟨h1, q, h2⟩ := step_shorter (.inr hr)
      exact ih (p ++ q) r _ (by rw [hs, h2]; simp) (by omega)
    · next hj => exact absurd hj (step_no_jump hc hs)
    · simp
    · simp

/-- More turns do not change a finished run. -/
theorem loop_mono {src : Str} {f : Nat} {s : Str} {acc : List Tok}
    (h : loop src f s acc ≠ .running) (g : Nat) (hg : f ≤ g) :
    loop src g s acc = loop src f s acc := by
  induction f generalizing s acc g with
  | zero => exact absurd rfl h
  | succ f ih =>
    cases g with
    | zero => omega
    | succ g =>
      unfold loop at h ⊢
      split <;> simp_all

/-- C12 (termination): the tokenizer finishes, within as many loop turns as the source has
characters plus one, on every source in which every `/*` is closed — with tokens or an exception;
and its outcome is the same for every larger number of turns. -/
theorem C12_terminates_partial (src : Str) (hc : CommentsClosed src) (fuel : Nat)
    (hf : src.length + 1 ≤ fuel) :
    getTokensFuel fuel src ≠ .running ∧ getTokensFuel fuel src = getTokens src := by
  have h := loop_terminates hc (src.length + 1) [] src [] rfl (by omega)
  have := loop_mono h fuel hf
  exact ⟨by unfold getTokensFuel; rw [this]; exact h, this⟩

/-- C12 (finding): termination fails for an unterminated comment.  On `x /* y` (with the newline
`parse_type` adds) the generator never finishes, for any number of turns: it jumps back to
index 1 for ever. -/
theorem C12_unterminated_comment_counterexample (fuel : Nat) :
    getTokensFuel fuel "x /* y\n".toList = .running := by
  have key : ∀ fuel acc, loop "x /* y\n".toList fuel " /* y\n".toList acc = .running := by
    intro fuel
    induction fuel with
    | zero => intro acc; rfl
    | succ f ih =>
      intro acc
      unfold loop
      have : step " /* y\n".toList = .jumpTo1 := by decide
      rw [this]
      exact ih acc
  cases fuel with
  | zero => rfl
  | succ f =>
    unfold getTokensFuel loop
    have : step "x /* y\n".toList = .emit ⟨.name, ['x']⟩ " /* y\n".toList := by decide
    rw [this]
    exact key f _

theorem Covers.whites {w s : Str} {ts : List Tok} (hw : ∀ c ∈ w, isPySpace c = true)
    (h : Covers s ts) : Covers (w ++ s) ts := by
  induction w with
  | nil => exact h
  | cons c cs ih =>
    exact .white (hw c (by simp)) (ih (fun x hx => hw x (List.mem_cons_of_mem _ hx)))

theorem loop_covers {src : Str} (hc : CommentsClosed src) :
    ∀ (fuel : Nat) (p s : Str) (acc res : List Tok), src = p ++ s →
      loop src fuel s acc = .done res → ∃ ts, res = acc ++ ts ∧ Covers s ts := by
  intro fuel
  induction fuel with
  | zero => intro p s acc res _ h; cases h
  | succ f ih =>
    intro p s acc res hs hr
    unfold loop at hr
    obtain ⟨w, hw, hws⟩ := dropWhile_space s
    split at hr
    · next hst =>
      cases hr
      refine ⟨[], by simp, ?_⟩
      have : s.dropWhile isPySpace = [] := by
        unfold step step1 at hst
        generalize s.dropWhile isPySpace = s' at hst
        cases s' with
        | nil => rfl
        | cons c cs =>
          exfalso
          simp only at hst
          split at hst
          · unfold nameStep at hst
            split at hst
            · cases hst
            · split at hst <;> cases hst
          · split at hst
            · cases hst
            · split at hst
              · cases hst
              · split at hst
                · split at hst <;> cases hst
                · split at hst
                  · unfold opStep at hst
                    split at hst
                    · cases hst
                    · split at hst
                      · cases hst
                      · split at hst
                        · cases hst
                        · split at hst <;> cases hst
                  · split at hst
                    · unfold singleStep at hst
                      split at hst
                      · split at hst
                        · cases hst
                        · split at hst
                          · split at hst <;> cases hst
                          · cases hst
                      · cases hst
                    · split at hst
                      · next hd =>
                        rcases numStep_cases c cs hd with ⟨_, _, h1⟩ | ⟨x, ds, _, _, _, h1⟩ | ⟨_, _, h1⟩
                        · rw [h1] at hst; cases hst
                        · rw [h1] at hst; split at hst <;> cases hst
                        · rw [h1] at hst; split at hst <;> cases hst
                      · split at hst
                        · cases hst
                        · split at hst <;> cases hst
      rw [this] at hw
      rw [hw]
      exact Covers.whites hws .nil
    · next t r hst =>
      obtain ⟨_, q, hq⟩ := step_shorter (.inl ⟨t, hst⟩)
      obtain ⟨ts, h1, h2⟩ := ih (p ++ q) r _ _ (by rw [hs, hq]; simp) hr
      refine ⟨t :: ts, by simp [h1], ?_⟩
      obtain ⟨h3, h4, _⟩ := step1_emit hst
      rw [hw, h3]
      exact Covers.whites hws (.token h4 h2)
    · next r hst =>
      obtain ⟨_, q, hq⟩ := step_shorter (.inr hst)
      obtain ⟨ts, h1, h2⟩ := ih (p ++ q) r _ _ (by rw [hs, hq]; simp) hr
      refine ⟨ts, h1, ?_⟩
      rw [hw]
      apply Covers.whites hws
      rcases step1_skip hst with h3 | ⟨b, h3, h4, h5⟩ | ⟨b, h3, h4, h5⟩
      · rw [h3]; exact .backslash h2
      · rw [h3]; exact .lineComment h4 h5 h2
      · rw [h3]; exact .blockComment h4 h5 h2
    · next hj => exact absurd hj (step_no_jump hc hs)
    · cases hr
    · cases hr

/-- C12 (lossless): when the tokenizer finishes with tokens, the source consists of these tokens
in this order and, between them, only white space, comments and backslashes. -/
theorem C12_lossless_partial (src : Str) (hc : CommentsClosed src) (ts : List Tok)
    (h : getTokens src = .done ts) : Covers src ts := by
  obtain ⟨ts', h1, h2⟩ := loop_covers hc _ [] src [] ts rfl h
  simpa [h1] using h2

/-- C12 (finding): a source that *starts* with an unterminated comment does finish, but not
losslessly: the jump to index 1 loses the slash, and the text of the comment becomes tokens. -/
theorem C12_lossless_counterexample :
    getTokens "/* x\n".toList = .done [⟨.syntax_, ['*']⟩, ⟨.name, ['x']⟩] := by decide

/-- Non-vacuity: a type with both kinds of comments satisfies the hypothesis and tokenizes. -/
example : getTokens "int /* a */ const& // b\n".toList =
    .done [⟨.name, "int".toList⟩, ⟨.name, "const".toList⟩, ⟨.syntax_, ['&']⟩] := by decide

example : CommentsClosed "int const&\n".toList := by
  intro pre post h
  exfalso
  have : '/' ∈ "int const&\n".toList := by rw [h]; simp
  revert this; decide

/-! ## Independence from spacing -/

theorem fuses_space {t : Tok} {d : Char} (h : isPySpace d = true) : fuses t d = false := by
  have : ∀ d ∈ pySpaces, isIdent d = false ∧ isDig d = false ∧ isOp d = false ∧
      d ≠ ':' ∧ d ≠ '\'' ∧ d ≠ '+' ∧ d ≠ '-' ∧ d ≠ '.' ∧ d ≠ '/' ∧ d ≠ '*' ∧ d ≠ '=' ∧ d ≠ '>' := by
    decide
  have := this d (by simpa [isPySpace] using h)
  obtain ⟨h1, h2, h3, h4, h5, h6, h7, h8, h9, h10, h11, h12⟩ := this
  unfold fuses
  split
  · simp [h1, h4, h5]
  · simp [h1, h6, h7, h8]
  · next c _ _ =>
    split
    · exact h2
    · split
      · simp [h9, h10]
      · cases hc : isOp c with
        | false => simp
        | true =>
          have : d ≠ c := by rintro rfl; rw [h3] at hc; cases hc
          simp [this, h11, h12]
  · rfl

/-- A token re-tokenizes to itself in front of any character that does not fuse with it. -/
theorem step1_again {t : Tok} (ht : IsToken t) {d : Char} {ds : Str} (hf : fuses t d = false) :
    step1 (t.name ++ d :: ds) = .emit t (d :: ds) := by
  obtain ⟨s, r, h⟩ := ht
  unfold step1 at h
  cases s with
  | nil => cases h
  | cons c cs =>
    simp only at h
    split at h
    · -- names
      next hc =>
      obtain ⟨h1, h2, h3, h4⟩ := nameStep_emit h
      have hf' : isIdent d = false ∧ d ≠ ':' ∧ d ≠ '\'' := by
        unfold fuses at hf
        rw [h2] at hf
        simpa [and_assoc] using hf
      have hsc := scanName_again (s := c :: cs) (ds := ds) hf'.1 hf'.2.1
      rw [← h3] at hsc
      have hns : nameStep (t.name ++ d :: ds) = .emit t (d :: ds) := by
        unfold nameStep
        rw [hsc]
        simp only [if_neg hf'.2.2]
        cases t; simp at h2; simp [h2]
      -- the branch is taken again
      have hhead : ∃ n', t.name = c :: n' ∧ (c = ':' → ∃ n'', n' = ':' :: n'') := by
        rw [h3]
        unfold scanName
        split
        · next h0 => simp only [List.cons.injEq] at h0; exact ⟨_, by rw [h0.1], fun _ => ⟨_, rfl⟩⟩
        · next c' cs' hno h0 =>
          simp only [List.cons.injEq] at h0
          obtain ⟨rfl, rfl⟩ := h0
          split
          · next hi => exact ⟨_, rfl, fun h => absurd h (ident_not_colon hi)⟩
          · next hi =>
            simp only [Bool.or_eq_true, Bool.and_eq_true] at hc
            rcases hc with hc | hc
            · exact absurd hc.1 hi
            · exfalso
              cases cs with
              | nil => simp at hc
              | cons x xs =>
                simp at hc
                exact hno xs hc.1 (by rw [hc.2])
        · next h0 => cases h0
      obtain ⟨n', hn', hcolon⟩ := hhead
      rw [hn', List.cons_append] at hns ⊢
      unfold step1
      simp only
      rw [if_pos, hns]
      simp only [Bool.or_eq_true, Bool.and_eq_true, beq_iff_eq] at hc ⊢
      rcases hc with hc | hc
      · exact .inl hc
      · obtain ⟨n'', rfl⟩ := hcolon hc.1
        exact .inr ⟨hc.1, by simp⟩
    · next hname =>
      split at h
      · cases h
      · next hsl =>
        split at h
        · cases h
        · next hlc =>
          split at h
          · split at h <;> cases h
          · next hbc =>
            split at h
            · -- operators
              next hop =>
              have hid : isIdent c = false := by
                have : ∀ c ∈ [':', '+', '-', '<', '>', '&', '|', '*', '='], isIdent c = false := by decide
                exact this c (by simpa [isOp] using hop)
              have hcs : c ≠ '/' := by rintro rfl; revert hop; decide
              obtain ⟨h1, h2, h3⟩ := opStep_emit h
              rcases h3 with h3 | ⟨e, h3, h4⟩
              · have hcd : c ≠ '.' := by rintro rfl; revert hop; decide
                have hf' : d ≠ c ∧ d ≠ '=' ∧ (c = '-' → d ≠ '>') := by
                  unfold fuses at hf
                  rw [h2, h3] at hf
                  simpa [hcd, hcs, hop, and_assoc] using hf
                rw [h3]
                show step1 (c :: d :: ds) = _
                unfold step1
                simp only
                have hnn : ¬ ((isIdent c && !isDig c || c == ':' && (d :: ds).head? == some ':') = true) := by
                  simp only [hid, Bool.false_and, Bool.false_or, Bool.and_eq_true, beq_iff_eq,
                    List.head?_cons, Option.some.injEq, not_and]
                  intro h0 h00; exact hf'.1 (h00.trans h0.symm)
                rw [if_neg hnn]
                simp only [hcs, false_and, if_false, hop, if_true]
                unfold opStep
                have hno : ¬ (c = '-' ∧ d = '>') := fun h => hf'.2.2 h.1 h.2
                simp only [hf'.1, if_false, hno, hf'.2.1]
                cases t; simp_all
              · rw [h3]
                show step1 (c :: e :: d :: ds) = _
                unfold step1
                simp only
                have hnn : ¬ ((isIdent c && !isDig c || c == ':' && (e :: d :: ds).head? == some ':') = true) := by
                  simp only [hid, Bool.false_and, Bool.false_or, Bool.and_eq_true, beq_iff_eq,
                    List.head?_cons, Option.some.injEq, not_and]
                  rintro rfl rfl
                  apply hname
                  rw [h3] at h1
                  simp only [List.cons_append, List.nil_append, List.cons.injEq, true_and] at h1
                  simp [h1]
                rw [if_neg hnn]
                simp only [hcs, false_and, if_false, hop, if_true]
                unfold opStep
                have htt : t = ⟨.syntax_, [c, e]⟩ := by cases t; simp_all
                rw [htt]
                simp only
                by_cases e1 : e = c
                · rw [if_pos e1]
                · rw [if_neg e1]
                  by_cases e2 : c = '-' ∧ e = '>'
                  · rw [if_pos e2]
                  · rw [if_neg e2]
                    rcases h4 with h4 | h4 | h4
                    · exact absurd h4 e1
                    · exact absurd h4 e2
                    · rw [if_pos h4]
            · next hop =>
              split at h
              · -- single characters
                next hsg =>
                have hid : isIdent c = false ∧ c ≠ ':' := by
                  have : ∀ c ∈ ['(', ')', '[', ']', '{', '}', '~', '!', '?', '^', '%', ';', '/', '.', ','],
                      isIdent c = false ∧ c ≠ ':' := by decide
                  exact this c (by simpa [isSingle] using hsg)
                -- what the branch does on a text starting with c
                have hbr : ∀ x xs, (c = '/' → x ≠ '/' ∧ x ≠ '*') →
                    step1 (c :: x :: xs) = singleStep c (x :: xs) := by
                  intro x xs hx
                  unfold step1
                  simp only
                  have hnn : ¬ ((isIdent c && !isDig c || c == ':' && (x :: xs).head? == some ':') = true) := by
                    simp [hid.1, hid.2]
                  rw [if_neg hnn]
                  have h1 : ¬ (c = '/' ∧ x :: xs = []) := by simp
                  have h2 : ¬ (c = '/' ∧ (x :: xs).head? = some '/') := by
                    rintro ⟨h0, h00⟩; simp at h00; exact (hx h0).1 h00
                  have h3 : ¬ (c = '/' ∧ (x :: xs).head? = some '*') := by
                    rintro ⟨h0, h00⟩; simp at h00; exact (hx h0).2 h00
                  rw [if_neg h1, if_neg h2, if_neg h3, if_neg hop, if_pos hsg]
                unfold singleStep at h
                split at h
                · next hdot =>
                  subst hdot
                  split at h
                  · cases h
                  · next e es =>
                    split at h
                    · next hdig =>
                      -- fractional constant
                      have he := scanWhile_eq isIntFloat es
                      have hall := scanWhile_all isIntFloat es
                      have hstop := scanWhile_stop isIntFloat es
                      rcases hs : scanWhile isIntFloat es with ⟨n, rr⟩
                      rw [hs] at h he hall hstop
                      cases rr with
                      | nil => simp at h
                      | cons y ys =>
                        simp only [Step.emit.injEq] at h
                        obtain ⟨rfl, rfl⟩ := h
                        simp only at hall hstop
                        have hf' : isIdent d = false ∧ d ≠ '+' ∧ d ≠ '-' ∧ d ≠ '.' := by
                          unfold fuses at hf
                          simpa [and_assoc] using hf
                        have hdp : isIntFloat d = false := by
                          unfold isIntFloat
                          have : isDig d = false := by
                            cases hdd : isDig d with
                            | false => rfl
                            | true => rw [dig_ident hdd] at hf'; cases hf'.1
                          have h5 : d ≠ 'e' := by rintro rfl; revert hf'; decide
                          have h6 : d ≠ 'E' := by rintro rfl; revert hf'; decide
                          simp [this, h5, h6, hf'.2.1, hf'.2.2.1]
                        set u := (scanSuffix [['l'], ['f']] (y :: ys)).1 with hu
                        have hu2 := scanSuffix_eq [['l'], ['f']] (y :: ys)
                        rw [← hu] at hu2
                        have hagain : scanWhile isIntFloat (n ++ (u ++ d :: ds)) = (n, u ++ d :: ds) := by
                          apply scanWhile_again hall
                          intro x xs hx
                          cases hu3 : u with
                          | nil => rw [hu3] at hx; simp at hx; rw [← hx.1]; exact hdp
                          | cons z zs =>
                            rw [hu3] at hx hu2
                            simp only [List.cons_append, List.cons.injEq] at hx hu2
                            rw [← hx.1, hu2.1]
                            exact hstop y ys rfl
                        have hsuf := scanSuffix_again [['l'], ['f']] (y :: ys) suffixList_lf d ds hf'.1
                        rw [← hu] at hsuf
                        show step1 ('.' :: e :: (n ++ u) ++ d :: ds) = _
                        rw [List.cons_append, List.cons_append,
                          hbr e _ (fun h => by cases h)]
                        unfold singleStep
                        rw [if_pos rfl]
                        simp only [hdig, if_true]
                        rw [List.append_assoc, hagain]
                        cases hud : u ++ d :: ds with
                        | nil => simp at hud
                        | cons a as =>
                          simp only
                          rw [← hud, hsuf]
                    · -- a lone dot
                      cases h
                      have hf' : isDig d = false := by
                        unfold fuses at hf
                        simpa using hf
                      show step1 ('.' :: d :: ds) = _
                      rw [hbr d ds (fun h => by cases h)]
                      unfold singleStep
                      simp [hf']
                · next hdot =>
                  cases h
                  show step1 (c :: d :: ds) = _
                  rw [hbr d ds]
                  · unfold singleStep; rw [if_neg hdot]
                  · rintro rfl
                    unfold fuses at hf
                    simpa using hf
              · next hsg =>
                split at h
                · -- numbers
                  next hdg =>
                  have hbr : ∀ xs, step1 (c :: xs) = numStep c xs := by
                    intro xs
                    unfold step1
                    simp only
                    have hcc : c ≠ ':' := ident_not_colon (dig_ident hdg)
                    have hcs : c ≠ '/' := by rintro rfl; revert hdg; decide
                    have hnn : ¬ ((isIdent c && !isDig c || c == ':' && xs.head? == some ':') = true) := by
                      simp [hdg, hcc]
                    rw [if_neg hnn]
                    simp only [hcs, false_and, if_false, hop, hsg, Bool.false_eq_true, hdg, if_true]
                  have hkind : ∀ (n : Str) (hk : t = ⟨.constant, n⟩),
                      isIdent d = false ∧ d ≠ '+' ∧ d ≠ '-' ∧ d ≠ '.' := by
                    rintro n rfl
                    unfold fuses at hf
                    simpa [and_assoc] using hf
                  rcases numStep_cases c cs hdg with ⟨_, _, h1⟩ | ⟨x, es, rfl, hx, rfl, h1⟩ | ⟨hnx, _, h1⟩
                  · rw [h1] at h; cases h
                  · -- hexadecimal
                    rw [h1] at h
                    have he := scanWhile_eq isHex es
                    have hall := scanWhile_all isHex es
                    have hstop := scanWhile_stop isHex es
                    rcases hs : scanWhile isHex es with ⟨n, rr⟩
                    rw [hs] at h he hall hstop
                    cases rr with
                    | nil => simp at h
                    | cons y ys =>
                      simp only [Step.emit.injEq] at h
                      obtain ⟨rfl, rfl⟩ := h
                      simp only at hall hstop
                      obtain ⟨hd1, hd2, hd3, hd4⟩ := hkind _ rfl
                      have hdp : isHex d = false := by
                        cases hdd : isHex d with
                        | false => rfl
                        | true => rw [hex_ident hdd] at hd1; cases hd1
                      set u := (scanSuffix intSuffixes (y :: ys)).1 with hu
                      have hu2 := scanSuffix_eq intSuffixes (y :: ys)
                      rw [← hu] at hu2
                      have hagain : scanWhile isHex (n ++ (u ++ d :: ds)) = (n, u ++ d :: ds) := by
                        apply scanWhile_again hall
                        intro z zs hz
                        cases hu3 : u with
                        | nil => rw [hu3] at hz; simp at hz; rw [← hz.1]; exact hdp
                        | cons a as =>
                          rw [hu3] at hz hu2
                          simp only [List.cons_append, List.cons.injEq] at hz hu2
                          rw [← hz.1, hu2.1]
                          exact hstop y ys rfl
                      have hsuf := scanSuffix_again intSuffixes (y :: ys) suffixList_int d ds hd1
                      rw [← hu] at hsuf
                      show step1 ('0' :: x :: (n ++ u) ++ d :: ds) = _
                      rw [List.cons_append, List.cons_append, hbr]
                      have e1 : numStep '0' (x :: (n ++ u ++ d :: ds)) =
                          match scanWhile isHex (n ++ u ++ d :: ds) with
                          | (_, []) => .raise .indexError
                          | (n, r) => .emit ⟨.constant, '0' :: x :: n ++ (scanSuffix intSuffixes r).1⟩
                              (scanSuffix intSuffixes r).2 := by
                        rcases hx with rfl | rfl <;> rfl
                      rw [e1, List.append_assoc, hagain]
                      cases hud : u ++ d :: ds with
                      | nil => simp at hud
                      | cons a as =>
                        simp only
                        rw [← hud, hsuf]
                  · -- decimal
                    rw [h1] at h
                    have he := scanWhile_eq isIntFloat2 (c :: cs)
                    have hall := scanWhile_all isIntFloat2 (c :: cs)
                    have hstop := scanWhile_stop isIntFloat2 (c :: cs)
                    have hp : isIntFloat2 c = true := by unfold isIntFloat2 isIntFloat; simp [hdg]
                    have hfst : (scanWhile isIntFloat2 (c :: cs)).1 = c :: (scanWhile isIntFloat2 cs).1 := by
                      simp [scanWhile, hp]
                    rcases hs : scanWhile isIntFloat2 (c :: cs) with ⟨n, rr⟩
                    rw [hs] at h he hall hstop hfst
                    cases rr with
                    | nil => simp at h
                    | cons y ys =>
                      simp only [Step.emit.injEq] at h
                      obtain ⟨rfl, rfl⟩ := h
                      simp only at hall hstop hfst he
                      obtain ⟨hd1, hd2, hd3, hd4⟩ := hkind _ rfl
                      have hdp : isIntFloat2 d = false := by
                        unfold isIntFloat2 isIntFloat
                        have : isDig d = false := by
                          cases hdd : isDig d with
                          | false => rfl
                          | true => rw [dig_ident hdd] at hd1; cases hd1
                        have h5 : d ≠ 'e' := by rintro rfl; revert hd1; decide
                        have h6 : d ≠ 'E' := by rintro rfl; revert hd1; decide
                        simp [this, h5, h6, hd2, hd3, hd4]
                      set u := (scanSuffix intSuffixes (y :: ys)).1 with hu
                      have hu2 := scanSuffix_eq intSuffixes (y :: ys)
                      rw [← hu] at hu2
                      have hagain : scanWhile isIntFloat2 (n ++ (u ++ d :: ds)) = (n, u ++ d :: ds) := by
                        apply scanWhile_again hall
                        intro z zs hz
                        cases hu3 : u with
                        | nil => rw [hu3] at hz; simp at hz; rw [← hz.1]; exact hdp
                        | cons a as =>
                          rw [hu3] at hz hu2
                          simp only [List.cons_append, List.cons.injEq] at hz hu2
                          rw [← hz.1, hu2.1]
                          exact hstop y ys rfl
                      have hsuf := scanSuffix_again intSuffixes (y :: ys) suffixList_int d ds hd1
                      rw [← hu] at hsuf
                      obtain ⟨n', hn'⟩ : ∃ n', n = c :: n' := ⟨_, hfst⟩
                      -- the next character after c is not x, X nor missing
                      have hnot : ¬ (c = '0' ∧ ((n' ++ (u ++ d :: ds)).head? = some 'x' ∨
                          (n' ++ (u ++ d :: ds)).head? = some 'X')) := by
                        rintro ⟨hc0, hx⟩
                        have hx' : ∃ x, (x = 'x' ∨ x = 'X') ∧ (n' ++ (u ++ d :: ds)).head? = some x := by
                          rcases hx with hx | hx
                          · exact ⟨_, .inl rfl, hx⟩
                          · exact ⟨_, .inr rfl, hx⟩
                        obtain ⟨x, hxx, hx⟩ := hx'
                        have hxp : isIntFloat2 x = false := by rcases hxx with rfl | rfl <;> decide
                        have hxi : isIdent x = true := by rcases hxx with rfl | rfl <;> decide
                        cases hn2 : n' with
                        | cons a as =>
                          rw [hn2] at hx; simp at hx; subst hx
                          have := hall a (by rw [hn', hn2]; simp)
                          rw [hxp] at this; cases this
                        | nil =>
                          rw [hn2] at hx
                          cases hu3 : u with
                          | nil =>
                            rw [hu3] at hx; simp at hx; subst hx
                            rw [hxi] at hd1; cases hd1
                          | cons a as =>
                            rw [hu3] at hx hu2
                            simp at hx; subst hx
                            simp only [List.cons_append, List.cons.injEq] at hu2
                            apply hnx
                            refine ⟨hc0, ?_⟩
                            rw [hn', hn2] at he
                            simp at he
                            rw [← he]
                            simp only [List.head?_cons, ← hu2.1, Option.some.injEq]
                            exact hxx
                      show step1 (n ++ u ++ d :: ds) = _
                      rw [List.append_assoc, hn', List.cons_append, hbr]
                      rcases numStep_cases c (n' ++ (u ++ d :: ds)) hdg with ⟨_, h0, _⟩ | ⟨x, es, h0, hx, h00, _⟩ | ⟨_, _, h2⟩
                      · simp at h0
                      · exfalso; apply hnot
                        refine ⟨h0, ?_⟩
                        rw [h00]
                        rcases hx with rfl | rfl <;> simp
                      · rw [h2, ← List.cons_append, ← hn', hagain]
                        cases hud : u ++ d :: ds with
                        | nil => simp at hud
                        | cons a as =>
                          simp only
                          rw [← hud, hsuf]
                · split at h
                  · cases h
                  · split at h <;> cases h

theorem token_head {t : Tok} (ht : IsToken t) : ∃ c n, t.name = c :: n ∧ isPySpace c = false := by
  obtain ⟨s, r, h⟩ := ht
  obtain ⟨_, h2, c, h3, h4⟩ := step1_emit h
  cases hn : t.name with
  | nil => exact absurd hn h2
  | cons x xs => rw [hn] at h3; simp at h3; subst h3; exact ⟨_, _, rfl, h4⟩

theorem dropWhile_append_space {w s : Str} (h : ∀ c ∈ w, isPySpace c = true) :
    (w ++ s).dropWhile isPySpace = s.dropWhile isPySpace := by
  induction w with
  | nil => rfl
  | cons c cs ih =>
    rw [List.cons_append, List.dropWhile_cons_of_pos (h c (by simp))]
    exact ih (fun x hx => h x (List.mem_cons_of_mem _ hx))

theorem loop_layout (src : Str) (ps : List (Tok × Str)) (h : Apart ps) :
    ∀ (w : Str) (fuel : Nat) (acc : List Tok), (∀ c ∈ w, isPySpace c = true) →
      ps.length < fuel →
      loop src fuel (w ++ layout ps) acc = .done (acc ++ ps.map (·.1)) := by
  induction ps with
  | nil =>
    intro w fuel acc hw hf
    cases fuel with
    | zero => omega
    | succ f =>
      unfold loop
      have : step (w ++ layout []) = .stop := by
        unfold step
        rw [dropWhile_append_space hw]
        rfl
      rw [this]; simp
  | cons p ps ih =>
    obtain ⟨t, v⟩ := p
    obtain ⟨hv, ht, ⟨d, ds, hd, hfu⟩, hps⟩ := h
    intro w fuel acc hw hf
    cases fuel with
    | zero => omega
    | succ f =>
      unfold loop
      have : step (w ++ layout ((t, v) :: ps)) = .emit t (v ++ layout ps) := by
        unfold step
        rw [dropWhile_append_space hw]
        simp only [layout]
        rw [List.append_assoc, hd]
        obtain ⟨c, n, hn, hc⟩ := token_head ht
        have : (t.name ++ d :: ds).dropWhile isPySpace = t.name ++ d :: ds := by
          rw [hn, List.cons_append, List.dropWhile_cons_of_neg (by simp [hc])]
        rw [this, step1_again ht hfu]
      rw [this]
      simp only
      rw [ih hps v f (acc ++ [t]) hv (by simp at hf; omega)]
      simp

/-- C12/C14 (spacing): however the tokens are laid out — any amount of any white space before,
between and after them, or none where two neighbours cannot fuse — tokenizing the text gives back
exactly these tokens. -/
theorem C14_tokens_independent_of_spacing (w : Str) (ps : List (Tok × Str))
    (hw : ∀ c ∈ w, isPySpace c = true) (h : Apart ps) :
    getTokens (w ++ layout ps) = .done (ps.map (·.1)) := by
  unfold getTokens getTokensFuel
  have hlen : ps.length ≤ (layout ps).length := by
    clear hw
    induction ps with
    | nil => simp
    | cons p ps ih =>
      obtain ⟨t, v⟩ := p
      obtain ⟨c, n, hn, _⟩ := token_head h.2.1
      have := ih h.2.2.2
      simp [layout, hn]; omega
  have := loop_layout (w ++ layout ps) ps h w ((w ++ layout ps).length + 1) [] hw
    (by simp; omega)
  simpa using this

/-- Non-vacuity: `const T<` with odd spacing. -/
example : Apart [(⟨.name, "const".toList⟩, " \t ".toList), (⟨.name, ['T']⟩, []), (⟨.syntax_, ['<']⟩, ['\n'])] := by
  refine ⟨by decide, ⟨"const ".toList, [' '], by decide⟩, ⟨' ', _, rfl, by decide⟩, ?_⟩
  refine ⟨by decide, ⟨"T ".toList, [' '], by decide⟩, ⟨'<', _, rfl, by decide⟩, ?_⟩
  exact ⟨by decide, ⟨"< ".toList, [' '], by decide⟩, ⟨'\n', _, rfl, by decide⟩, trivial⟩

end Verif.CType
