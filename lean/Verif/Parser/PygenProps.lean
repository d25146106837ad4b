import Verif.Parser.Pygen
import Mathlib.Tactic.Ring

/-!
# C85: reading back what a script says
-/
namespace Verif.Pygen
open Verif

/-! ## Strings -/

theorem hexVal_digit {d : Nat} (h : d < 16) : hexVal (hexDigit d) = some d := by
  have : ∀ d : Fin 16, hexVal (hexDigit d.1) = some d.1 := by decide
  exact this ⟨d, h⟩

theorem readHex_text (w : Nat) : ∀ (a n : Nat) (rest : Str),
    readHex w a (hexText w n ++ rest) = some (a * 16 ^ w + n % 16 ^ w, rest) := by
  induction w with
  | zero => intro a n rest; simp [readHex, hexText, Nat.mod_one]
  | succ w ih =>
    intro a n rest
    simp only [hexText, List.cons_append, readHex]
    rw [hexVal_digit (Nat.mod_lt _ (by decide))]
    simp only [Option.bind_some]
    rw [ih]
    congr 2
    rw [Nat.pow_succ, Nat.mod_mul]
    ring_nf

theorem char_lt (c : Char) : c.toNat < 16 ^ 8 := by
  have := c.valid
  have h : c.toNat < 0x110000 := by
    rcases this with h | h
    · exact Nat.lt_trans h (by decide)
    · exact h.2
  omega

theorem readEscape_hex {c : Char} {w : Nat} (h : c.toNat < 16 ^ w) (rest : Str) :
    (readHex w 0 (hexText w c.toNat ++ rest)).map (fun p => (Char.ofNat p.1, p.2)) = some (c, rest) := by
  rw [readHex_text, Nat.mod_eq_of_lt h]
  simp

theorem readStr_char (pr : Char → Bool) {q : Char} (hq : q = '\'' ∨ q = '"') (c : Char) (n : Nat) (s : Str) :
    readStr q (n + 1) (reprChar pr q c ++ s) = (readStr q n s).map (fun r => (c :: r.1, r.2)) := by
  have hb : ¬ ('\\' = q) := by rcases hq with rfl | rfl <;> decide
  have esc : ∀ (t : Str) (u : Str), readEscape (t ++ u) = some (c, u) →
      readStr q (n + 1) ('\\' :: (t ++ u)) = (readStr q n u).map (fun r => (c :: r.1, r.2)) := by
    intro t u h
    rw [readStr, if_neg hb, if_pos rfl, h]
    rfl
  unfold reprChar
  split
  · rename_i h
    rcases h with rfl | rfl
    · rcases hq with rfl | rfl <;> exact esc [_] s rfl
    · exact esc ['\\'] s rfl
  · rename_i h
    simp only [not_or] at h
    split
    · rename_i h; subst h; exact esc ['t'] s rfl
    split
    · rename_i h; subst h; exact esc ['n'] s rfl
    split
    · rename_i h; subst h; exact esc ['r'] s rfl
    split
    · refine esc ('x' :: hexText 2 c.toNat) s (readEscape_hex ?_ s)
      omega
    split
    · rename_i hn _ _ _
      rw [List.singleton_append, readStr, if_neg h.1, if_neg h.2, if_neg hn]
    split
    · refine esc ('x' :: hexText 2 c.toNat) s (readEscape_hex ?_ s)
      omega
    split
    · refine esc ('u' :: hexText 4 c.toNat) s (readEscape_hex ?_ s)
      omega
    · exact esc ('U' :: hexText 8 c.toNat) s (readEscape_hex (char_lt c) s)

theorem readStr_text (pr : Char → Bool) {q : Char} (hq : q = '\'' ∨ q = '"') : ∀ (s : Str) (n : Nat) (rest : Str),
    s.length < n → readStr q n (s.flatMap (reprChar pr q) ++ q :: rest) = some (s, rest)
  | [], n + 1, rest, _ => by simp [readStr]
  | c :: s, n + 1, rest, h => by
    rw [List.flatMap_cons, List.append_assoc, readStr_char pr hq, readStr_text pr hq s n rest (by simpa using h)]
    rfl

theorem reprChar_length (pr : Char → Bool) (q c : Char) : 1 ≤ (reprChar pr q c).length := by
  unfold reprChar
  repeat' split
  all_goals simp

theorem flatMap_length (pr : Char → Bool) (q : Char) (s : Str) : s.length ≤ (s.flatMap (reprChar pr q)).length := by
  induction s with
  | nil => simp
  | cons c s ih =>
    rw [List.flatMap_cons, List.length_append, List.length_cons]
    have := reprChar_length pr q c
    omega

/-- The quote `repr` chooses. -/
theorem quote_cases (s : Str) : (if s.contains '\'' && !s.contains '"' then '"' else '\'') = '\'' ∨
    (if s.contains '\'' && !s.contains '"' then '"' else '\'') = '"' := by
  split
  · exact Or.inr rfl
  · exact Or.inl rfl

/-- What `repr` writes is read back. -/
theorem readLit_repr (pr : Char → Bool) (s rest : Str) : readLit (reprStr pr s ++ rest) = some (s, rest) := by
  unfold reprStr
  generalize hq : (if s.contains '\'' && !s.contains '"' then '"' else '\'') = q
  have hq' : q = '\'' ∨ q = '"' := hq ▸ quote_cases s
  simp only [List.cons_append, List.append_assoc, List.nil_append, readLit]
  rw [if_pos hq', readStr_text pr hq']
  have := flatMap_length pr q s
  rw [List.length_append]
  omega

theorem reprStr_head (pr : Char → Bool) (s : Str) :
    ∃ q r, reprStr pr s = q :: r ∧ (q = '\'' ∨ q = '"') := ⟨_, _, rfl, quote_cases s⟩

/-! ## Expressions -/

/-- A name, possibly dotted. -/
def Ident (s : Str) : Prop := s.head?.any identStart = true ∧ ∀ c ∈ s, identChar c = true

mutual
def E.WF : E → Prop
  | .name n => Ident n
  | .int _ => True
  | .str _ => True
  | .list es => es.WF
  | .tuple es => es.WF
  | .call f es => Ident f ∧ es.WF
  | .index f _ => Ident f
  | .meth o _ f es => Ident o ∧ (∀ c ∈ f, identChar c = true) ∧ es.WF

def Es.WF : Es → Prop
  | .nil => True
  | .cons pre k e rest => (∀ c ∈ pre, isPySpace c = true) ∧ (∀ n, k = some n → Ident n) ∧ e.WF ∧ rest.WF
end

mutual
def E.size : E → Nat
  | .list es => 1 + es.size
  | .tuple es => 1 + es.size
  | .call _ es => 1 + es.size
  | .meth _ _ _ es => 1 + es.size
  | _ => 1

def Es.size : Es → Nat
  | .nil => 1
  | .cons _ _ e rest => 2 + e.size + rest.size
end

/-- The text after an expression. -/
def Stop (s : Str) : Prop := ∀ c, s.head? = some c → c = ',' ∨ c = ')' ∨ c = ']' ∨ c = '\n'

theorem takeWhile_all {p : Char → Bool} {s t : Str} (h : ∀ c ∈ s, p c = true) (ht : t.head?.any p = false) :
    (s ++ t).takeWhile p = s ∧ (s ++ t).dropWhile p = t := by
  have h1 : t.takeWhile p = [] := by
    cases t with
    | nil => rfl
    | cons x t => rw [List.takeWhile_cons_of_neg]; simpa using ht
  have h2 : t.dropWhile p = t := by
    cases t with
    | nil => rfl
    | cons x t => rw [List.dropWhile_cons_of_neg]; simpa using ht
  rw [List.takeWhile_append_of_pos h, List.dropWhile_append_of_pos h, h1, h2]
  simp

theorem stop_ident {s : Str} (h : Stop s) : s.head?.any identChar = false := by
  cases s with
  | nil => rfl
  | cons c s => rcases h c rfl with rfl | rfl | rfl | rfl <;> rfl

theorem stop_digit {s : Str} (h : Stop s) : s.head?.any Char.isDigit = false := by
  cases s with
  | nil => rfl
  | cons c s => rcases h c rfl with rfl | rfl | rfl | rfl <;> rfl

theorem ident_cons {f : Str} (h : Ident f) : ∃ c r, f = c :: r ∧ identStart c = true := by
  obtain ⟨h, -⟩ := h
  cases f with
  | nil => simp at h
  | cons c r => exact ⟨c, r, rfl, by simpa using h⟩

/-- Letters are none of the other characters an expression may start with. -/
theorem start_facts {c : Char} (h : identStart c = true) :
    ¬ (c = '\'' ∨ c = '"') ∧ c ≠ '[' ∧ c ≠ '-' ∧ c.isDigit = false ∧ isPySpace c = false ∧ c ≠ ']' ∧ c ≠ ')' := by
  refine ⟨?_, ?_, ?_, ?_, ?_, ?_, ?_⟩
  · rintro (rfl | rfl) <;> revert h <;> decide
  · rintro rfl; revert h; decide
  · rintro rfl; revert h; decide
  · cases hd : c.isDigit with
    | false => rfl
    | true =>
      exfalso
      unfold identStart at h
      simp only [Char.isDigit, Char.isAlpha, Char.isUpper, Char.isLower, Bool.and_eq_true, Bool.or_eq_true,
        decide_eq_true_eq] at hd h
      rcases h with (h | h) | rfl
      · have h1 := UInt32.le_iff_toNat_le.mp hd.2
        have h2 := UInt32.le_iff_toNat_le.mp h.1
        simp at h1 h2
        omega
      · have h1 := UInt32.le_iff_toNat_le.mp hd.2
        have h2 := UInt32.le_iff_toNat_le.mp h.1
        simp at h1 h2
        omega
      · revert hd; decide
  · cases hd : isPySpace c with
    | false => rfl
    | true =>
      exfalso
      have : ∀ x ∈ pySpaces, identStart x = false := by decide
      have hx := this c (by simpa [isPySpace] using hd)
      rw [hx] at h
      cases h
  · rintro rfl; revert h; decide
  · rintro rfl; revert h; decide

/-- How reading a name goes on. -/
def afterName (n : Nat) (f r : Str) : Option (E × Str) :=
  match r with
  | '(' :: r => (readEs n ')' r).map (fun p => (.call f p.1, p.2))
  | '[' :: r =>
    match readLit r with
    | some (k, ']' :: '.' :: r') =>
      match r'.dropWhile identChar with
      | '(' :: r'' => (readEs n ')' r'').map (fun p => (.meth f k (r'.takeWhile identChar) p.1, p.2))
      | _ => none
    | some (k, ']' :: r') => some (.index f k, r')
    | _ => none
  | r => some (.name f, r)

theorem readE_name {f : Str} (h : Ident f) (n : Nat) {r : Str} (hr : r.head?.any identChar = false) :
    readE (n + 1) (f ++ r) = afterName n f r := by
  obtain ⟨c, t, rfl, hc⟩ := ident_cons h
  obtain ⟨s1, s2, s3, s4, -⟩ := start_facts hc
  obtain ⟨h1, h2⟩ := takeWhile_all h.2 hr
  rw [List.cons_append] at h1 h2 ⊢
  rw [readE, if_neg s1, if_neg s2, if_neg s3, if_neg (by rw [s4]; simp), if_pos hc]
  dsimp only
  rw [h1, h2]
  rfl

theorem afterName_name (n : Nat) (f : Str) {r : Str} (hr : Stop r) : afterName n f r = some (.name f, r) := by
  unfold afterName
  split
  · exact absurd (hr _ rfl) (by decide)
  · exact absurd (hr _ rfl) (by decide)
  · rfl

theorem space_ident {p : Str} (h : ∀ c ∈ p, isPySpace c = true) {t : Str} (ht : t.head?.any isPySpace = false) :
    (p ++ t).takeWhile isPySpace = p ∧ (p ++ t).dropWhile isPySpace = t := takeWhile_all h ht

theorem reprInt_cases (i : Int) : (∃ m, i = -((m : Nat) : Int) ∧ reprInt i = '-' :: natStr m) ∨
    (∃ m, i = ((m : Nat) : Int) ∧ reprInt i = natStr m) := by
  cases i with
  | ofNat n => exact Or.inr ⟨n, rfl, rfl⟩
  | negSucc n => exact Or.inl ⟨n + 1, by rw [Int.negSucc_eq]; push_cast; rfl, rfl⟩

theorem natStr_read (m : Nat) {r : Str} (hr : Stop r) :
    Nat.ofDigitChars 10 ((natStr m ++ r).takeWhile Char.isDigit) 0 = m ∧ (natStr m ++ r).dropWhile Char.isDigit = r := by
  obtain ⟨h1, h2⟩ := takeWhile_all (p := Char.isDigit) (s := natStr m) (fun c hc => isDigit_of_mem_natStr hc)
    (stop_digit hr)
  rw [h1, h2]
  exact ⟨by simp [natStr, Nat.ofDigitChars_ten_toDigits], rfl⟩

theorem digit_facts {c : Char} (h : c.isDigit = true) :
    ¬ (c = '\'' ∨ c = '"') ∧ c ≠ '[' ∧ c ≠ '-' ∧ identStart c = false ∧ isPySpace c = false ∧ c ≠ ']' ∧ c ≠ ')' := by
  refine ⟨?_, ?_, ?_, ?_, ?_, ?_, ?_⟩
  · rintro (rfl | rfl) <;> revert h <;> decide
  · rintro rfl; revert h; decide
  · rintro rfl; revert h; decide
  · cases hd : identStart c with
    | false => rfl
    | true => rw [(start_facts hd).2.2.2.1] at h; cases h
  · cases hd : isPySpace c with
    | false => rfl
    | true =>
      exfalso
      have : ∀ x ∈ pySpaces, x.isDigit = false := by decide
      have hx := this c (by simpa [isPySpace] using hd)
      rw [hx] at h
      cases h
  · rintro rfl; revert h; decide
  · rintro rfl; revert h; decide

/-- Facts about the start of an expression: it is no white space or closing bracket, and it is not taken for a
keyword. -/
theorem text_start (pr : Char → Bool) {e : E} (h : e.WF) {r : Str} (hr : Stop r) :
    ∃ c t, e.text pr ++ r = c :: t ∧ isPySpace c = false ∧ c ≠ ']' ∧ c ≠ ')' ∧
      (identStart c = true → ((c :: t).dropWhile identChar).head? ≠ some '=') := by
  have quoted : ∀ (s : Str), ∃ c t, reprStr pr s ++ r = c :: t ∧ isPySpace c = false ∧ c ≠ ']' ∧ c ≠ ')' ∧
      (identStart c = true → ((c :: t).dropWhile identChar).head? ≠ some '=') := by
    intro s
    obtain ⟨q, t, e, hq⟩ := reprStr_head pr s
    refine ⟨q, t ++ r, by rw [e]; rfl, ?_⟩
    rcases hq with rfl | rfl
    · exact ⟨by decide, by decide, by decide, fun h => absurd h (by decide)⟩
    · exact ⟨by decide, by decide, by decide, fun h => absurd h (by decide)⟩
  have named : ∀ (f u : Str), Ident f → u.head?.any identChar = false → u.head? ≠ some '=' →
      ∃ c t, f ++ u = c :: t ∧ isPySpace c = false ∧ c ≠ ']' ∧ c ≠ ')' ∧
      (identStart c = true → ((c :: t).dropWhile identChar).head? ≠ some '=') := by
    intro f u hf hu hu'
    obtain ⟨c, t, rfl, hc⟩ := ident_cons hf
    obtain ⟨-, -, -, -, h5, h6, h7⟩ := start_facts hc
    refine ⟨c, t ++ u, rfl, h5, h6, h7, fun _ => ?_⟩
    rw [show c :: (t ++ u) = (c :: t) ++ u from rfl, (takeWhile_all hf.2 hu).2]
    exact hu'
  cases e with
  | name n =>
    refine named n r h (stop_ident hr) ?_
    intro he
    rcases hr _ he with h | h | h | h <;> revert h <;> decide
  | int i =>
    rcases reprInt_cases i with ⟨m, -, e⟩ | ⟨m, -, e⟩
    · refine ⟨'-', natStr m ++ r, by simp [E.text, e], by decide, by decide, by decide, fun h => absurd h (by decide)⟩
    · cases hm : natStr m with
      | nil => exact absurd hm (natStr_ne_nil m)
      | cons c t =>
        have hc := isDigit_of_mem_natStr (n := m) (c := c) (by rw [hm]; exact List.mem_cons_self)
        obtain ⟨-, -, -, h4, h5, h6, h7⟩ := digit_facts hc
        refine ⟨c, t ++ r, by simp [E.text, e, hm], h5, h6, h7, fun h => ?_⟩
        rw [h4] at h
        cases h
  | str s => exact quoted s
  | list es =>
    exact ⟨'[', es.text pr ++ [']'] ++ r, by simp [E.text], by decide, by decide, by decide, fun h => absurd h (by decide)⟩
  | tuple es =>
    exact ⟨'(', es.text pr ++ [')'] ++ r, by simp [E.text], by decide, by decide, by decide, fun h => absurd h (by decide)⟩
  | call f es =>
    have := named f ('(' :: (es.text pr ++ [')'] ++ r)) h.1 (by rfl) (by simp)
    simpa [E.text] using this
  | index f s =>
    have := named f ('[' :: (reprStr pr s ++ [']'] ++ r)) h (by rfl) (by simp)
    simpa [E.text] using this
  | meth o s f es =>
    have := named o ('[' :: (reprStr pr s ++ ']' :: '.' :: f ++ '(' :: es.text pr ++ [')'] ++ r)) h.1 (by rfl) (by simp)
    simpa [E.text] using this

/-- The text of an argument up to the comma or bracket after it. -/
theorem item_split (pr : Char → Bool) {pre : Str} {k : Option Str} {e : E} (hp : ∀ c ∈ pre, isPySpace c = true)
    (hk : ∀ n, k = some n → Ident n) (he : e.WF) {r : Str} (hr : Stop r) :
    let s := pre ++ keyText k ++ e.text pr ++ r
    s.takeWhile isPySpace = pre ∧
    (let t := s.dropWhile isPySpace
     (if t.head?.any identStart ∧ (t.dropWhile identChar).head? = some '=' then
       (some (t.takeWhile identChar), (t.dropWhile identChar).drop 1) else (none, t)) = (k, e.text pr ++ r)) ∧
    ∀ close, close = ')' ∨ close = ']' → s.head? ≠ some close := by
  obtain ⟨c, t, e1, e2, e3, e4, e5⟩ := text_start pr he hr
  intro s
  cases k with
  | none =>
    have hs : s = pre ++ (c :: t) := by
      show pre ++ keyText none ++ e.text pr ++ r = _
      rw [keyText, List.append_nil, List.append_assoc, e1]
    obtain ⟨h1, h2⟩ := space_ident hp (t := c :: t) (by simpa using e2)
    rw [← hs] at h1 h2
    refine ⟨h1, ?_, ?_⟩
    · dsimp only
      rw [h2, if_neg, e1]
      rintro ⟨g1, g2⟩
      exact e5 (by simpa using g1) g2
    · intro close hclose
      rw [hs]
      cases pre with
      | nil =>
        simp only [List.nil_append, List.head?_cons, ne_eq, Option.some.injEq]
        rcases hclose with rfl | rfl
        · exact e4
        · exact e3
      | cons d p =>
        simp only [List.cons_append, List.head?_cons, ne_eq, Option.some.injEq]
        have := hp d List.mem_cons_self
        rintro rfl
        rcases hclose with rfl | rfl <;> revert this <;> decide
  | some n =>
    have hn := hk n rfl
    obtain ⟨d, u, hd, hd'⟩ := ident_cons hn
    obtain ⟨-, -, -, -, h5, h6, h7⟩ := start_facts hd'
    have hs : s = pre ++ (n ++ '=' :: (c :: t)) := by
      show pre ++ keyText (some n) ++ e.text pr ++ r = _
      rw [keyText, List.append_assoc, e1]
      simp
    obtain ⟨h1, h2⟩ := space_ident hp (t := n ++ '=' :: (c :: t)) (by rw [hd]; simpa using h5)
    rw [← hs] at h1 h2
    obtain ⟨g1, g2⟩ := takeWhile_all (p := identChar) (s := n) (t := '=' :: (c :: t)) hn.2 (by rfl)
    refine ⟨h1, ?_, ?_⟩
    · dsimp only
      rw [h2, g1, g2, if_pos, e1]
      · rfl
      · refine ⟨?_, rfl⟩
        rw [hd]
        simpa using hd'
    · intro close hclose
      rw [hs]
      cases pre with
      | nil =>
        rw [hd]
        simp only [List.nil_append, List.cons_append, List.head?_cons, ne_eq, Option.some.injEq]
        rcases hclose with rfl | rfl
        · exact h7
        · exact h6
      | cons d p =>
        simp only [List.cons_append, List.head?_cons, ne_eq, Option.some.injEq]
        have := hp d List.mem_cons_self
        rintro rfl
        rcases hclose with rfl | rfl <;> revert this <;> decide

theorem stop_tail (pr : Char → Bool) (rest : Es) {close : Char} (hc : close = ')' ∨ close = ']') (r : Str) :
    Stop (rest.tail pr ++ close :: r) := by
  intro c h
  cases rest with
  | nil =>
    simp only [Es.tail, List.nil_append, List.head?_cons, Option.some.injEq] at h
    subst h
    rcases hc with rfl | rfl
    · exact Or.inr (Or.inl rfl)
    · exact Or.inr (Or.inr (Or.inl rfl))
  | cons pre k e rest =>
    simp only [Es.tail, List.cons_append, List.head?_cons, Option.some.injEq] at h
    exact Or.inl h.symm

mutual
theorem readE_text (pr : Char → Bool) (e : E) (h : e.WF) (n : Nat) (hn : e.size ≤ n) (r : Str) (hr : Stop r) :
    readE n (e.text pr ++ r) = some (e, r) := by
  match e, n, h, hn with
  | .name f, n + 1, h, _ => rw [E.text, readE_name h n (stop_ident hr), afterName_name n f hr]
  | .name _, 0, _, hn => simp [E.size] at hn
  | .int i, 0, _, hn => simp [E.size] at hn
  | .int i, n + 1, _, _ =>
    rcases reprInt_cases i with ⟨m, hi, e⟩ | ⟨m, hi, e⟩
    · obtain ⟨h1, h2⟩ := natStr_read m hr
      rw [E.text, e, List.cons_append, readE, if_neg (by decide), if_neg (by decide), if_pos rfl, h1, h2, hi]
    · obtain ⟨h1, h2⟩ := natStr_read m hr
      rw [E.text, e]
      cases hm : natStr m with
      | nil => exact absurd hm (natStr_ne_nil m)
      | cons c t =>
        have hc := isDigit_of_mem_natStr (n := m) (c := c) (by rw [hm]; exact List.mem_cons_self)
        obtain ⟨f1, f2, f3, -⟩ := digit_facts hc
        rw [hm] at h1 h2
        rw [List.cons_append] at h1 h2 ⊢
        rw [readE, if_neg f1, if_neg f2, if_neg f3, if_pos hc, h1, h2, hi]
  | .str s, 0, _, hn => simp [E.size] at hn
  | .str s, n + 1, _, _ =>
    obtain ⟨q, t, e, hq⟩ := reprStr_head pr s
    have := readLit_repr pr s r
    rw [E.text]
    rw [e] at this ⊢
    rw [List.cons_append] at this ⊢
    rw [readE, if_pos hq, this]
    rfl
  | .list es, 0, _, hn => simp [E.size] at hn
  | .list es, n + 1, h, hn =>
    have hs : es.size ≤ n := by simp only [E.size] at hn; omega
    rw [E.text, List.append_assoc, List.cons_append, readE, if_neg (by decide), if_pos rfl, List.singleton_append,
      readEs_text pr es h n hs (Or.inr rfl) r]
    rfl
  | .tuple es, 0, _, hn => simp [E.size] at hn
  | .tuple es, n + 1, h, hn =>
    have hs : es.size ≤ n := by simp only [E.size] at hn; omega
    rw [E.text, List.append_assoc, List.cons_append, readE, if_neg (by decide), if_neg (by decide), if_neg (by decide),
      if_neg (by decide), if_neg (by decide), if_pos rfl, List.singleton_append,
      readEs_text pr es h n hs (Or.inl rfl) r]
    rfl
  | .call f es, 0, _, hn => simp [E.size] at hn
  | .call f es, n + 1, h, hn =>
    have hs : es.size ≤ n := by simp only [E.size] at hn; omega
    have := readEs_text pr es h.2 n hs (Or.inl rfl) r
    rw [E.text]
    simp only [List.append_assoc, List.cons_append, List.singleton_append, List.nil_append]
    rw [readE_name h.1 n (by rfl)]
    simp only [afterName]
    rw [this]
    rfl
  | .index f s, 0, _, hn => simp [E.size] at hn
  | .index f s, n + 1, h, hn =>
    rw [E.text]
    simp only [List.append_assoc, List.cons_append, List.singleton_append, List.nil_append]
    rw [readE_name h n (by rfl)]
    simp only [afterName]
    rw [readLit_repr]
    cases r with
    | nil => rfl
    | cons c t => rcases hr c rfl with rfl | rfl | rfl | rfl <;> rfl
  | .meth o s f es, 0, _, hn => simp [E.size] at hn
  | .meth o s f es, n + 1, h, hn =>
    have hs : es.size ≤ n := by simp only [E.size] at hn; omega
    have := readEs_text pr es h.2.2 n hs (Or.inl rfl) r
    rw [E.text]
    simp only [List.append_assoc, List.cons_append, List.singleton_append, List.nil_append]
    rw [readE_name h.1 n (by rfl)]
    simp only [afterName]
    rw [readLit_repr]
    obtain ⟨h1, h2⟩ := takeWhile_all (p := identChar) (s := f) (t := '(' :: (es.text pr ++ ')' :: r)) h.2.1 (by rfl)
    simp only [h1, h2, this]
    rfl

theorem readEs_text (pr : Char → Bool) (es : Es) (h : es.WF) (n : Nat) (hn : es.size ≤ n) {close : Char}
    (hc : close = ')' ∨ close = ']') (r : Str) : readEs n close (es.text pr ++ close :: r) = some (es, r) := by
  match es, n, h, hn with
  | .nil, 0, _, hn => simp [Es.size] at hn
  | .nil, n + 1, _, _ =>
    rw [Es.text, List.nil_append, readEs, if_pos (by simp)]
    rfl
  | .cons pre k e rest, 0, _, hn => simp [Es.size] at hn
  | .cons pre k e rest, n + 1, h, hn =>
    have hs := item_split pr h.1 h.2.1 h.2.2.1 (stop_tail pr rest hc r)
    rw [readEs, Es.text]
    rw [if_neg (by
      rw [List.append_assoc]
      exact hs.2.2 close hc)]
    have := readItem_text pr pre k e rest h n (by simp only [Es.size] at hn; omega) hc r
    exact this

theorem readItem_text (pr : Char → Bool) (pre : Str) (k : Option Str) (e : E) (rest : Es) (h : (Es.cons pre k e rest).WF)
    (n : Nat) (hn : 1 + e.size + rest.size ≤ n) {close : Char}
    (hc : close = ')' ∨ close = ']') (r : Str) :
    readItem n close (pre ++ keyText k ++ e.text pr ++ rest.tail pr ++ close :: r) = some (.cons pre k e rest, r) := by
  match n, hn with
  | 0, hn => omega
  | n + 1, hn =>
    obtain ⟨h1, h2, h3, h4⟩ := h
    have hstop := stop_tail pr rest hc r
    obtain ⟨s1, s2, -⟩ := item_split pr h1 h2 h3 hstop
    rw [List.append_assoc, readItem]
    dsimp only at s2 ⊢
    rw [s2, s1]
    dsimp only
    rw [readE_text pr e h3 n (by omega) _ hstop]
    dsimp only
    match rest, hn, h4 with
    | .nil, _, _ =>
      rw [Es.tail, List.nil_append]
      dsimp only
      rw [if_pos rfl]
    | .cons pre' k' e' rest', hn, h4 =>
      rw [Es.tail, List.cons_append]
      dsimp only
      rw [if_neg (by rcases hc with rfl | rfl <;> decide), if_pos rfl,
        readItem_text pr pre' k' e' rest' h4 n (by simp only [Es.size] at hn; omega) hc r]
      rfl
end

end Verif.Pygen
