import Verif.Docs.Model
import Verif.Overload.Props
import Mathlib.Data.List.Perm.Basic
import Mathlib.Data.List.TakeWhile

/-!
# C111: Python shows the docstrings
-/
namespace Verif.Docs
open Verif

/-- A character that stands for itself in a C string literal. -/
def Plain (c : Char) : Prop := c ≠ '"' ∧ c ≠ '\\' ∧ c ≠ '\n' ∧ c ≠ Char.ofNat 0

/-! ## The lexer -/

theorem plainStep_plain {c : Char} (h : Plain c) : plainStep c = ([c], .go .normal) := by
  unfold plainStep
  rw [if_neg h.1, if_neg h.2.2.1, if_neg h.2.1]

theorem literal_plain {d : Str} (h : ∀ c ∈ d, Plain c) (t : Str) :
    literal .normal (d ++ t) = (literal .normal t).map (fun x => (d ++ x.1, x.2)) := by
  induction d with
  | nil => simp
  | cons c d ih =>
    have hc := plainStep_plain (h c List.mem_cons_self)
    rw [List.cons_append, literal, show litStep .normal c = plainStep c from rfl, hc]
    simp only
    rw [ih (fun x hx => h x (List.mem_cons_of_mem _ hx))]
    cases literal .normal t <;> simp

theorem literal_quote (t : Str) : literal .normal ('"' :: t) = some ([], t) := by
  simp [literal, litStep, plainStep]

theorem literal_bsn (t : Str) :
    literal .normal (bsn ++ t) = (literal .normal t).map (fun x => ('\n' :: x.1, x.2)) := by
  simp only [bsn, List.cons_append, List.nil_append, literal, litStep, plainStep, escStep]
  simp only [show ('\\' : Char) ≠ '"' by decide, show ('\\' : Char) ≠ '\n' by decide, if_false, if_true]
  cases literal .normal t <;> rfl

/-- What one character of the text adds: at most one character and what was still being read. -/
def pending : Mode → Nat
  | .normal => 0
  | _ => 1

/-- The step adds no more than one character to the `k` that are due. -/
def Bound (k : Nat) (p : Str × Next) : Prop :=
  match p.2 with
  | .stop => p.1.length ≤ k
  | .bad => True
  | .go m => p.1.length + pending m ≤ 1 + k

theorem plainStep_len (c : Char) : Bound 0 (plainStep c) := by
  unfold plainStep
  split
  · exact Nat.le_refl _
  · split
    · trivial
    · split
      · exact Nat.le_refl _
      · exact Nat.le_refl _

/-- The step is not the end and adds no more than one character. -/
def EscBound (p : Str × Next) : Prop :=
  match p.2 with
  | .stop => False
  | .bad => True
  | .go m => p.1.length + pending m ≤ 1

theorem escStep_len (c : Char) : EscBound (escStep c) := by
  unfold escStep
  repeat' split
  all_goals first | trivial | exact Nat.le_refl _ | exact Nat.zero_le _

theorem Bound.cons {p : Str × Next} (h : Bound 0 p) (c : Char) : Bound 1 (c :: p.1, p.2) := by
  obtain ⟨e, n⟩ := p
  cases n with
  | stop => have : e.length ≤ 0 := h; show e.length + 1 ≤ 1; omega
  | bad => trivial
  | go m => have : e.length + pending m ≤ 1 + 0 := h; show e.length + 1 + pending m ≤ 1 + 1; omega

theorem litStep_len (m : Mode) (c : Char) : Bound (pending m) (litStep m c) := by
  cases m with
  | normal => exact plainStep_len c
  | esc =>
    have := escStep_len c
    show Bound 1 (escStep c)
    generalize escStep c = p at this
    obtain ⟨e, n⟩ := p
    cases n with
    | stop => exact this.elim
    | bad => trivial
    | go m => have : e.length + pending m ≤ 1 := this; show e.length + pending m ≤ 1 + 1; omega
  | oct k v =>
    simp only [litStep]
    cases (if k < 3 then octDigit c else none) with
    | some d => exact Nat.le_succ _
    | none => exact (plainStep_len c).cons _
  | hex0 =>
    simp only [litStep]
    cases hexDigit c with
    | some d => exact Nat.le_succ _
    | none => trivial
  | hex v =>
    simp only [litStep]
    cases hexDigit c with
    | some d => exact Nat.le_succ _
    | none => exact (plainStep_len c).cons _

/-- A literal has at most as many characters as its text. -/
theorem literal_len : ∀ (t : Str) (m : Mode) (v r : Str), literal m t = some (v, r) →
    v.length + r.length + 1 ≤ t.length + pending m
  | [], _, _, _, h => by cases h
  | c :: t, m, v, r, h => by
    have hl := litStep_len m c
    rw [literal] at h
    cases hs : (litStep m c).2 with
    | stop =>
      unfold Bound at hl
      rw [hs] at h hl
      simp only [Option.some.injEq, Prod.mk.injEq] at h hl
      obtain ⟨rfl, rfl⟩ := h
      simp only [List.length_cons]; omega
    | bad => rw [hs] at h; cases h
    | go m' =>
      unfold Bound at hl
      rw [hs] at h hl
      simp only [Option.map_eq_some_iff, Prod.mk.injEq] at h hl
      obtain ⟨⟨x, y⟩, hx, rfl, rfl⟩ := h
      have := literal_len t m' x y hx
      simp only [List.length_cons, List.length_append]; omega

theorem cstring_len (v : Str) : (cstring v).length ≤ v.length := (List.takeWhile_prefix _).length_le

theorem cstring_plain {d : Str} (h : ∀ c ∈ d, Plain c) : cstring d = d := by
  unfold cstring
  rw [List.takeWhile_eq_self_iff]
  intro c hc
  simpa using (h c hc).2.2.2

/-- **C111, what a C string literal shows.**  Between quotes, a docstring is read as itself exactly when it has
no quotes, backslashes, line ends or null characters. -/
theorem C111_literal_exact (d rest : Str) :
    readDoc (docText (some d) ++ rest) = some (some d, rest) ↔ ∀ c ∈ d, Plain c := by
  have hread : readDoc (docText (some d) ++ rest) =
      (literal .normal (d ++ '"' :: rest)).map (fun x => (some (cstring x.1), x.2)) := by
    have : docText (some d) ++ rest = '"' :: (d ++ '"' :: rest) := by simp [docText]
    rw [this]
    rfl
  rw [hread]
  constructor
  · intro h
    simp only [Option.map_eq_some_iff, Prod.mk.injEq, Option.some.injEq] at h
    obtain ⟨⟨v, r⟩, hv, h1, h2⟩ := h
    simp only at h1 h2
    subst h2
    -- the first character that is not plain
    clear hread
    have key : ∀ (d v : Str), literal .normal (d ++ '"' :: r) = some (v, r) → d.length ≤ v.length →
        ∀ c ∈ d, c ≠ '"' ∧ c ≠ '\\' ∧ c ≠ '\n' := by
      intro d
      induction d with
      | nil => intro v _ _ c hc; cases hc
      | cons c d ih =>
        intro v hv hl
        by_cases h1 : c = '"'
        · exfalso
          subst h1
          rw [List.cons_append, literal_quote] at hv
          have := congrArg (fun x : Option (Str × Str) => x.elim 0 (fun y => y.2.length)) hv
          simp only [Option.elim, List.length_append, List.length_cons] at this
          omega
        by_cases h2 : c = '\n'
        · exfalso
          subst h2
          simp [literal, litStep, plainStep] at hv
        by_cases h3 : c = '\\'
        · exfalso
          subst h3
          have e : literal .normal ('\\' :: (d ++ '"' :: r)) = (literal .esc (d ++ '"' :: r)).map (fun x => ([] ++ x.1, x.2)) := by
            simp [literal, litStep, plainStep]
          rw [List.cons_append, e] at hv
          simp only [Option.map_eq_some_iff, Prod.mk.injEq, List.nil_append] at hv
          obtain ⟨⟨x, y⟩, hx, rfl, rfl⟩ := hv
          -- after a backslash one character is read without adding more than one
          match d, hx, hl with
          | [], hx, _ =>
            simp only [List.nil_append, literal, litStep, escStep] at hx
            simp only [show ('"' : Char) ≠ 'n' by decide, show ('"' : Char) ≠ 't' by decide, show ('"' : Char) ≠ 'r' by decide,
              show ('"' : Char) ≠ 'a' by decide, show ('"' : Char) ≠ 'b' by decide, show ('"' : Char) ≠ 'f' by decide,
              show ('"' : Char) ≠ 'v' by decide, if_false, true_or, or_true, if_true] at hx
            simp only [Option.map_eq_some_iff, Prod.mk.injEq] at hx
            obtain ⟨⟨p, q⟩, hp, _, hq⟩ := hx
            have := literal_len _ _ _ _ hp
            simp only [pending] at this
            simp only at hq
            rw [hq] at this
            omega
          | b :: d', hx, hl =>
            have hl' := litStep_len .esc b
            rw [List.cons_append, literal] at hx
            cases hs : (litStep .esc b).2 with
            | stop =>
              have := escStep_len b
              unfold EscBound at this
              rw [show litStep .esc b = escStep b from rfl] at hs
              rw [hs] at this
              exact this
            | bad => rw [hs] at hx; cases hx
            | go m' =>
              have he := escStep_len b
              unfold EscBound at he
              rw [show litStep .esc b = escStep b from rfl] at hs hx
              rw [hs] at hx he
              simp only [Option.map_eq_some_iff, Prod.mk.injEq] at hx he
              obtain ⟨⟨p, q⟩, hp, hpx, hq⟩ := hx
              have := literal_len _ _ _ _ hp
              simp only at hq hpx
              rw [← hpx] at hl
              simp only [List.length_append, List.length_cons] at this hl
              rw [hq] at this
              omega
        · have hp : plainStep c = ([c], .go .normal) := by
            unfold plainStep; rw [if_neg h1, if_neg h2, if_neg h3]
          rw [List.cons_append, literal, show litStep .normal c = plainStep c from rfl, hp] at hv
          simp only [Option.map_eq_some_iff, Prod.mk.injEq] at hv
          obtain ⟨⟨x, y⟩, hx, rfl, rfl⟩ := hv
          intro b hb
          rcases List.mem_cons.1 hb with rfl | hb
          · exact ⟨h1, h3, h2⟩
          · exact ih x hx (by simpa using hl) b hb
    have hlen : d.length ≤ v.length := by rw [← h1]; exact cstring_len v
    have hk := key d v hv hlen
    intro c hc
    refine ⟨(hk c hc).1, (hk c hc).2.1, (hk c hc).2.2, ?_⟩
    -- a C string has no null character
    have : c ∈ cstring v := by rw [h1]; exact hc
    have := List.mem_takeWhile_imp this
    simpa using this
  · intro h
    rw [literal_plain h, literal_quote]
    simp [cstring_plain h]

theorem readDoc_some {d : Str} (h : ∀ c ∈ d, Plain c) (rest : Str) :
    readDoc (docText (some d) ++ rest) = some (some d, rest) := (C111_literal_exact d rest).2 h

/-! ## Generated docstrings -/

/-- What is read from a text is `v`. -/
def Reads (t v : Str) : Prop :=
  ∀ r, literal .normal (t ++ r) = (literal .normal r).map (fun x => (v ++ x.1, x.2))

theorem Reads.plain {d : Str} (h : ∀ c ∈ d, Plain c) : Reads d d := literal_plain h

theorem Reads.append {t v t' v' : Str} (h : Reads t v) (h' : Reads t' v') : Reads (t ++ t') (v ++ v') := by
  intro r
  rw [List.append_assoc, h, h', Option.map_map]
  cases literal .normal r <;> simp

theorem Reads.bsn : Reads bsn ['\n'] := literal_bsn

theorem Reads.nil : Reads [] [] := by intro r; cases h : literal .normal r <;> simp [h]

theorem Reads.join {s s' : Str} (hs : Reads s s') : ∀ {xs : List Str}, (∀ x ∈ xs, Reads x x) →
    Reads (join s xs) (join s' xs)
  | [], _ => Reads.nil
  | [x], h => h x (by simp)
  | x :: y :: xs, h =>
    (h x List.mem_cons_self).append
      (hs.append (Reads.join hs (xs := y :: xs) (fun z hz => h z (List.mem_cons_of_mem _ hz))))

theorem Reads.doc {t v : Str} (h : Reads t v) (rest : Str) :
    readDoc (docText (some t) ++ rest) = some (some (cstring v), rest) := by
  have : docText (some t) ++ rest = '"' :: (t ++ '"' :: rest) := by simp [docText]
  rw [this]
  show (literal .normal (t ++ '"' :: rest)).map _ = _
  rw [h, literal_quote]
  simp

/-- Every character of the text is plain. -/
def PlainText (d : Str) : Prop := ∀ c ∈ d, Plain c

theorem PlainText.append {a b : Str} (ha : PlainText a) (hb : PlainText b) : PlainText (a ++ b) := by
  intro c hc
  rcases List.mem_append.1 hc with h | h
  · exact ha c h
  · exact hb c h

instance (c : Char) : Decidable (Plain c) := by unfold Plain; infer_instance
instance (d : Str) : Decidable (PlainText d) := by unfold PlainText; infer_instance

theorem PlainText.join {s : Str} (hs : PlainText s) : ∀ {xs : List Str}, (∀ x ∈ xs, PlainText x) → PlainText (join s xs)
  | [], _ => nofun
  | [x], h => h x (by simp)
  | x :: y :: xs, h => by
    have := PlainText.join hs (xs := y :: xs) (fun z hz => h z (List.mem_cons_of_mem _ hz))
    exact (h x List.mem_cons_self).append (hs.append this)

theorem plain_signature {name : Str} {ps : List Param} (hn : PlainText name) (hp : ∀ p ∈ ps, PlainText p.name) :
    PlainText (signature name ps) := by
  refine hn.append (PlainText.append (by decide) (PlainText.append ?_ (by decide)))
  refine PlainText.join (by decide) (fun x hx => ?_)
  obtain ⟨p, hm, rfl⟩ := List.mem_map.1 hx
  exact hp p hm

theorem plain_typeLine {p : Param} (hn : PlainText p.name) (ht : PlainText p.ctype) : PlainText (typeLine p) :=
  PlainText.append (by decide) (hn.append (PlainText.append (by decide) ht))

/-! ## Specification -/

/-- What Python shows for a function without docstring: how it is called, and the types of its parameters. -/
def shownSignature (name : Str) (ps : List Param) : Str :=
  signature name ps ++ "\n\n".toList ++ join "\n".toList (ps.map typeLine)

/-- Names and types without quotes, backslashes, line ends and null characters. -/
def PlainParams (ps : List Param) : Prop := ∀ p ∈ ps, PlainText p.name ∧ PlainText p.ctype

theorem reads_generated {name : Str} {ps : List Param} (hn : PlainText name) (hp : PlainParams ps) :
    Reads (generateDocstring name ps) (shownSignature name ps) := by
  have h1 : Reads (signature name ps) (signature name ps) := Reads.plain (plain_signature hn (fun p h => (hp p h).1))
  have h2 : Reads (join bsn (ps.map typeLine)) (join ['\n'] (ps.map typeLine)) := by
    refine Reads.join Reads.bsn (fun x hx => ?_)
    obtain ⟨q, hq, rfl⟩ := List.mem_map.1 hx
    exact Reads.plain (plain_typeLine (hp q hq).1 (hp q hq).2)
  have h := h1.append (Reads.bsn.append (Reads.bsn.append h2))
  have e : shownSignature name ps = signature name ps ++ (['\n'] ++ (['\n'] ++ join ['\n'] (ps.map typeLine))) := by
    simp [shownSignature]
  rw [e]
  exact h

/-! ## Entries of method tables -/

theorem expect_append (p t : Str) : expect p (p ++ t) = some t := by
  unfold expect
  rw [if_pos (List.isPrefixOf_iff_prefix.2 (List.prefix_append p t)), List.drop_left]

theorem word_append {w : Str} (h : ',' ∉ w) (t : Str) :
    (w ++ (", ".toList ++ t)).takeWhile (· ≠ ',') = w ∧
    (w ++ (", ".toList ++ t)).dropWhile (· ≠ ',') = ", ".toList ++ t := by
  have hw : ∀ c ∈ w, decide (c ≠ ',') = true := by
    intro c hc; simp only [ne_eq, decide_not, Bool.not_eq_true', decide_eq_false_iff_not]
    intro e; exact h (e ▸ hc)
  constructor
  · rw [List.takeWhile_append_of_pos hw]
    show w ++ [] = w
    simp
  · rw [List.dropWhile_append_of_pos hw]
    rfl

theorem readEntry_text {name function flags : Str} {doc shown : Option Str} (hn : PlainText name)
    (hf : ',' ∉ function) (hg : ',' ∉ flags)
    (hd : readDoc (docText doc ++ " },".toList) = some (shown, " },".toList)) :
    readEntry (entryText name function flags doc) = some ⟨name, function, flags, shown⟩ := by
  unfold readEntry entryText
  rw [expect_append]
  have hq : ∀ t, literal .normal (name ++ ("\"".toList ++ t)) = some (name, t) := by
    intro t
    rw [literal_plain hn, show ("\"".toList ++ t) = '"' :: t from rfl, literal_quote]
    simp
  simp only [Option.bind_eq_bind, Option.bind_some, hq, expect_append, (word_append hf _).1, (word_append hf _).2,
    (word_append hg _).1, (word_append hg _).2, hd]
  rw [show expect " },".toList " },".toList = some [] from rfl]
  simp [cstring_plain hn]

/-- What Python should show for a function: the docstring given for it, else how it is called. -/
def docSpec (f : Fn) (name : Str) : Str := f.docstring.getD (shownSignature name f.params)

/-- **C111, functions and methods.**  The table entry of a function or method that is not overloaded shows its
docstring, or, without one, how it is called and the types of its parameters, line by line; the entry is
otherwise the one of the function.
Missing: docstrings with quotes, backslashes, line ends or null characters, and the methods that call a
protected default implementation (`C111_parent_caller_counterexample`). -/
theorem C111_function_partial (f : Fn) (name : Str) (hp : f.parentCaller = false) (hn : PlainText name)
    (hps : PlainParams f.params) (hd : ∀ d, f.docstring = some d → PlainText d)
    (hf : ',' ∉ f.function) (hg : ',' ∉ f.flags) :
    readEntry (f.getPyMethodDef name).1 = some ⟨name, f.function, f.flags, some (docSpec f name)⟩ := by
  unfold Fn.getPyMethodDef
  rw [if_neg (by rw [hp]; decide)]
  refine readEntry_text hn hf hg ?_
  unfold docSpec
  cases hdoc : f.docstring with
  | some d => exact readDoc_some (hd d hdoc) _
  | none =>
    simp only [Option.getD_none]
    have h := (reads_generated hn hps).doc " },".toList
    rw [h]
    have : ∀ c ∈ shownSignature name f.params, c ≠ Char.ofNat 0 := by
      have hnl : ∀ s : Str, (∀ c ∈ s, c ≠ Char.ofNat 0) → ∀ xs : List Str, (∀ x ∈ xs, ∀ c ∈ x, c ≠ Char.ofNat 0) →
          ∀ c ∈ join s xs, c ≠ Char.ofNat 0 := by
        intro s hs xs
        induction xs with
        | nil => intro _ c hc; cases hc
        | cons x xs ih =>
          intro h
          cases xs with
          | nil => exact h x List.mem_cons_self
          | cons y ys =>
            intro c hc
            rcases List.mem_append.1 hc with hc | hc
            · exact h x List.mem_cons_self c hc
            · rcases List.mem_append.1 hc with hc | hc
              · exact hs c hc
              · exact ih (fun z hz => h z (List.mem_cons_of_mem _ hz)) c hc
      intro c hc
      unfold shownSignature at hc
      rcases List.mem_append.1 hc with hc | hc
      · rcases List.mem_append.1 hc with hc | hc
        · exact (plain_signature hn (fun p h => (hps p h).1) c hc).2.2.2
        · have : ∀ c ∈ "\n\n".toList, c ≠ Char.ofNat 0 := by decide
          exact this c hc
      · refine hnl _ (by decide) _ (fun x hx => ?_) c hc
        obtain ⟨p, hm, rfl⟩ := List.mem_map.1 hx
        exact fun c hc => (plain_typeLine (hps p hm).1 (hps p hm).2 c hc).2.2.2
    unfold cstring
    rw [List.takeWhile_eq_self_iff.2 (fun c hc => by simpa using this c hc)]

/-- **C111, the docstring stays.**  A generated docstring is kept in the wrapper: a second entry made from it
shows the same text, also under another name. -/
theorem C111_kept (f : Fn) (name name' : Str) (hp : f.parentCaller = false) :
    (f.getPyMethodDef name).2.docstring = some (f.docstring.getD (generateDocstring name f.params)) ∧
    ((f.getPyMethodDef name).2.getPyMethodDef name').2 = (f.getPyMethodDef name).2 := by
  unfold Fn.getPyMethodDef
  simp [hp]

/-- A function `scale(factor, by)` with and without docstring. -/
def scale (d : Option Str) : Fn :=
  { docstring := d, params := [⟨"factor".toList, "double".toList⟩, ⟨"by".toList, "Point const &".toList⟩],
    function := "_wrap_m_scale".toList, flags := "METH_KEYWORDS|METH_VARARGS".toList }

example : readEntry ((scale none).getPyMethodDef "scale".toList).1 =
    some ⟨"scale".toList, "_wrap_m_scale".toList, "METH_KEYWORDS|METH_VARARGS".toList,
      some "scale(factor, by)\n\ntype: factor: double\ntype: by: Point const &".toList⟩ :=
  C111_function_partial (scale none) "scale".toList rfl (by decide) (by
    intro p hp
    rcases List.mem_cons.1 hp with rfl | hp
    · exact ⟨by decide, by decide⟩
    · rcases List.mem_cons.1 hp with rfl | hp
      · exact ⟨by decide, by decide⟩
      · cases hp) nofun (by decide) (by decide)

/-! ## Overload sets -/

/-- **C111, overload sets.**  The entry of an overload set shows the docstring given for its overloads when
they agree on one; without any there is none.
Missing: nothing is generated for overload sets without docstring (`C111_overloads_counterexample`), and
overloads with different docstrings stop the generator (`C111_conflict`). -/
theorem C111_overloads_partial (ws : List Fn) (function flags name : Str) (hw : 2 ≤ ws.length)
    (hn : PlainText name) (hf : ',' ∉ function) (hg : ',' ∉ flags)
    (hd : ∀ w ∈ ws, ∀ d, w.docstring = some d → PlainText d) (e : Str)
    (h : overloadDef ws function flags name = .ok e) :
    ∃ shown, readEntry e = some ⟨name, function, flags, shown⟩ ∧
      (∀ d, shown = some d ↔ ∃ w ∈ ws, w.docstring = some d) := by
  have hdef : overloadDef ws function flags name =
      (Overload.tableDocstring (ws.map Fn.docstring)).map (entryText name function flags) := by
    match ws, hw with
    | _ :: _ :: _, _ => rfl
  rw [hdef] at h
  cases ht : Overload.tableDocstring (ws.map Fn.docstring) with
  | error x => rw [ht] at h; cases h
  | ok r =>
    rw [ht] at h
    cases h
    have hr := (Overload.C48_docstring (ws.map Fn.docstring) r).1 ht
    have hmem : ∀ d, r = some d ↔ ∃ w ∈ ws, w.docstring = some d := by
      intro d
      have hm : some d ∈ ws.map Fn.docstring ↔ ∃ w ∈ ws, w.docstring = some d := List.mem_map
      rw [← hm]
      exact ⟨hr.2 d, hr.1 d⟩
    refine ⟨r, readEntry_text hn hf hg ?_, hmem⟩
    cases r with
    | none => rfl
    | some d =>
      obtain ⟨w, hw, hwd⟩ := (hmem d).1 rfl
      exact readDoc_some (hd w hw d hwd) _

/-- **C111, conflicting docstrings stop the generator.**  When two overloads have different docstrings the
table cannot be written, whatever the error handler does about functions that cannot be generated: the entry is
made outside its reach. -/
theorem C111_conflict (ws : List Fn) (function flags name : Str) (hw : 2 ≤ ws.length) (a b : Fn) (d d' : Str)
    (ha : a ∈ ws) (hb : b ∈ ws) (hda : a.docstring = some d) (hdb : b.docstring = some d') (hne : d ≠ d')
    (pre post : List (Str × Gen × PyRes Str)) (ls : List Str) (hpre : functionTable pre = .ok ls) :
    overloadDef ws function flags name = .error .codeGenerationError ∧
    functionTable (pre ++ (name, .ok, overloadDef ws function flags name) :: post) = .error .codeGenerationError := by
  have hdef : overloadDef ws function flags name =
      (Overload.tableDocstring (ws.map Fn.docstring)).map (entryText name function flags) := by
    match ws, hw with
    | _ :: _ :: _, _ => rfl
  have hc := Overload.C48_docstring_conflict (ws.map Fn.docstring) d d'
    (List.mem_map.2 ⟨a, ha, hda⟩) (List.mem_map.2 ⟨b, hb, hdb⟩) hne
  have h1 : overloadDef ws function flags name = .error .codeGenerationError := by rw [hdef, hc]; rfl
  refine ⟨h1, ?_⟩
  rw [h1]
  clear hdef h1
  induction pre generalizing ls with
  | nil => rfl
  | cons f pre ih =>
    obtain ⟨n, g, r⟩ := f
    cases g with
    | fail e => cases hpre
    | skip => exact ih ls hpre
    | ok =>
      cases r with
      | error e => cases hpre
      | ok l =>
        show ((functionTable (pre ++ _)).bind _ : PyRes (List Str)) = _
        cases hp : functionTable pre with
        | error e =>
          have : functionTable ((n, .ok, .ok l) :: pre) = ((functionTable pre).bind fun ls => .ok (l :: ls)) := rfl
          rw [this, hp] at hpre
          cases hpre
        | ok ls' => rw [ih ls' hp]; rfl

/-! ## Classes -/

theorem insertLong_perm (x : Str) : ∀ ys, (insertLong x ys).Perm (x :: ys)
  | [] => .refl _
  | y :: ys => by
    unfold insertLong
    split
    · exact .refl _
    · exact ((insertLong_perm x ys).cons y).trans (.swap x y ys)

theorem insertLong_sorted (x : Str) : ∀ ys, ys.Pairwise (fun a b => b.length ≤ a.length) →
    (insertLong x ys).Pairwise (fun a b => b.length ≤ a.length)
  | [], _ => by simp [insertLong]
  | y :: ys, h => by
    have hy := List.pairwise_cons.1 h
    unfold insertLong
    split
    next hlt =>
      refine List.pairwise_cons.2 ⟨fun z hz => ?_, h⟩
      rcases List.mem_cons.1 hz with rfl | hz
      · exact Nat.le_of_lt hlt
      · exact Nat.le_trans (hy.1 z hz) (Nat.le_of_lt hlt)
    next hge =>
      refine List.pairwise_cons.2 ⟨fun z hz => ?_, insertLong_sorted x ys hy.2⟩
      rcases List.mem_cons.1 ((insertLong_perm x ys).mem_iff.1 hz) with rfl | hz
      · exact Nat.le_of_not_lt hge
      · exact hy.1 z hz

theorem sortLong_spec (xs : List Str) :
    (sortLong xs).Perm xs ∧ (sortLong xs).Pairwise (fun a b => b.length ≤ a.length) := by
  have key : ∀ (xs acc : List Str), acc.Pairwise (fun a b => b.length ≤ a.length) →
      (xs.foldl (fun acc x => insertLong x acc) acc).Perm (xs ++ acc) ∧
      (xs.foldl (fun acc x => insertLong x acc) acc).Pairwise (fun a b => b.length ≤ a.length) := by
    intro xs
    induction xs with
    | nil => exact fun acc h => ⟨.refl _, h⟩
    | cons x xs ih =>
      intro acc h
      obtain ⟨h1, h2⟩ := ih (insertLong x acc) (insertLong_sorted x acc h)
      refine ⟨h1.trans ?_, h2⟩
      exact ((insertLong_perm x acc).append_left xs).trans List.perm_middle
  have := key xs [] List.Pairwise.nil
  rwa [List.append_nil] at this

theorem noNul_join {s : Str} (hs : PlainText s ∨ s = ['\n']) : ∀ {xs : List Str}, (∀ x ∈ xs, PlainText x) →
    ∀ c ∈ join s xs, c ≠ Char.ofNat 0
  | [], _, _, hc => by cases hc
  | [x], h, c, hc => (h x (by simp) c hc).2.2.2
  | x :: y :: xs, h, c, hc => by
    rcases List.mem_append.1 hc with hc | hc
    · exact (h x List.mem_cons_self c hc).2.2.2
    · rcases List.mem_append.1 hc with hc | hc
      · rcases hs with hs | rfl
        · exact (hs c hc).2.2.2
        · have : ∀ c ∈ ['\n'], c ≠ Char.ofNat 0 := by decide
          exact this c hc
      · exact noNul_join hs (fun z hz => h z (List.mem_cons_of_mem _ hz)) c hc

/-- **C111, classes.**  The documentation of a type is the docstring given for the class; without one it lists
how each constructor is called, one per line, the longest first.
Missing: as in `C111_literal_exact`. -/
theorem C111_class_partial (doc : Option Str) (name : Str) (ctors : List (List Param)) (rest : Str)
    (hn : PlainText name) (hp : ∀ ps ∈ ctors, ∀ p ∈ ps, PlainText p.name) (hd : ∀ d, doc = some d → PlainText d) :
    ∃ shown, readDoc (tpDoc doc name ctors ++ rest) = some (some shown, rest) ∧
      match doc with
      | some d => shown = d
      | none => ∃ sigs, sigs.Perm (ctors.map (signature name)) ∧ sigs.Pairwise (fun a b => b.length ≤ a.length) ∧
          shown = join "\n".toList sigs := by
  cases doc with
  | some d => exact ⟨d, readDoc_some (hd d rfl) rest, rfl⟩
  | none =>
    have hs := sortLong_spec (ctors.map (signature name))
    have hpl : ∀ x ∈ sortLong (ctors.map (signature name)), PlainText x := by
      intro x hx
      obtain ⟨ps, hm, rfl⟩ := List.mem_map.1 (hs.1.mem_iff.1 hx)
      exact plain_signature hn (hp ps hm)
    refine ⟨join ['\n'] (sortLong (ctors.map (signature name))), ?_, _, hs.1, hs.2, rfl⟩
    have h := (Reads.join Reads.bsn (fun x hx => Reads.plain (hpl x hx))).doc rest
    unfold tpDoc classDocstring
    simp only [Option.getD_none]
    rw [h]
    unfold cstring
    rw [List.takeWhile_eq_self_iff.2 (fun c hc => by simpa using noNul_join (.inr rfl) hpl c hc)]

example : readDoc (tpDoc none "Foo".toList [[], [⟨"x".toList, "int".toList⟩]] ++ ",".toList) =
    some (some "Foo(x)\nFoo()".toList, ",".toList) := by decide +kernel

/-! ## Modules -/

/-- **C111, modules.**  The documentation of a module is the docstring given for it, and there is none if none
is given.
Missing: the empty docstring is left out (`C111_empty_module_counterexample`); and as in
`C111_literal_exact`. -/
theorem C111_module_partial (doc : Option Str) (rest : Str) (hd : ∀ d, doc = some d → PlainText d) (he : doc ≠ some []) :
    readDoc (moduleDoc doc ++ rest) = some (doc, rest) := by
  match doc with
  | none => rfl
  | some [] => exact absurd rfl he
  | some (c :: d) => exact readDoc_some (hd _ rfl) rest

example : readDoc (moduleDoc (some "Fast geometry.".toList) ++ ",".toList) = some (some "Fast geometry.".toList, ",".toList) :=
  C111_module_partial _ _ (by intro d hd; cases hd; decide) (by simp)

/-! ## Counterexamples -/

/-- **C111 is false for docstrings of more than one line**: what is written is not a string literal. -/
theorem C111_lines_counterexample (a b rest : Str) (ha : PlainText a) :
    readDoc (docText (some (a ++ '\n' :: b)) ++ rest) = none := by
  have : docText (some (a ++ '\n' :: b)) ++ rest = '"' :: (a ++ '\n' :: (b ++ '"' :: rest)) := by simp [docText]
  rw [this]
  show (literal .normal (a ++ '\n' :: (b ++ '"' :: rest))).map _ = _
  rw [literal_plain ha]
  simp [literal, litStep, plainStep]

/-- **C111 is false for docstrings with quotes**: the literal ends there, and the rest of the docstring is left in
the code. -/
theorem C111_quotes_counterexample (a b rest : Str) (ha : PlainText a) :
    readDoc (docText (some (a ++ '"' :: b)) ++ rest) = some (some a, b ++ '"' :: rest) := by
  have : docText (some (a ++ '"' :: b)) ++ rest = '"' :: (a ++ '"' :: (b ++ '"' :: rest)) := by simp [docText]
  rw [this]
  show (literal .normal (a ++ '"' :: (b ++ '"' :: rest))).map _ = _
  rw [literal_plain ha, literal_quote]
  simp [cstring_plain ha]

/-- **C111 is false for docstrings with backslashes**: they are read as escape sequences, or the code does not
compile. -/
theorem C111_backslash_counterexample :
    readDoc (docText (some "see C:\\new".toList) ++ ",".toList) = some (some "see C:\new".toList, ",".toList) ∧
    readDoc (docText (some "see C:\\docs".toList) ++ ",".toList) = none := by decide +kernel

/-- **C111 is false for overload sets without docstring**: no documentation is made for them, though it is for
each of the functions alone. -/
theorem C111_overloads_counterexample :
    overloadDef [scale none, scale none] "_wrap_m_scale".toList "F".toList "scale".toList =
      .ok (entryText "scale".toList "_wrap_m_scale".toList "F".toList none) ∧
    readEntry (entryText "scale".toList "_wrap_m_scale".toList "F".toList none) =
      some ⟨"scale".toList, "_wrap_m_scale".toList, "F".toList, none⟩ :=
  ⟨rfl, readEntry_text (by decide) (by decide) (by decide) rfl⟩

/-- **C111 is false for the methods that call a protected default implementation**: their docstring is never
made. -/
theorem C111_parent_caller_counterexample :
    readEntry (({ scale none with parentCaller := true } : Fn).getPyMethodDef "_scale".toList).1 =
      some ⟨"_scale".toList, "_wrap_m_scale".toList, "METH_KEYWORDS|METH_VARARGS".toList, none⟩ :=
  readEntry_text (by decide) (by decide) (by decide) rfl

/-- **C111 is false for a module with an empty docstring**, which has none. -/
theorem C111_empty_module_counterexample : readDoc (moduleDoc (some []) ++ ",".toList) = some (none, ",".toList) := rfl

end Verif.Docs
