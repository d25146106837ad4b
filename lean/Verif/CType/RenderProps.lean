import Verif.CType.ParseProps
import Verif.CType.TokProps

/-!
# Printing a canonical type and reading it again
-/
namespace Verif.CType
open Verif

/-! ## Well-formedness is kept by `canon` -/

theorem Reads.append : ∀ {as : List Tok} {l : List Item}, Reads as l → ∀ {bs : List Tok} {l' : List Item},
    Reads bs l' → Reads (as ++ bs) (l ++ l')
  | _, _, .nil, _, _, h => h
  | _, _, .plain hp hr, _, _, h => .plain hp (hr.append h)
  | _, _, .group ho ha hr, _, _, h => by
    have := Reads.group ho ha (hr.append h)
    simpa using this

theorem args_items : ∀ {as : List Tok} {its : List Item}, Args as its →
    ∀ i ∈ its, i.isMod = false ∧ i.isPtrRef = false
  | _, _, .last hr hc => by
    intro i hi
    simp at hi
    rcases hi with rfl | rfl
    · exact ⟨rfl, rfl⟩
    · have := hc.2
      simp at this
      simp only [Item.isMod, Item.isPtrRef, Item.isNamed]
      rcases this with h | h <;> rw [h] <;> decide
  | _, _, .more hr hc ha => by
    intro i hi
    simp only [List.mem_cons] at hi
    rcases hi with rfl | rfl | hi
    · exact ⟨rfl, rfl⟩
    · have := hc.2
      simp only [Item.isMod, Item.isPtrRef, Item.isNamed]
      rw [this]; decide
    · exact args_items ha i hi

theorem opens_item {t : Tok} (h : Opens t) : (Item.tok t).isMod = false ∧ (Item.tok t).isPtrRef = false := by
  have := h.2
  simp at this
  simp only [Item.isMod, Item.isPtrRef, Item.isNamed]
  rcases this with h | h <;> rw [h] <;> decide

theorem group_items {t : Tok} {as : List Tok} {its : List Item} (ho : Opens t) (ha : Args as its) :
    ∀ i ∈ Item.tok t :: its, i.isMod = false ∧ i.isPtrRef = false := by
  intro i hi
  simp only [List.mem_cons] at hi
  rcases hi with rfl | hi
  · exact opens_item ho
  · exact args_items ha i hi

theorem reads_filter_nonmod : ∀ {as : List Tok} {l : List Item}, Reads as l →
    ∃ bs, Reads bs (l.filter (fun i => !i.isMod)) ∧ bs ⊆ as
  | _, _, .nil => ⟨[], .nil, by simp⟩
  | _, _, .plain (t := t) (ts := ts) hp hr => by
    obtain ⟨bs, h1, h2⟩ := reads_filter_nonmod hr
    cases hm : (Item.tok t).isMod with
    | true => exact ⟨bs, by simpa [List.filter_cons, hm] using h1, fun x hx => List.mem_cons_of_mem _ (h2 hx)⟩
    | false =>
      refine ⟨t :: bs, by simpa [List.filter_cons, hm] using Reads.plain hp h1, ?_⟩
      intro x hx
      simp at hx ⊢
      rcases hx with rfl | hx
      · simp
      · exact .inr (h2 hx)
  | _, _, .group (t := t) (as := as) (its := its) (l := l) ho ha hr => by
    obtain ⟨bs, h1, h2⟩ := reads_filter_nonmod hr
    have hg : (Item.tok t :: its).filter (fun i => !i.isMod) = .tok t :: its := by
      rw [List.filter_eq_self]
      intro i hi
      simp [(group_items ho ha i hi).1]
    refine ⟨t :: as ++ bs, ?_, ?_⟩
    · rw [List.filter_append, hg]
      exact .group ho ha h1
    · intro x hx
      simp only [List.cons_append, List.mem_cons, List.mem_append] at hx ⊢
      rcases hx with hx | hx | hx
      · exact .inl hx
      · exact .inr (.inl hx)
      · exact .inr (.inr (h2 hx))

theorem reads_filter_named (n : Str) (hn : n ∈ kModifiers) : ∀ {as : List Tok} {l : List Item}, Reads as l →
    ∃ bs, Reads bs (l.filter (·.isNamed n)) ∧ bs ⊆ as
  | _, _, .nil => ⟨[], .nil, by simp⟩
  | _, _, .plain (t := t) (ts := ts) hp hr => by
    obtain ⟨bs, h1, h2⟩ := reads_filter_named n hn hr
    cases hm : (Item.tok t).isNamed n with
    | false => exact ⟨bs, by simpa [List.filter_cons, hm] using h1, fun x hx => List.mem_cons_of_mem _ (h2 hx)⟩
    | true =>
      refine ⟨t :: bs, by simpa [List.filter_cons, hm] using Reads.plain hp h1, ?_⟩
      intro x hx
      simp at hx ⊢
      rcases hx with rfl | hx
      · simp
      · exact .inr (h2 hx)
  | _, _, .group (t := t) (as := as) (its := its) (l := l) ho ha hr => by
    obtain ⟨bs, h1, h2⟩ := reads_filter_named n hn hr
    have hg : (Item.tok t :: its).filter (·.isNamed n) = [] := by
      rw [List.filter_eq_nil_iff]
      intro i hi hnm
      have := named_mod hn hnm
      rw [(group_items ho ha i hi).1] at this
      cases this
    refine ⟨bs, ?_, ?_⟩
    · rw [List.filter_append, hg]; exact h1
    · intro x hx
      simp only [List.cons_append, List.mem_cons, List.mem_append]
      exact .inr (.inr (h2 hx))

theorem reads_canonSeg {as : List Tok} {l : List Item} (h : Reads as l) :
    ∃ bs, Reads bs (canonSeg l) ∧ bs ⊆ as := by
  obtain ⟨b1, h1, s1⟩ := reads_filter_nonmod h
  obtain ⟨b2, h2, s2⟩ := reads_filter_named kConst (by decide) h
  obtain ⟨b3, h3, s3⟩ := reads_filter_named kVolatile (by decide) h
  refine ⟨b1 ++ b2 ++ b3, (h1.append h2).append h3, ?_⟩
  intro x hx
  simp only [List.mem_append] at hx
  rcases hx with (hx | hx) | hx
  · exact s1 hx
  · exact s2 hx
  · exact s3 hx

theorem canonAcc_skip : ∀ (g acc r : List Item), (∀ i ∈ g, i.isPtrRef = false) →
    canonAcc acc (g ++ r) = canonAcc (acc ++ g) r := by
  intro g
  induction g with
  | nil => intro acc r _; simp
  | cons x g ih =>
    intro acc r h
    simp only [List.cons_append, canonAcc, h x (by simp)]
    have := ih (acc ++ [x]) r (fun i hi => h i (List.mem_cons_of_mem _ hi))
    simpa using this

theorem reads_canonAcc : ∀ {as : List Tok} {l : List Item}, Reads as l →
    ∀ {ps : List Tok} {acc : List Item}, Reads ps acc → ∃ bs, Reads bs (canonAcc acc l) ∧ bs ⊆ ps ++ as
  | _, _, .nil, ps, acc, hacc => by
    obtain ⟨bs, h1, h2⟩ := reads_canonSeg hacc
    exact ⟨bs, h1, by simpa using h2⟩
  | _, _, .plain (t := t) (ts := ts) hp hr, ps, acc, hacc => by
    rw [canonAcc]
    split
    · obtain ⟨b1, h1, s1⟩ := reads_canonSeg hacc
      obtain ⟨b2, h2, s2⟩ := reads_canonAcc hr Reads.nil
      refine ⟨b1 ++ t :: b2, h1.append (.plain hp h2), ?_⟩
      intro x hx
      simp only [List.mem_append, List.mem_cons] at hx ⊢
      rcases hx with hx | hx | hx
      · exact .inl (s1 hx)
      · exact .inr (.inl hx)
      · exact .inr (.inr (by simpa using s2 hx))
    · obtain ⟨bs, h1, h2⟩ := reads_canonAcc hr (hacc.append (.plain hp .nil))
      exact ⟨bs, h1, by simpa using h2⟩
  | _, _, .group (t := t) (as := as) (its := its) (l := l) ho ha hr, ps, acc, hacc => by
    rw [canonAcc_skip _ _ _ (fun i hi => (group_items ho ha i hi).2)]
    have hg : Reads (ps ++ (t :: as)) (acc ++ (.tok t :: its)) := by
      have := Reads.group ho ha Reads.nil
      exact hacc.append (by simpa using this)
    obtain ⟨bs, h1, h2⟩ := reads_canonAcc hr hg
    exact ⟨bs, h1, by simpa using h2⟩

theorem reads_canon {as : List Tok} {l : List Item} (h : Reads as l) :
    ∃ bs, Reads bs (canon l) ∧ bs ⊆ as := by
  obtain ⟨bs, h1, h2⟩ := reads_canonAcc h Reads.nil
  exact ⟨bs, h1, by simpa using h2⟩

mutual
theorem reads_deep : ∀ {as : List Tok} {l : List Item}, Reads as l →
    ∃ bs, Reads bs (deepList l) ∧ bs ⊆ as
  | _, _, .nil => ⟨[], .nil, by simp⟩
  | _, _, .plain (t := t) hp hr => by
    obtain ⟨bs, h1, h2⟩ := reads_deep hr
    refine ⟨t :: bs, .plain hp h1, ?_⟩
    intro x hx
    simp at hx ⊢
    rcases hx with rfl | hx
    · simp
    · exact .inr (h2 hx)
  | _, _, .group (t := t) ho ha hr => by
    obtain ⟨bs, h1, h2⟩ := reads_deep hr
    obtain ⟨cs, h3, h4⟩ := args_deep ha
    refine ⟨t :: cs ++ bs, ?_, ?_⟩
    · rw [deepList_append]
      exact .group ho h3 h1
    · intro x hx
      simp only [List.cons_append, List.mem_cons, List.mem_append] at hx ⊢
      rcases hx with hx | hx | hx
      · exact .inl hx
      · exact .inr (.inl (h4 hx))
      · exact .inr (.inr (h2 hx))
theorem args_deep : ∀ {as : List Tok} {its : List Item}, Args as its →
    ∃ bs, Args bs (deepList its) ∧ bs ⊆ as
  | _, _, .last (c := c) hr hc => by
    obtain ⟨b1, h1, s1⟩ := reads_deep hr
    obtain ⟨b2, h2, s2⟩ := reads_canon h1
    refine ⟨b2 ++ [c], .last h2 hc, ?_⟩
    intro x hx
    simp only [List.mem_append] at hx ⊢
    rcases hx with hx | hx
    · exact .inl (s1 (s2 hx))
    · exact .inr hx
  | _, _, .more (c := c) hr hc ha => by
    obtain ⟨b1, h1, s1⟩ := reads_deep hr
    obtain ⟨b2, h2, s2⟩ := reads_canon h1
    obtain ⟨b3, h3, s3⟩ := args_deep ha
    refine ⟨b2 ++ c :: b3, .more h2 hc h3, ?_⟩
    intro x hx
    simp only [List.mem_append, List.mem_cons] at hx ⊢
    rcases hx with hx | hx | hx
    · exact .inl (s1 (s2 hx))
    · exact .inr (.inl hx)
    · exact .inr (.inr (s3 hx))
end

theorem reads_deepCanon {as : List Tok} {l : List Item} (h : Reads as l) :
    ∃ bs, Reads bs (deepCanon l) ∧ bs ⊆ as := by
  obtain ⟨b1, h1, s1⟩ := reads_deep h
  obtain ⟨b2, h2, s2⟩ := reads_canon h1
  exact ⟨b2, h2, fun x hx => s1 (s2 hx)⟩

/-! ## Lexing printed types -/

/-- `Lexes s ts`: the text `s` is `ts` with white space before each and no neighbours fusing. -/
inductive Lexes : Str → List Tok → Prop
  | nil {w : Str} : (∀ c ∈ w, isPySpace c = true) → Lexes w []
  | cons {w : Str} {t : Tok} {d : Char} {ds : Str} {ts : List Tok} :
      (∀ c ∈ w, isPySpace c = true) → IsToken t → fuses t d = false → Lexes (d :: ds) ts →
      Lexes (w ++ t.name ++ d :: ds) (t :: ts)

theorem Lexes.space {s : Str} {ts : List Tok} (h : Lexes s ts) : Lexes (' ' :: s) ts := by
  have hsp : isPySpace ' ' = true := by decide
  cases h with
  | nil h => exact .nil (by intro c hc; simp at hc; rcases hc with rfl | hc; exact hsp; exact h c hc)
  | cons hw ht hf hl =>
    rename_i w t d ds ts
    have := Lexes.cons (w := ' ' :: w) (by
      intro c hc; simp at hc; rcases hc with rfl | hc; exact hsp; exact hw c hc) ht hf hl
    simpa using this

theorem loop_lexes (src : Str) {s : Str} {ts : List Tok} (h : Lexes s ts) :
    ∀ (fuel : Nat) (acc : List Tok), ts.length < fuel → loop src fuel s acc = .done (acc ++ ts) := by
  induction h with
  | nil hw =>
    intro fuel acc hf
    cases fuel with
    | zero => omega
    | succ f =>
      rename_i w
      unfold loop
      have : step w = .stop := by
        unfold step
        have := dropWhile_append_space (s := []) hw
        simp at this
        rw [show w.dropWhile isPySpace = [] by simpa using this]
        rfl
      rw [this]; simp
  | cons hw ht hfu hl ih =>
    rename_i w t d ds ts
    intro fuel acc hf
    cases fuel with
    | zero => omega
    | succ f =>
      unfold loop
      have : step (w ++ t.name ++ d :: ds) = .emit t (d :: ds) := by
        unfold step
        rw [List.append_assoc, dropWhile_append_space hw]
        obtain ⟨c, n, hn, hc⟩ := token_head ht
        have : (t.name ++ d :: ds).dropWhile isPySpace = t.name ++ d :: ds := by
          rw [hn, List.cons_append, List.dropWhile_cons_of_neg (by simp [hc])]
        rw [this, step1_again ht hfu]
      rw [this]
      simp only
      rw [ih f (acc ++ [t]) (by simp at hf; omega)]
      simp

theorem lexes_length {s : Str} {ts : List Tok} (h : Lexes s ts) : ts.length ≤ s.length := by
  induction h with
  | nil => simp
  | cons hw ht hfu hl ih =>
    obtain ⟨c, n, hn, hc⟩ := token_head ht
    simp [hn] at *; omega

theorem getTokens_lexes {s : Str} {ts : List Tok} (h : Lexes s ts) : getTokens s = .done ts := by
  unfold getTokens getTokensFuel
  have := loop_lexes s h (s.length + 1) [] (by have := lexes_length h; omega)
  simpa using this

/-- A text that starts with a character that fuses with no token that can come before it. -/
def Start (s : Str) : Prop :=
  ∃ d ds, s = d :: ds ∧ ∀ t, IsToken t → (Plain t ∨ Closes t) → fuses t d = false

theorem start_space {s : Str} : Start (' ' :: s) := ⟨' ', s, rfl, fun t _ _ => fuses_space (by decide)⟩

theorem fuses_comma (t : Tok) : fuses t ',' = false := by
  unfold fuses
  split
  · decide
  · decide
  · rename_i c _ _
    split
    · decide
    · split
      · decide
      · cases h : isOp c with
        | false => rfl
        | true =>
          have : (',' == c) = false := by
            simp [isOp] at h
            rcases h with h | h | h | h | h | h | h | h | h <;> subst h <;> decide
          simp [this]
  · rfl

theorem start_comma {s : Str} : Start (',' :: s) := ⟨',', s, rfl, fun t _ _ => fuses_comma t⟩

theorem start_lt {s : Str} : Start ('<' :: s) := by
  refine ⟨'<', s, rfl, fun t _ hp => ?_⟩
  unfold fuses
  split
  · decide
  · decide
  · rename_i c hk hn
    split
    · decide
    · split
      · decide
      · by_cases hc : c = '<'
        · subst hc
          exfalso
          rcases hp with hp | hp
          · exact hp ⟨hk, by simp [hn, bracketNames]⟩
          · have := hp.2; rw [hn] at this; revert this; decide
        · have : ('<' == c) = false := by simp; exact fun h => hc h.symm
          simp [this]
  · rfl

theorem glue_token {t : Tok} (ht : IsToken t) (hg : isGlue t.name = true) :
    t.kind = .syntax_ ∧ (t.name = ['<'] ∨ t.name = [',']) := by
  obtain ⟨s, r, h⟩ := ht
  obtain ⟨hs, hne, _⟩ := step1_emit h
  unfold isGlue at hg
  simp only [Bool.or_eq_true, beq_iff_eq] at hg
  rcases hg with ((hg | hg) | hg) | hg
  · exact absurd hg hne
  · rw [hg] at hs
    subst hs
    have : step1 (['<'] ++ r) = opStep '<' r := rfl
    rw [this] at h
    have := (opStep_emit h)
    refine ⟨?_, .inl hg⟩
    unfold opStep at h
    split at h
    · cases h
    · split at h
      · cases h <;> rfl
      · split at h
        · cases h <;> rfl
        · split at h
          · cases h
          · cases h; rfl
  · rw [hg] at hs
    subst hs
    have : step1 ([','] ++ r) = .emit ⟨.syntax_, [',']⟩ r := rfl
    rw [this] at h
    cases h
    exact ⟨rfl, .inr rfl⟩
  · rw [hg] at hs
    subst hs
    have : step1 (['<', ','] ++ r) = .emit ⟨.syntax_, ['<']⟩ (',' :: r) := rfl
    rw [this] at h
    cases h

theorem plain_not_glue {t : Tok} (ht : IsToken t) (hp : Plain t) : isGlue t.name = false := by
  cases h : isGlue t.name with
  | false => rfl
  | true =>
    obtain ⟨h1, h2⟩ := glue_token ht h
    exact absurd ⟨h1, by rcases h2 with h2 | h2 <;> simp [h2, bracketNames]⟩ hp

theorem closes_not_glue {t : Tok} (h : Closes t) : isGlue t.name = false := by
  have := h.2
  simp at this
  rcases this with h | h <;> rw [h] <;> decide

/-- Printing items after the first one starts with a space, `<` or `,`. -/
theorem start_render {as : List Tok} {l : List Item} (hr : Reads as l) (hall : ∀ t ∈ as, IsToken t)
    {s : Str} (hs : Start s) : Start (renderAux false l ++ s) := by
  cases hr with
  | nil => simpa [renderAux] using hs
  | plain hp hr =>
    rename_i t ts l
    simp only [renderAux, renderItem]
    rw [plain_not_glue (hall t (by simp)) hp]
    simp only [Bool.false_eq_true, if_false, List.cons_append]
    exact start_space
  | group ho ha hr =>
    rename_i t as ts its l
    simp only [List.cons_append, renderAux, renderItem]
    have := ho.2
    simp at this
    rcases this with h | h
    · rw [h, if_pos (by decide)]
      exact start_lt
    · rw [h, if_neg (by decide)]
      exact start_space

theorem renderAux_append (b : Bool) : ∀ (l l' : List Item), l ≠ [] →
    renderAux b (l ++ l') = renderAux b l ++ renderAux false l' := by
  intro l
  induction l generalizing b with
  | nil => intro l' h; exact absurd rfl h
  | cons x r ih =>
    intro l' _
    simp only [List.cons_append, renderAux, List.append_assoc]
    cases r with
    | nil => simp [renderAux]
    | cons y r => rw [ih false l' (by simp)]

mutual
theorem lexes_render : ∀ {as : List Tok} {l : List Item}, Reads as l → (∀ t ∈ as, IsToken t) →
    ∀ (first : Bool) (s : Str) (ts : List Tok), Lexes s ts → Start s →
      Lexes (renderAux first l ++ s) (as ++ ts)
  | _, _, .nil, _, first, s, ts, hl, _ => by simpa [renderAux] using hl
  | _, _, .plain (t := t) (ts := us) (l := l) hp hr, hall, first, s, ts, hl, hs => by
    have ih := lexes_render hr (fun t ht => hall t (by simp [ht])) false s ts hl hs
    obtain ⟨d, ds, hd, hf⟩ := start_render hr (fun t ht => hall t (by simp [ht])) hs
    simp only [renderAux, renderItem, plain_not_glue (hall t (by simp)) hp]
    have htok := hall t (by simp)
    have key : Lexes (t.name ++ (renderAux false l ++ s)) (t :: (us ++ ts)) := by
      rw [hd] at ih ⊢
      have := Lexes.cons (w := []) (by simp) htok (hf t htok (.inl hp)) ih
      simpa using this
    cases first with
    | true => simpa using key
    | false => simpa using key.space
  | _, _, .group (t := t) (as := as) (ts := us) (its := its) (l := l) ho ha hr, hall, first, s, ts, hl, hs => by
    have ih := lexes_render hr (fun t ht => hall t (by simp [ht])) false s ts hl hs
    have hst := start_render hr (fun t ht => hall t (by simp [ht])) hs
    obtain ⟨q, hq, ih2⟩ := lexes_args ha (fun t ht => hall t (by simp [ht])) _ _ ih hst
    have htok := hall t (by simp)
    have hne : its ≠ [] := by cases ha <;> simp
    have key : Lexes (t.name ++ (renderAux false its ++ (renderAux false l ++ s))) (t :: (as ++ (us ++ ts))) := by
      rw [hq] at ih2 ⊢
      have := Lexes.cons (w := []) (by simp) htok (fuses_space (by decide)) ih2
      simpa using this
    simp only [List.cons_append, renderAux, renderItem]
    rw [renderAux_append _ _ _ hne]
    cases first with
    | true => simpa using key
    | false =>
      cases hg : isGlue t.name with
      | true => simpa using key
      | false => simpa using key.space
theorem lexes_args : ∀ {as : List Tok} {its : List Item}, Args as its → (∀ t ∈ as, IsToken t) →
    ∀ (s : Str) (ts : List Tok), Lexes s ts → Start s →
      ∃ q, renderAux false its ++ s = ' ' :: q ∧ Lexes (renderAux false its ++ s) (as ++ ts)
  | _, _, .last (l := l) (c := c) hr hc, hall, s, ts, hl, hs => by
    refine ⟨renderAux true l ++ (' ' :: c.name ++ s), ?_, ?_⟩
    · simp [renderAux, renderItem, closes_not_glue hc]
    · have hc' : Lexes (' ' :: (c.name ++ s)) (c :: ts) := by
        obtain ⟨d, ds, hd, hf⟩ := hs
        have htok := hall c (by simp)
        rw [hd] at hl ⊢
        have := Lexes.cons (w := [' ']) (by decide) htok (hf c htok (.inr hc)) hl
        simpa using this
      have := lexes_render hr (fun t ht => hall t (by simp [ht])) true _ _ hc' start_space
      have := this.space
      simpa [renderAux, renderItem, closes_not_glue hc] using this
  | _, _, .more (l := l) (bs := bs) (c := c) (its := its) hr hc ha, hall, s, ts, hl, hs => by
    have hg : isGlue c.name = true := by rw [hc.2]; decide
    obtain ⟨q, hq, ih⟩ := lexes_args ha (fun t ht => hall t (by simp [ht])) s ts hl hs
    refine ⟨renderAux true l ++ (c.name ++ (renderAux false its ++ s)), ?_, ?_⟩
    · simp [renderAux, renderItem, hg]
    · have hc' : Lexes (c.name ++ (renderAux false its ++ s)) (c :: (bs ++ ts)) := by
        have htok := hall c (by simp)
        rw [hq] at ih ⊢
        have := Lexes.cons (w := []) (by simp) htok (fuses_space (by decide)) ih
        simpa using this
      have hst : Start (c.name ++ (renderAux false its ++ s)) := by rw [hc.2]; exact start_comma
      have := lexes_render hr (fun t ht => hall t (by simp [ht])) true _ _ hc' hst
      have := this.space
      simpa [renderAux, renderItem, hg] using this
end

/-- Printing a well-formed type and tokenizing the text gives its tokens back. -/
theorem getTokens_render {as : List Tok} {l : List Item} (hr : Reads as l) (hall : ∀ t ∈ as, IsToken t) :
    getTokens (render l ++ ['\n']) = .done as := by
  have hnl : Start ['\n'] := ⟨'\n', [], rfl, fun t _ _ => fuses_space (by decide)⟩
  have := lexes_render hr hall true ['\n'] [] (.nil (by decide)) hnl
  simpa [render] using getTokens_lexes this

end Verif.CType
