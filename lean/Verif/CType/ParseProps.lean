import Verif.CType.ReorderProps
import Mathlib.Tactic.Linarith

/-!
# The parser accepts exactly the grammar `Reads` and returns the canonical form
-/
namespace Verif.CType
open Verif

def gt : Tok := ⟨.syntax_, ['>']⟩

theorem strip_gt : stripColons gt = gt := rfl

theorem prep_gt (ts : List Tok) : prep (gt :: ts) = gt :: prep ts := rfl

theorem prep_cons (t : Tok) (ts : List Tok) : prep (t :: ts) = prep1 t ++ prep ts := rfl

theorem prep1_shift {t : Tok} (h1 : (stripColons t).kind = .syntax_) (h2 : (stripColons t).name = ['>', '>']) :
    prep1 t = [gt, gt] := by simp [prep1, h1, h2, gt]

theorem prep1_other {t : Tok} (h : ¬ ((stripColons t).kind = .syntax_ ∧ (stripColons t).name = ['>', '>'])) :
    prep1 t = [stripColons t] := by simp only [prep1]; rw [if_neg h]

theorem deepList_append (a b : List Item) : deepList (a ++ b) = deepList a ++ deepList b := by
  simp [deepList_map]

/-- A token that ends a type expression. -/
def Ends (t : Tok) : Prop := IsComma t ∨ Closes t

theorem parse_sound : ∀ (f : Nat),
    (∀ ts cur c o rest, parseRec f ts cur = .ok (c, o, rest) →
      ∃ as l, Reads as l ∧ c = canon (cur ++ deepList l) ∧ prep ts = as ++ o.toList ++ prep rest ∧
        (∀ e, o = some e → Ends e) ∧ (o = none → rest = [])) ∧
    (∀ ts cur cur' rest, parseArgs f ts cur = .ok (cur', rest) →
      ∃ as its, Args as its ∧ cur' = cur ++ deepList its ∧ prep ts = as ++ prep rest) := by
  intro f
  induction f with
  | zero => constructor <;> intros <;> simp_all [parseRec, parseArgs]
  | succ f ih =>
    obtain ⟨ihR, ihA⟩ := ih
    constructor
    · intro ts cur c o rest h
      cases ts with
      | nil =>
        simp only [parseRec, CRes.ok.injEq, Prod.mk.injEq] at h
        obtain ⟨rfl, rfl, rfl⟩ := h
        exact ⟨[], [], .nil, by simp [deepList, reorder_eq_canon], rfl, by simp, by simp⟩
      | cons t0 ts =>
        simp only [parseRec] at h
        split at h
        · rename_i hk
          split at h
          · rename_i hn
            obtain ⟨as, l, h1, h2, h3, h4⟩ := ihR _ _ _ _ _ h
            refine ⟨as, l, h1, h2, ?_, h4⟩
            rw [prep_cons, prep1_shift hk hn]
            exact h3
          · rename_i hn
            split at h
            · rename_i he
              simp only [CRes.ok.injEq, Prod.mk.injEq] at h
              obtain ⟨rfl, rfl, rfl⟩ := h
              refine ⟨[], [], .nil, by simp [deepList, reorder_eq_canon], ?_, ?_, by simp⟩
              · rw [prep_cons, prep1_other (by tauto)]; rfl
              · intro e hee
                cases hee
                simp only [List.mem_cons, List.not_mem_nil, or_false] at he
                rcases he with he | he | he
                · exact .inl ⟨hk, he⟩
                · exact .inr ⟨hk, by simp [he]⟩
                · exact .inr ⟨hk, by simp [he]⟩
            · rename_i he
              split at h
              · rename_i ho
                split at h
                · rename_i cur' ts' ha
                  obtain ⟨as, its, h1, h2, h3⟩ := ihA _ _ _ _ ha
                  obtain ⟨bs, l, h4, h5, h6, h7, h8⟩ := ihR _ _ _ _ _ h
                  refine ⟨stripColons t0 :: as ++ bs, .tok (stripColons t0) :: its ++ l,
                    .group ⟨hk, ho⟩ h1 h4, ?_, ?_, h7, h8⟩
                  · rw [h5, h2]
                    simp [deepList_append, deepList, deepItem]
                  · rw [prep_cons, prep1_other (by tauto), h3, h6]
                    simp
                · cases h
                · cases h
                · cases h
              · rename_i ho
                obtain ⟨as, l, h1, h2, h3, h4⟩ := ihR _ _ _ _ _ h
                refine ⟨stripColons t0 :: as, .tok (stripColons t0) :: l, .plain ?_ h1, ?_, ?_, h4⟩
                · rintro ⟨_, hb⟩
                  simp only [bracketNames, List.mem_cons, List.not_mem_nil, or_false] at hb he ho
                  tauto
                · rw [h2]; simp [deepList, deepItem]
                · rw [prep_cons, prep1_other (by tauto), h3]; simp
        · rename_i hk
          obtain ⟨as, l, h1, h2, h3, h4⟩ := ihR _ _ _ _ _ h
          refine ⟨stripColons t0 :: as, .tok (stripColons t0) :: l, .plain ?_ h1, ?_, ?_, h4⟩
          · rintro ⟨hb, _⟩; exact hk hb
          · rw [h2]; simp [deepList, deepItem]
          · rw [prep_cons, prep1_other (by tauto), h3]; simp
    · intro ts cur cur' rest h
      simp only [parseArgs] at h
      split at h
      · cases h
      · rename_i n l ts' hp
        obtain ⟨as, i, h1, h2, h3, h4, h5⟩ := ihR _ _ _ _ _ hp
        have he := h4 l rfl
        split at h
        · rename_i hl
          obtain ⟨bs, its, g1, g2, g3⟩ := ihA _ _ _ _ h
          have hc : IsComma l := by
            rcases he with he | he
            · exact he
            · have := he.2; rw [hl] at this; simp at this
          refine ⟨as ++ l :: bs, .sub i :: .tok l :: its, .more h1 hc g1, ?_, ?_⟩
          · rw [g2, h2]; simp [deepList, deepItem]
          · rw [h3, g3]; simp
        · split at h
          · rename_i hl
            simp only [CRes.ok.injEq, Prod.mk.injEq] at h
            obtain ⟨rfl, rfl⟩ := h
            have hc : Closes l := by
              rcases he with he | he
              · have := he.2; rw [this] at hl; simp at hl
              · exact he
            refine ⟨as ++ [l], [.sub i, .tok l], .last h1 hc, ?_, ?_⟩
            · rw [h2]; simp [deepList, deepItem]
            · rw [h3]; simp
          · cases h
      · cases h
      · cases h
      · cases h

/-- More fuel does not change a result. -/
theorem parse_mono : ∀ (f : Nat),
    (∀ ts cur r, parseRec f ts cur = r → r ≠ .running → ∀ f', f ≤ f' → parseRec f' ts cur = r) ∧
    (∀ ts cur r, parseArgs f ts cur = r → r ≠ .running → ∀ f', f ≤ f' → parseArgs f' ts cur = r) := by
  intro f
  induction f with
  | zero => constructor <;> (intro ts cur r h hr; simp only [parseRec, parseArgs] at h; exact absurd h.symm hr)
  | succ f ih =>
    obtain ⟨ihR, ihA⟩ := ih
    constructor
    · intro ts cur r h hr f' hf
      obtain ⟨g, rfl⟩ : ∃ g, f' = g + 1 := ⟨f' - 1, by omega⟩
      have hg : f ≤ g := by omega
      cases ts with
      | nil => simpa only [parseRec] using h
      | cons t0 ts =>
        simp only [parseRec] at h ⊢
        split
        · rename_i hk
          simp only [if_pos hk] at h
          split
          · rename_i hn
            rw [if_pos hn] at h
            exact ihR _ _ _ h hr _ hg
          · rename_i hn
            rw [if_neg hn] at h
            split
            · rename_i he; rw [if_pos he] at h; exact h
            · rename_i he
              rw [if_neg he] at h
              split
              · rename_i ho
                rw [if_pos ho] at h
                cases ha : parseArgs f ts (cur ++ [.tok (stripColons t0)]) with
                | ok x =>
                  rw [ha] at h
                  rw [ihA _ _ _ ha (by simp) _ hg]
                  exact ihR _ _ _ h hr _ hg
                | raised e =>
                  rw [ha] at h; rw [ihA _ _ _ ha (by simp) _ hg]; exact h
                | unmodelled =>
                  rw [ha] at h; rw [ihA _ _ _ ha (by simp) _ hg]; exact h
                | running =>
                  rw [ha] at h; exact absurd h.symm hr
              · rename_i ho
                rw [if_neg ho] at h
                exact ihR _ _ _ h hr _ hg
        · rename_i hk
          simp only [if_neg hk] at h
          exact ihR _ _ _ h hr _ hg
    · intro ts cur r h hr f' hf
      obtain ⟨g, rfl⟩ : ∃ g, f' = g + 1 := ⟨f' - 1, by omega⟩
      have hg : f ≤ g := by omega
      simp only [parseArgs] at h ⊢
      cases hp : parseRec f ts [] with
      | ok x =>
        rw [hp] at h
        rw [ihR _ _ _ hp (by simp) _ hg]
        obtain ⟨n, o, ts'⟩ := x
        cases o with
        | none => exact h
        | some l =>
          simp only at h ⊢
          split
          · rename_i hl
            rw [if_pos hl] at h
            exact ihA _ _ _ h hr _ hg
          · rename_i hl
            rw [if_neg hl] at h
            exact h
      | raised e => rw [hp] at h; rw [ihR _ _ _ hp (by simp) _ hg]; exact h
      | unmodelled => rw [hp] at h; rw [ihR _ _ _ hp (by simp) _ hg]; exact h
      | running => rw [hp] at h; exact absurd h.symm hr

/-- Number of loop turns a token needs. -/
def tw (t : Tok) : Nat := if t.name = ['>', '>'] ∨ (stripColons t).name = ['>', '>'] then 3 else 1
def tweight (ts : List Tok) : Nat := (ts.map tw).sum

theorem tweight_cons (t : Tok) (ts : List Tok) : tweight (t :: ts) = tw t + tweight ts := rfl
theorem tw_pos (t : Tok) : 1 ≤ tw t := by unfold tw; split <;> omega
theorem tw_le (t : Tok) : tw t ≤ 3 := by unfold tw; split <;> omega
theorem tweight_le (ts : List Tok) : tweight ts ≤ 3 * ts.length := by
  induction ts with
  | nil => simp [tweight]
  | cons t ts ih => rw [tweight_cons]; have := tw_le t; simp; omega

theorem parse_weight : ∀ (f : Nat),
    (∀ ts cur c o rest, parseRec f ts cur = .ok (c, o, rest) →
      tweight rest ≤ tweight ts ∧ (o.isSome → tweight rest < tweight ts)) ∧
    (∀ ts cur cur' rest, parseArgs f ts cur = .ok (cur', rest) → tweight rest < tweight ts) := by
  intro f
  induction f with
  | zero => constructor <;> intros <;> simp_all [parseRec, parseArgs]
  | succ f ih =>
    obtain ⟨ihR, ihA⟩ := ih
    constructor
    · intro ts cur c o rest h
      cases ts with
      | nil =>
        simp only [parseRec, CRes.ok.injEq, Prod.mk.injEq] at h
        obtain ⟨rfl, rfl, rfl⟩ := h
        simp
      | cons t0 ts =>
        have hp := tw_pos t0
        simp only [parseRec] at h
        rw [tweight_cons]
        split at h
        · split at h
          · rename_i hn
            obtain ⟨h1, h2⟩ := ihR _ _ _ _ _ h
            have : tw t0 = 3 := by simp [tw, hn]
            have hg : tw ⟨.syntax_, ['>']⟩ = 1 := by decide
            simp only [tweight_cons, hg] at h1 h2
            constructor
            · omega
            · intro ho; have := h2 ho; omega
          · split at h
            · simp only [CRes.ok.injEq, Prod.mk.injEq] at h
              obtain ⟨rfl, rfl, rfl⟩ := h
              constructor
              · omega
              · intro; omega
            · split at h
              · split at h
                · rename_i cur' ts' ha
                  have h1 := ihA _ _ _ _ ha
                  obtain ⟨h2, h3⟩ := ihR _ _ _ _ _ h
                  constructor
                  · omega
                  · intro ho; have := h3 ho; omega
                · cases h
                · cases h
                · cases h
              · obtain ⟨h2, h3⟩ := ihR _ _ _ _ _ h
                constructor
                · omega
                · intro ho; have := h3 ho; omega
        · obtain ⟨h2, h3⟩ := ihR _ _ _ _ _ h
          constructor
          · omega
          · intro ho; have := h3 ho; omega
    · intro ts cur cur' rest h
      simp only [parseArgs] at h
      split at h
      · cases h
      · rename_i n l ts' hp
        have h1 := (ihR _ _ _ _ _ hp).2 rfl
        split at h
        · have := ihA _ _ _ _ h; omega
        · split at h
          · simp only [CRes.ok.injEq, Prod.mk.injEq] at h
            obtain ⟨rfl, rfl⟩ := h
            exact h1
          · cases h
      · cases h
      · cases h
      · cases h

theorem parse_fuel : ∀ (f : Nat),
    (∀ ts cur, 2 * tweight ts + 1 ≤ f → parseRec f ts cur ≠ .running) ∧
    (∀ ts cur, 2 * tweight ts + 2 ≤ f → parseArgs f ts cur ≠ .running) := by
  intro f
  induction f with
  | zero => constructor <;> (intro ts cur h; omega)
  | succ f ih =>
    obtain ⟨ihR, ihA⟩ := ih
    constructor
    · intro ts cur hf
      cases ts with
      | nil => simp [parseRec]
      | cons t0 ts =>
        have hp := tw_pos t0
        rw [tweight_cons] at hf
        simp only [parseRec]
        split
        · split
          · rename_i hn
            apply ihR
            have : tw t0 = 3 := by simp [tw, hn]
            have hg : tw ⟨.syntax_, ['>']⟩ = 1 := by decide
            simp only [tweight_cons, hg]
            omega
          · split
            · simp
            · split
              · cases ha : parseArgs f ts (cur ++ [.tok (stripColons t0)]) with
                | ok x =>
                  simp only
                  apply ihR
                  have := (parse_weight f).2 _ _ _ _ ha
                  omega
                | raised e => simp
                | unmodelled => simp
                | running => exact absurd ha (ihA _ _ (by omega))
              · exact ihR _ _ (by omega)
        · exact ihR _ _ (by omega)
    · intro ts cur hf
      simp only [parseArgs]
      cases hp : parseRec f ts [] with
      | ok x =>
        obtain ⟨n, o, ts'⟩ := x
        cases o with
        | none => simp
        | some l =>
          simp only
          split
          · have := ((parse_weight f).1 _ _ _ _ _ hp).2 rfl
            exact ihA _ _ (by omega)
          · split <;> simp
      | raised e => simp
      | unmodelled => simp
      | running => exact absurd hp (ihR _ _ (by omega))

/-- The parser always ends, whatever the tokens. -/
theorem parse_terminates (ts : List Tok) : parseTokens ts ≠ .running := by
  unfold parseTokens
  have := (parse_fuel (parseFuel ts)).1 ts [] (by have := tweight_le ts; unfold parseFuel; omega)
  split <;> simp_all

/-! ## Completeness -/

/-- Reading the first token of a prepared list. -/
theorem prep_head {ts : List Tok} {t : Tok} {ss : List Tok} (h : prep ts = t :: ss) :
    (∃ t0 ts0, ts = t0 :: ts0 ∧ stripColons t0 = t ∧ prep ts0 = ss ∧
      ¬ (t.kind = .syntax_ ∧ t.name = ['>', '>'])) ∨
    (∃ t0 ts0, ts = t0 :: ts0 ∧ (stripColons t0).kind = .syntax_ ∧
      (stripColons t0).name = ['>', '>'] ∧ t = gt ∧ prep (gt :: ts0) = ss) := by
  cases ts with
  | nil => simp [prep] at h
  | cons t0 ts0 =>
    rw [prep_cons] at h
    by_cases hs : (stripColons t0).kind = .syntax_ ∧ (stripColons t0).name = ['>', '>']
    · right
      rw [prep1_shift hs.1 hs.2] at h
      simp at h
      exact ⟨t0, ts0, rfl, hs.1, hs.2, h.1.symm, h.2⟩
    · left
      rw [prep1_other hs] at h
      simp at h
      exact ⟨t0, ts0, rfl, h.1, h.2, by rw [← h.1]; exact hs⟩

theorem parse_close {ts ss : List Tok} {e : Tok} (he : Ends e) (h : prep ts = e :: ss) (cur : List Item) :
    ∃ f ts', prep ts' = ss ∧ parseRec f ts cur = .ok (canon cur, some e, ts') := by
  rcases prep_head h with ⟨t0, ts0, rfl, h1, h2, h3⟩ | ⟨t0, ts0, rfl, h1, h2, h3, h4⟩
  · refine ⟨1, ts0, h2, ?_⟩
    have hk : e.kind = .syntax_ := by rcases he with he | he <;> exact he.1
    have hn : e.name ∈ [[','], ['>'], [')']] := by
      rcases he with he | he
      · rw [he.2]; simp
      · have := he.2; simp at this ⊢; tauto
    simp only [parseRec]
    rw [h1, if_pos hk, if_neg (by tauto), if_pos hn, reorder_eq_canon]
  · subst h3
    refine ⟨2, gt :: ts0, h4, ?_⟩
    rw [show (2 : Nat) = 1 + 1 from rfl, parseRec]
    rw [if_pos h1, if_pos h2]
    simp [parseRec, stripColons, gt, reorder_eq_canon]

theorem plain_step {t0 : Tok} (hp : Plain (stripColons t0)) (f : Nat) (ts : List Tok) (cur : List Item) :
    parseRec (f + 1) (t0 :: ts) cur = parseRec f ts (cur ++ [.tok (stripColons t0)]) := by
  simp only [parseRec]
  split
  · rename_i hk
    have hb : (stripColons t0).name ∉ bracketNames := fun hb => hp ⟨hk, hb⟩
    simp only [bracketNames, List.mem_cons, List.not_mem_nil, or_false, not_or] at hb
    rw [if_neg hb.2.2.2.2.2, if_neg (by simp; tauto), if_neg (by simp; tauto)]
  · rfl

theorem open_step {t0 : Tok} (ho : Opens (stripColons t0)) (f : Nat) (ts : List Tok) (cur : List Item)
    {cur' : List Item} {ts' : List Tok}
    (h : parseArgs f ts (cur ++ [.tok (stripColons t0)]) = .ok (cur', ts')) :
    parseRec (f + 1) (t0 :: ts) cur = parseRec f ts' cur' := by
  simp only [parseRec]
  have h2 := ho.2
  have hne : (stripColons t0).name ≠ ['>', '>'] ∧ (stripColons t0).name ∉ [[','], ['>'], [')']] := by
    simp only [List.mem_cons, List.not_mem_nil, or_false] at h2
    rcases h2 with h2 | h2 <;> rw [h2] <;> decide
  rw [if_pos ho.1, if_neg hne.1, if_neg hne.2, if_pos h2, h]

mutual
theorem reads_complete : ∀ {as : List Tok} {l : List Item}, Reads as l → ∀ ts ss cur, prep ts = as ++ ss →
      ∃ ts', prep ts' = ss ∧ ∀ f r, parseRec f ts' (cur ++ deepList l) = r → r ≠ .running →
        ∃ f', parseRec f' ts cur = r
  | _, _, .nil => by
    intro ts ss cur h
    exact ⟨ts, h, fun f r hr _ => ⟨f, by simpa [deepList] using hr⟩⟩
  | _, _, .plain (t := t) hp hr => by
    intro ts ss cur h
    rcases prep_head h with ⟨t0, ts0, rfl, h1, h2, h3⟩ | ⟨t0, ts0, rfl, h1, h2, h3, h4⟩
    · obtain ⟨ts', h4, h5⟩ := reads_complete hr ts0 ss (cur ++ [.tok t]) h2
      refine ⟨ts', h4, fun f r hf hne => ?_⟩
      obtain ⟨f', hf'⟩ := h5 f r (by simpa [deepList, deepItem] using hf) hne
      refine ⟨f' + 1, ?_⟩
      rw [plain_step (by rw [h1]; exact hp), h1, hf']
    · exact absurd ⟨by rw [h3]; rfl, by rw [h3]; simp [gt, bracketNames]⟩ hp
  | _, _, .group (t := t) (its := its) ho ha hr => by
    intro ts ss cur h
    simp only [List.cons_append, List.append_assoc] at h
    rcases prep_head h with ⟨t0, ts0, rfl, h1, h2, h3⟩ | ⟨t0, ts0, rfl, h1, h2, h3, h4⟩
    · obtain ⟨f1, ts1, h4, h5⟩ := args_complete ha ts0 _ (cur ++ [.tok t]) h2
      obtain ⟨ts', h6, h7⟩ := reads_complete hr ts1 ss (cur ++ [.tok t] ++ deepList its) h4
      refine ⟨ts', h6, fun f r hf hne => ?_⟩
      obtain ⟨f2, hf2⟩ := h7 f r (by simpa [deepList, deepItem, deepList_append] using hf) hne
      refine ⟨max f1 f2 + 1, ?_⟩
      have ha := (parse_mono f1).2 _ _ _ h5 (by simp) (max f1 f2) (by omega)
      rw [← h1] at ha
      rw [open_step (by rw [h1]; exact ho) _ _ _ ha]
      rw [← h1] at hf2
      exact (parse_mono f2).1 _ _ _ hf2 hne _ (by omega)
    · have := ho.2; rw [h3] at this; simp [gt] at this
theorem args_complete : ∀ {as : List Tok} {its : List Item}, Args as its → ∀ ts ss cur, prep ts = as ++ ss →
      ∃ f ts', prep ts' = ss ∧ parseArgs f ts cur = .ok (cur ++ deepList its, ts')
  | _, _, .last (l := l) (c := c) hr hc => by
    intro ts ss cur h
    rw [List.append_assoc] at h
    obtain ⟨ts1, h1, h2⟩ := reads_complete hr ts _ [] h
    obtain ⟨f1, ts2, h3, h4⟩ := parse_close (.inr hc) h1 ([] ++ deepList l)
    obtain ⟨f2, h5⟩ := h2 f1 _ h4 (by simp)
    refine ⟨f2 + 1, ts2, h3, ?_⟩
    simp only [parseArgs, h5]
    have hn : c.name ≠ [','] := by
      have := hc.2; simp at this; rcases this with h | h <;> rw [h] <;> decide
    rw [if_neg hn, if_pos hc.2]
    simp [deepList, deepItem]
  | _, _, .more (l := l) (c := c) hr hc ha => by
    intro ts ss cur h
    rw [List.append_assoc] at h
    obtain ⟨ts1, h1, h2⟩ := reads_complete hr ts _ [] h
    obtain ⟨f1, ts2, h3, h4⟩ := parse_close (.inl hc) h1 ([] ++ deepList l)
    obtain ⟨f2, h5⟩ := h2 f1 _ h4 (by simp)
    obtain ⟨f3, ts3, h6, h7⟩ := args_complete ha ts2 ss (cur ++ [.sub (canon (deepList l)), .tok c]) h3
    refine ⟨max f2 f3 + 1, ts3, h6, ?_⟩
    simp only [parseArgs, (parse_mono f2).1 _ _ _ h5 (by simp) (max f2 f3) (by omega)]
    rw [if_pos hc.2]
    have := (parse_mono f3).2 _ _ _ h7 (by simp) (max f2 f3) (by omega)
    rw [List.nil_append, this]
    simp [deepList, deepItem]
end

/-- The parser accepts exactly the type expressions, and returns their canonical form. -/
theorem parse_iff (ts : List Tok) (c : List Item) :
    parseTokens ts = .ok c ↔ ∃ l, Reads (prep ts) l ∧ c = deepCanon l := by
  constructor
  · intro h
    unfold parseTokens at h
    split at h
    · rename_i c' rest hp
      cases h
      obtain ⟨as, l, h1, h2, h3, _, h5⟩ := (parse_sound _).1 _ _ _ _ _ hp
      rw [h5 rfl] at h3
      simp [prep] at h3
      exact ⟨l, by rw [prep, h3]; exact h1, by simpa [deepCanon] using h2⟩
    all_goals cases h
  · rintro ⟨l, h1, rfl⟩
    obtain ⟨ts', h2, h3⟩ := reads_complete h1 ts [] [] (by simp)
    have : ts' = [] := by
      cases ts' with
      | nil => rfl
      | cons t r => rw [prep_cons] at h2; simp [prep1] at h2; split at h2 <;> simp at h2
    subst this
    obtain ⟨f, hf⟩ := h3 1 (.ok (canon ([] ++ deepList l), none, [])) (by simp [parseRec, reorder_eq_canon]) (by simp)
    have hr := (parse_fuel (parseFuel ts)).1 ts [] (by have := tweight_le ts; unfold parseFuel; omega)
    have : parseRec (parseFuel ts) ts [] = .ok (canon ([] ++ deepList l), none, []) := by
      rcases Nat.le_total f (parseFuel ts) with h | h
      · exact (parse_mono f).1 _ _ _ hf (by simp) _ h
      · rw [← hf]
        exact ((parse_mono _).1 _ _ _ rfl hr _ h).symm
    unfold parseTokens
    rw [this]
    simp [deepCanon]

end Verif.CType
