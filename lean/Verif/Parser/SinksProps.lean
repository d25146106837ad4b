import Verif.Parser.Sinks

/-!
# C119: the divided script runs

`add_class(…, parent=root_module['::Base'])` needs the base class; so the script runs if every class is registered
after its bases.
-/
namespace Verif.Sinks
open Verif Verif.Structure

/-- Every class comes after its bases. -/
def Runnable {α : Type} (bases : α → List α) (order : List α) : Prop :=
  ∀ c ∈ order, ∀ b ∈ bases c, List.Sublist [b, c] order

/-- The place of a section in the order in which sections are run: as listed, the main section last. -/
def rank {σ : Type} [DecidableEq σ] (main : σ) (others : List σ) (s : σ) : Nat := (others ++ [main]).idxOf s

/-! ## The order of a run -/

theorem run_order {α σ : Type} [DecidableEq σ] {fname : List Str → Str} {main : σ} {others : List σ} {sec : α → σ} {t : NS α}
    (hn : ((t.paths []).map fname).Nodup) {out : List (List Str × α)} (h : RunsSections fname main others sec t out) :
    out.map (·.2) = (others ++ [main]).flatMap (fun s => ((t.scan []).map (·.2)).filter (fun a => sec a = s)) := by
  have part : ∀ s, Calls ((t.only (fun a => sec a = s)).defs fname []) (fname []) ((t.scan []).filter (fun x => sec x.2 = s)) := by
    intro s
    have := calls_of_distinct (ds := (t.only (fun a => decide (sec a = s))).defs fname []) (fname := fname)
      (t := t.only (fun a => decide (sec a = s))) (by rw [defs_names, paths_only]; exact hn) (fun d hd => hd)
    rwa [scan_only] at this
  obtain ⟨outs, own, ho, hown, rfl⟩ := h
  have e1 : outs = others.map (fun s => (t.scan []).filter (fun x => sec x.2 = s)) := by
    induction ho with
    | nil => rfl
    | @cons s o l os h _ ih => rw [List.map_cons, ← ih, h.det (part s)]
  rw [e1, hown.det (part main)]
  have e2 : ∀ s, ((t.scan []).filter (fun x => sec x.2 = s)).map (·.2) = ((t.scan []).map (·.2)).filter (fun a => sec a = s) := by
    intro s
    rw [List.filter_map]
    rfl
  rw [List.map_append, List.flatMap_append, e2 main, List.map_flatten, List.map_map, List.flatMap_def]
  congr 1
  · congr 1
    apply List.map_congr_left
    intro s _
    exact e2 s
  · simp

section order
variable {α σ : Type} [DecidableEq σ] (sec : α → σ) (l : List α)

theorem before_of_rank {b c : α} (hbc : List.Sublist [b, c] l) : ∀ {S : List σ}, sec b ∈ S → sec c ∈ S →
    S.idxOf (sec b) ≤ S.idxOf (sec c) → List.Sublist [b, c] (S.flatMap (fun s => l.filter (fun a => sec a = s)))
  | [], h, _, _ => by cases h
  | s :: S, hb, hc, hr => by
    rw [List.flatMap_cons]
    by_cases hbs : sec b = s
    · by_cases hcs : sec c = s
      · have : List.Sublist [b, c] (l.filter (fun a => sec a = s)) := by
          have := hbc.filter (fun a => decide (sec a = s))
          simpa [hbs, hcs] using this
        exact this.trans (List.sublist_append_left _ _)
      · have h1 : List.Sublist [b] (l.filter (fun a => sec a = s)) := by
          rw [List.singleton_sublist, List.mem_filter]
          exact ⟨hbc.subset (by simp), by simpa using hbs⟩
        have h2 : List.Sublist [c] (S.flatMap (fun s => l.filter (fun a => sec a = s))) := by
          rw [List.singleton_sublist, List.mem_flatMap]
          refine ⟨sec c, ?_, List.mem_filter.mpr ⟨hbc.subset (by simp), by simp⟩⟩
          rcases List.mem_cons.mp hc with h | h
          · exact absurd h hcs
          · exact h
        exact h1.append h2
    · have hcs : sec c ≠ s := by
        intro h
        rw [h, List.idxOf_cons_self, List.idxOf_cons_ne _ (Ne.symm hbs)] at hr
        omega
      have hb' : sec b ∈ S := (List.mem_cons.mp hb).resolve_left hbs
      have hc' : sec c ∈ S := (List.mem_cons.mp hc).resolve_left hcs
      rw [List.idxOf_cons_ne _ (Ne.symm hbs), List.idxOf_cons_ne _ (Ne.symm hcs)] at hr
      exact (before_of_rank hbc hb' hc' (by omega)).trans (List.sublist_append_right _ _)

theorem rank_of_before {b c : α} : ∀ {S : List σ}, S.Nodup →
    List.Sublist [b, c] (S.flatMap (fun s => l.filter (fun a => sec a = s))) → S.idxOf (sec b) ≤ S.idxOf (sec c)
  | [], _, h => by cases h
  | s :: S, hn, h => by
    obtain ⟨hs, hn⟩ := List.nodup_cons.mp hn
    rw [List.flatMap_cons] at h
    have inS : ∀ x, x ∈ S.flatMap (fun s => l.filter (fun a => sec a = s)) → sec x ∈ S := by
      intro x hx
      obtain ⟨s', hs', hx⟩ := List.mem_flatMap.mp hx
      have := (List.mem_filter.mp hx).2
      simp only [decide_eq_true_eq] at this
      rw [this]; exact hs'
    by_cases hbs : sec b = s
    · rw [hbs, List.idxOf_cons_self]; omega
    · obtain ⟨l1, l2, he, h1, h2⟩ := List.sublist_append_iff.mp h
      cases l1 with
      | nil =>
        rw [List.nil_append] at he
        rw [← he] at h2
        have hcS := inS c (h2.subset (by simp))
        have hcs : sec c ≠ s := fun h => hs (h ▸ hcS)
        rw [List.idxOf_cons_ne _ (Ne.symm hbs), List.idxOf_cons_ne _ (Ne.symm hcs)]
        have := rank_of_before hn h2
        omega
      | cons x l1 =>
        rw [List.cons_append] at he
        injection he with he _
        have := h1.subset (a := b) (by rw [he]; simp)
        have := (List.mem_filter.mp this).2
        simp only [decide_eq_true_eq] at this
        exact absurd this hbs

end order

/-- **C119** When the script runs: exactly if no class is in a section that comes before that of one of its bases.  (While
scanning, classes were registered after their bases, C82.) -/
theorem C119_runs_iff {α σ : Type} [DecidableEq σ] (fname : List Str → Str) (main : σ) (others : List σ) (sec : α → σ) (t : NS α)
    (hs : (others ++ [main]).Nodup) (hsec : ∀ c ∈ (t.scan []).map (·.2), sec c ∈ others ++ [main])
    (hn : ((t.paths []).map fname).Nodup) (bases : α → List α) (hscan : Runnable bases ((t.scan []).map (·.2)))
    (out : List (List Str × α)) (h : RunsSections fname main others sec t out) :
    Runnable bases (out.map (·.2)) ↔
      ∀ c ∈ (t.scan []).map (·.2), ∀ b ∈ bases c, rank main others (sec b) ≤ rank main others (sec c) := by
  rw [run_order hn h]
  have mem : ∀ c, c ∈ (others ++ [main]).flatMap (fun s => ((t.scan []).map (·.2)).filter (fun a => sec a = s)) ↔
      c ∈ (t.scan []).map (·.2) := by
    intro c
    rw [List.mem_flatMap]
    constructor
    · rintro ⟨s, _, h⟩; exact (List.mem_filter.mp h).1
    · intro h; exact ⟨sec c, hsec c h, List.mem_filter.mpr ⟨h, by simp⟩⟩
  constructor
  · intro hr c hc b hb
    exact rank_of_before sec _ hs (hr c ((mem c).mpr hc) b hb)
  · intro hr c hc b hb
    have hc := (mem c).mp hc
    have hbc := hscan c hc b hb
    exact before_of_rank sec _ hbc (hsec b (hbc.subset (by simp))) (hsec c hc) (hr c hc b hb)

/-! ## The section of a class -/

theorem sinksFor_ok {s : Setup} : ∀ {ds : List (Option Nat)} {l : List (Int × Nat)}, s.sinksFor ds = .ok l →
    List.Forall₂ (fun d x => s.sinkFor d = .ok x) ds l
  | [], l, h => by injection h with h; rw [← h]; exact .nil
  | d :: ds, l, h => by
    unfold Setup.sinksFor at h
    split at h
    · cases h
    · rename_i x hx
      split at h
      · cases h
      · rename_i xs hxs
        injection h with h
        rw [← h]
        exact .cons hx (sinksFor_ok hxs)

theorem foldl_max (l : List (Int × Nat)) : ∀ x : Int × Nat,
    let m := l.foldl (fun m a => if m.1 < a.1 then a else m) x
    m ∈ x :: l ∧ ∀ a ∈ x :: l, a.1 ≤ m.1 := by
  induction l with
  | nil => intro x; exact ⟨by simp, by simp⟩
  | cons y l ih =>
    intro x
    dsimp only [List.foldl_cons]
    by_cases hlt : x.1 < y.1
    · rw [if_pos hlt]
      obtain ⟨h1, h2⟩ := ih y
      refine ⟨List.mem_cons_of_mem _ h1, ?_⟩
      intro a ha
      rcases List.mem_cons.mp ha with rfl | ha
      · have := h2 y (by simp); omega
      · exact h2 a ha
    · rw [if_neg hlt]
      obtain ⟨h1, h2⟩ := ih x
      refine ⟨?_, ?_⟩
      · rcases List.mem_cons.mp h1 with h | h
        · rw [h]; simp
        · exact List.mem_cons_of_mem _ (List.mem_cons_of_mem _ h)
      · intro a ha
        rcases List.mem_cons.mp ha with rfl | ha
        · exact h2 a (by simp)
        · rcases List.mem_cons.mp ha with rfl | ha
          · have := h2 x (by simp); omega
          · exact h2 a (List.mem_cons_of_mem _ ha)

theorem forall2_mem {A B : Type} {R : A → B → Prop} {l : List A} {m : List B} (h : List.Forall₂ R l m) :
    (∀ b ∈ m, ∃ a ∈ l, R a b) ∧ ∀ a ∈ l, ∃ b ∈ m, R a b := by
  induction h with
  | nil => exact ⟨by simp, by simp⟩
  | @cons a b l m hr _ ih =>
    refine ⟨?_, ?_⟩
    · intro b' hb'
      rcases List.mem_cons.mp hb' with rfl | hb'
      · exact ⟨a, by simp, hr⟩
      · obtain ⟨a', h1, h2⟩ := ih.1 b' hb'
        exact ⟨a', List.mem_cons_of_mem _ h1, h2⟩
    · intro a' ha'
      rcases List.mem_cons.mp ha' with rfl | ha'
      · exact ⟨b, by simp, hr⟩
      · obtain ⟨b', h1, h2⟩ := ih.2 a' ha'
        exact ⟨b', List.mem_cons_of_mem _ h1, h2⟩

theorem sink_section (s : Setup) (c : Cls) (i : Nat) (h : s.sink c = .ok i) :
    ∃ d ∈ some c.decl :: c.args, ∃ p, s.sinkFor d = .ok (p, i) ∧
      ∀ d' ∈ some c.decl :: c.args, ∃ p' j, s.sinkFor d' = .ok (p', j) ∧ p' ≤ p := by
  unfold Setup.sink at h
  split at h
  · cases h
  · rename_i l hl
    have hf := sinksFor_ok hl
    cases l with
    | nil => cases hf
    | cons x l =>
      simp only [lastSorted] at h
      split at h
      · cases h
      · injection h with h
        obtain ⟨h1, h2⟩ := foldl_max l x
        obtain ⟨d, hd, hr⟩ := (forall2_mem hf).1 _ h1
        refine ⟨d, hd, _, by rw [← h]; exact hr, ?_⟩
        intro d' hd'
        obtain ⟨y, hy, hr'⟩ := (forall2_mem hf).2 d' hd'
        exact ⟨y.1, y.2, hr', h2 y hy⟩

theorem sinksFor_some {s : Setup} : ∀ {ds : List (Option Nat)}, (∀ d ∈ ds, ∃ x, s.sinkFor d = .ok x) →
    ∃ l, s.sinksFor ds = .ok l
  | [], _ => ⟨[], rfl⟩
  | d :: ds, h => by
    obtain ⟨x, hx⟩ := h d (by simp)
    obtain ⟨l, hl⟩ := sinksFor_some (ds := ds) (fun d hd => h d (List.mem_cons_of_mem _ hd))
    exact ⟨x :: l, by unfold Setup.sinksFor; rw [hx]; dsimp only; rw [hl]⟩

theorem sink_found (s : Setup) (c : Cls)
    (hf : ∀ d ∈ some c.decl :: c.args, ∃ x, s.sinkFor d = .ok x)
    (ht : ∀ d ∈ some c.decl :: c.args, ∀ d' ∈ some c.decl :: c.args, ∀ p i j,
      s.sinkFor d = .ok (p, i) → s.sinkFor d' = .ok (p, j) → i = j) : ∃ i, s.sink c = .ok i := by
  obtain ⟨l, hl⟩ := sinksFor_some hf
  have hf2 := sinksFor_ok hl
  unfold Setup.sink
  rw [hl]
  cases l with
  | nil => cases hf2
  | cons x l =>
    dsimp only
    simp only [lastSorted]
    rw [if_neg]
    · exact ⟨_, rfl⟩
    · intro h
      rw [List.any_eq_true] at h
      obtain ⟨a, ha, h⟩ := h
      rw [List.any_eq_true] at h
      obtain ⟨b, hb, h⟩ := h
      simp only [Bool.and_eq_true, decide_eq_true_eq] at h
      obtain ⟨d, hd, hr⟩ := (forall2_mem hf2).1 a ha
      obtain ⟨d', hd', hr'⟩ := (forall2_mem hf2).1 b hb
      refine h.2 (ht d hd d' hd' a.1 a.2 b.2 hr ?_)
      rw [h.1]; exact hr'

/-! ### Which section -/

/-- The section the classifier wants for a declaration: the one it returns, or the one with the name it returns.  What
is no declaration (such as `int`) belongs to the main section. -/
def Belongs (s : Setup) (d : Option Nat) (i : Nat) : Prop :=
  match d with
  | some d =>
    match s.classify d with
    | .section k => i = k ∧ k < s.sections.length
    | .name n => s.sections[i]? = some n
  | none => s.sections[i]? = some mainName

/-- The precedence number of that section; 0 if the classifier has none. -/
def precedence (s : Setup) (d : Option Nat) : Int :=
  match d with
  | some d => (s.prec (s.classify d)).getD 0
  | none => (s.prec (.name mainName)).getD 0

theorem find_some {s : Setup} {l : Label} {i : Nat} (h : s.find l = some i) :
    i < s.sections.length ∧ (l = .section i ∨ ∃ n, l = .name n ∧ s.sections[i]? = some n) := by
  unfold Setup.find at h
  have h1 := List.mem_range.1 (List.mem_of_find?_eq_some h)
  have h2 := List.find?_some h
  rw [Bool.or_eq_true, decide_eq_true_eq, decide_eq_true_eq] at h2
  refine ⟨h1, h2.imp id fun h2 => ?_⟩
  obtain ⟨n, hn, rfl⟩ := Option.map_eq_some_iff.1 h2
  exact ⟨n, rfl, hn⟩

theorem find_none {s : Setup} {l : Label} (h : s.find l = none) : ∀ i < s.sections.length,
    l ≠ .section i ∧ s.sections[i]?.map Label.name ≠ some l := by
  unfold Setup.find at h
  intro i hi
  have := List.find?_eq_none.1 h i (List.mem_range.2 hi)
  simpa using this

/-- **C119** What the parser finds for a declaration is the section the classifier wants, with its precedence. -/
theorem C119_belongs (s : Setup) (hn : s.sections.Nodup) (hm : mainName ∈ s.sections) (d : Option Nat) (p : Int) (i : Nat) :
    s.sinkFor d = .ok (p, i) ↔ Belongs s d i ∧ p = precedence s d := by
  cases d with
  | none =>
    have hlt : s.sections.idxOf mainName < s.sections.length := List.idxOf_lt_length_iff.2 hm
    have hmain : s.sections[s.sections.idxOf mainName]? = some mainName := by
      rw [List.getElem?_eq_getElem hlt, List.getElem_idxOf]
    constructor
    · intro h
      cases h
      exact ⟨hmain, rfl⟩
    · rintro ⟨hb, rfl⟩
      have : s.sections.idxOf mainName = i := (List.getElem?_inj hlt hn).1 (hmain.trans hb.symm)
      subst this
      rfl
  | some d =>
    have hx : s.sinkFor (some d) = (match s.find (s.classify d) with
      | some i => .ok (precedence s (some d), i)
      | none => .error .valueError) := rfl
    rw [hx]
    cases hf : s.find (s.classify d) with
    | none =>
      have hnone := find_none hf
      constructor
      · intro h; cases h
      · rintro ⟨hb, -⟩
        exfalso
        unfold Belongs at hb
        dsimp only at hb
        cases hc : s.classify d with
        | name n =>
          rw [hc] at hb hnone
          dsimp only at hb
          have hlt := (List.getElem?_eq_some_iff.1 hb).1
          exact (hnone i hlt).2 (by rw [hb]; rfl)
        | «section» k =>
          rw [hc] at hb hnone
          exact (hnone k hb.2).1 rfl
    | some j =>
      obtain ⟨hlt, hj⟩ := find_some hf
      have hbj : Belongs s (some d) j := by
        unfold Belongs
        dsimp only
        rcases hj with hj | ⟨n, hj, hn'⟩
        · rw [hj]; exact ⟨rfl, hlt⟩
        · rw [hj]; exact hn'
      constructor
      · intro h
        cases h
        exact ⟨hbj, rfl⟩
      · rintro ⟨hb, rfl⟩
        have : j = i := by
          unfold Belongs at hb hbj
          dsimp only at hb hbj
          cases hc : s.classify d with
          | name n =>
            rw [hc] at hb hbj
            exact (List.getElem?_inj hlt hn).1 (hbj.trans hb.symm)
          | «section» k =>
            rw [hc] at hb hbj
            exact hbj.1.trans hb.1.symm
        subst this
        rfl

/-- **C119** A class is registered in the section with the highest precedence number among its own and those of its
template arguments. -/
theorem C119_section (s : Setup) (hn : s.sections.Nodup) (hm : mainName ∈ s.sections) (c : Cls) (i : Nat)
    (h : s.sink c = .ok i) :
    ∃ d ∈ some c.decl :: c.args, Belongs s d i ∧
      ∀ d' ∈ some c.decl :: c.args, (∃ j, Belongs s d' j) ∧ precedence s d' ≤ precedence s d := by
  obtain ⟨d, hd, p, hp, hall⟩ := sink_section s c i h
  obtain ⟨hb, rfl⟩ := (C119_belongs s hn hm d p i).1 hp
  refine ⟨d, hd, hb, fun d' hd' => ?_⟩
  obtain ⟨p', j, hj, hle⟩ := hall d' hd'
  obtain ⟨hb', rfl⟩ := (C119_belongs s hn hm d' p' j).1 hj
  exact ⟨⟨j, hb'⟩, hle⟩

/-- **C119** Choosing the section fails only for labels that are no section, or if two different sections with the same
precedence are involved. -/
theorem C119_section_found_partial (s : Setup) (hn : s.sections.Nodup) (hm : mainName ∈ s.sections) (c : Cls)
    (hf : ∀ d ∈ some c.decl :: c.args, ∃ i, Belongs s d i)
    (ht : ∀ d ∈ some c.decl :: c.args, ∀ d' ∈ some c.decl :: c.args, ∀ i j, Belongs s d i → Belongs s d' j →
      precedence s d = precedence s d' → i = j) : ∃ i, s.sink c = .ok i := by
  refine sink_found s c (fun d hd => ?_) (fun d hd d' hd' p i j h h' => ?_)
  · obtain ⟨i, hi⟩ := hf d hd
    exact ⟨_, (C119_belongs s hn hm d _ i).2 ⟨hi, rfl⟩⟩
  · obtain ⟨h1, h2⟩ := (C119_belongs s hn hm d p i).1 h
    obtain ⟨h1', h2'⟩ := (C119_belongs s hn hm d' p j).1 h'
    exact ht d hd d' hd' i j h1 h1' (h2.symm.trans h2')

/-- **C119** If the sections are listed in the order of their precedence, the main section last, and no base class, nor
a template argument of one, belongs to a section with a higher precedence number than that of the class, then the script
runs. -/
theorem C119_runs_partial (s : Setup) (hn : s.sections.Nodup) (hm : mainName ∈ s.sections)
    (p : Nat → Int) (main : Nat) (others : List Nat) (fname : List Str → Str) (t : NS Nat)
    (cls : Nat → Cls) (bases : Nat → List Nat) (sec : Nat → Nat)
    (hs : (others ++ [main]).Nodup)
    (hp : ∀ d i, Belongs s d i → precedence s d = p i)
    (hord : ∀ i ∈ others ++ [main], ∀ j ∈ others ++ [main], rank main others i ≤ rank main others j ↔ p i ≤ p j)
    (hsec : ∀ c ∈ (t.scan []).map (·.2), s.sink (cls c) = .ok (sec c) ∧ sec c ∈ others ++ [main])
    (hle : ∀ c ∈ (t.scan []).map (·.2), ∀ b ∈ bases c, ∀ d ∈ some (cls b).decl :: (cls b).args,
      precedence s d ≤ precedence s (some (cls c).decl))
    (hns : ((t.paths []).map fname).Nodup) (hscan : Runnable bases ((t.scan []).map (·.2)))
    (out : List (List Str × Nat)) (h : RunsSections fname main others sec t out) :
    Runnable bases (out.map (·.2)) := by
  rw [C119_runs_iff fname main others sec t hs (fun c hc => (hsec c hc).2) hns bases hscan out h]
  intro c hc b hb
  have hbm : b ∈ (t.scan []).map (·.2) := (hscan c hc b hb).subset (by simp)
  rw [hord _ (hsec b hbm).2 _ (hsec c hc).2]
  obtain ⟨d, hd, hq, -⟩ := C119_section s hn hm (cls b) (sec b) (hsec b hbm).1
  obtain ⟨d', hd', hq', hall⟩ := C119_section s hn hm (cls c) (sec c) (hsec c hc).1
  have hown := (hall (some (cls c).decl) (by simp)).2
  have h1 := hle c hc b hb d hd
  rw [← hp d _ hq, ← hp d' _ hq']
  omega

/-! ## Where it fails -/

/-- Two sections besides the main one, no precedence. -/
def plain : Setup := ⟨["a".toList, "b".toList, mainName], fun d => .section (d % 3), fun _ => none⟩

/-- Counterexample: without `get_section_precedence`, or with equal precedences, the instance of a template from one
section with an argument from another stops the scan with a `TypeError`. -/
theorem C119_equal_counterexample : plain.sink ⟨0, [some 1]⟩ = .error .typeError := by decide

/-- The same classes with precedences. -/
def graded : Setup := { plain with prec := fun l => match l with | .section i => some (2 - i) | .name _ => some 0 }

/-- Counterexample: sections are run in the order in which they are listed, whatever their precedence: with precedences
2, 1, 0 for `a`, `b` and the main section, a class in `a` whose base is in `b` is registered before it. -/
theorem C119_precedence_counterexample :
    let t : NS Nat := .node [] [1, 0] []
    graded.sink ⟨0, []⟩ = .ok 0 ∧ graded.sink ⟨1, []⟩ = .ok 1 ∧ graded.sinkFor (some 0) = .ok (2, 0) ∧
    graded.sinkFor (some 1) = .ok (1, 1) ∧
    RunsSections (nsName typesPre []) 2 [0, 1] (fun c => c) t [([], 0), ([], 1)] ∧
    ¬ Runnable (fun c => if c = 0 then [1] else []) [0, 1] := by
  refine ⟨by decide, by decide, by decide, by decide, ⟨[[([], 0)], [([], 1)]], [], .cons ?_ (.cons ?_ .nil), ?_, rfl⟩, ?_⟩
  · exact ⟨⟨typesPre, [.own 0]⟩, by decide +kernel, .own .nil⟩
  · exact ⟨⟨typesPre, [.own 1]⟩, by decide +kernel, .own .nil⟩
  · exact ⟨⟨typesPre, []⟩, by decide +kernel, .nil⟩
  · intro h
    have := h 0 (by decide) 1 (by decide)
    exact absurd this (by decide)

/-! ## A case -/

/-- Precedences 0, 1, 2. -/
def sorted : Setup := { plain with prec := fun l => match l with | .section i => some i | .name _ => some 2 }

/-- A template instance goes to the section of its argument; one with a plain argument to the main section. -/
example : sorted.sink ⟨0, [some 1]⟩ = .ok 1 ∧ sorted.sink ⟨1, [some 0]⟩ = .ok 1 ∧ sorted.sink ⟨0, [none]⟩ = .ok 2 ∧
    sorted.sink ⟨4, []⟩ = .ok 1 := by decide

/-- A classifier that returns names. -/
example :
    let s : Setup := { sorted with classify := fun d => .name (if d = 0 then "b".toList else "a".toList) }
    s.sections.Nodup ∧ mainName ∈ s.sections ∧ Belongs s (some 0) 1 ∧ Belongs s (some 5) 0 ∧ Belongs s none 2 ∧
    Belongs sorted (some 4) 1 ∧ s.sinkFor (some 0) = .ok (2, 1) :=
  ⟨by decide, by decide, rfl, rfl, rfl, ⟨rfl, by decide⟩, by decide⟩

example : Runnable (fun c => if c = 1 then [0] else []) [0, 1] := by
  intro c hc b hb
  have : c = 0 ∨ c = 1 := by simpa using hc
  rcases this with rfl | rfl
  · simp at hb
  · have : b = 0 := by simpa using hb
    subst this
    decide

end Verif.Sinks
