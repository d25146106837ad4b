import Verif.CType.Props
import Mathlib.Data.List.TakeWhile

/-!
# C16, C17: type traits
-/
namespace Verif.CType
open Verif

/-! ## Spec vocabulary -/

/-- The outermost level of a type: what follows its last top-level `*`/`&`. -/
def outer (l : List Item) : List Item := (l.reverse.takeWhile (fun i => !i.isPtrRef)).reverse

def hasConst (l : List Item) : Bool := l.any (·.isNamed kConst)
def dropConst (l : List Item) : List Item := l.filter (fun i => !i.isNamed kConst)
def unqualified (l : List Item) : List Item := l.filter (fun i => !i.isMod)

/-- `TypeTraits(s)`: parse, then gather (lines 312-352). -/
def traits (s : Str) : CRes Traits :=
  match parseType s with
  | .ok c => match traitsOf c with
    | some t => .ok t
    | none => .raised .assertionError
  | .raised e => .raised e
  | .unmodelled => .unmodelled
  | .running => .running

/-! ## Removing modifiers -/

theorem deleteFirst_none {m : Str} {l : List Item} (h : deleteFirst m l = none) :
    l.filter (fun i => !i.isNamed m) = l := by
  induction l with
  | nil => rfl
  | cons x r ih =>
    unfold deleteFirst at h
    split at h
    · cases h
    · rename_i hx
      have : deleteFirst m r = none := by
        cases hr : deleteFirst m r with
        | none => rfl
        | some r' => rw [hr] at h; cases h
      simp [List.filter_cons, hx, ih this]

theorem deleteFirst_some {m : Str} {l l' : List Item} (h : deleteFirst m l = some l') :
    l'.filter (fun i => !i.isNamed m) = l.filter (fun i => !i.isNamed m) ∧ l'.length < l.length := by
  induction l generalizing l' with
  | nil => cases h
  | cons x r ih =>
    unfold deleteFirst at h
    split at h
    · rename_i hx; cases h; simp [List.filter_cons, hx]
    · rename_i hx
      cases hr : deleteFirst m r with
      | none => rw [hr] at h; cases h
      | some r' =>
        rw [hr] at h; cases h
        obtain ⟨h1, h2⟩ := ih hr
        constructor
        · simp [List.filter_cons, hx, h1]
        · simp; omega

theorem removeLoop_eq {m : Str} : ∀ (n : Nat) (l : List Item) (r : List Item × Bool), l.length < n →
    (removeLoop m n l r).1 = l.filter (fun i => !i.isNamed m) := by
  intro n
  induction n with
  | zero => intro l r h; omega
  | succ n ih =>
    intro l r h
    unfold removeLoop
    cases hd : deleteFirst m l with
    | none => simp only; exact (deleteFirst_none hd).symm
    | some l' =>
      obtain ⟨h1, h2⟩ := deleteFirst_some hd
      simp only
      rw [ih l' _ (by omega), h1]

theorem removeModifiers_eq (l : List Item) : removeModifiers l = unqualified l := by
  unfold removeModifiers
  simp only [kModifiers, List.foldl_cons, List.foldl_nil, removeModifier]
  rw [removeLoop_eq _ _ _ (by omega), removeLoop_eq _ _ _ (by omega), List.filter_filter]
  unfold unqualified
  congr 1
  funext a
  simp [Item.isMod, Bool.and_comm]

theorem deleteFirst_split {m : Str} : ∀ (z p : List Item) (x : Item), x.isNamed m = true →
    (∀ i ∈ z, i.isNamed m = false) → deleteFirst m (z ++ x :: p) = some (z ++ p) := by
  intro z
  induction z with
  | nil => intro p x hx _; simp [deleteFirst, hx]
  | cons y z ih =>
    intro p x hx hz
    simp [deleteFirst, hz y (by simp), ih p x hx (fun i hi => hz i (List.mem_cons_of_mem _ hi))]

theorem removeOuter_split {m : Str} (p z : List Item) (x : Item) (hx : x.isNamed m = true)
    (hz : ∀ i ∈ z, i.isNamed m = false) : removeOuter m (p ++ x :: z) = (p ++ z, true) := by
  unfold removeOuter
  have : (p ++ x :: z).reverse = z.reverse ++ x :: p.reverse := by simp
  rw [this, deleteFirst_split z.reverse p.reverse x hx (by intro i hi; exact hz i (by simpa using hi))]
  simp

theorem removeOuter_none {m : Str} (l : List Item) (h : ∀ i ∈ l, i.isNamed m = false) :
    removeOuter m l = (l, false) := by
  unfold removeOuter
  have : deleteFirst m l.reverse = none := by
    have : ∀ l : List Item, (∀ i ∈ l, i.isNamed m = false) → deleteFirst m l = none := by
      intro l
      induction l with
      | nil => intro _; rfl
      | cons x r ih =>
        intro h
        simp [deleteFirst, h x (by simp), ih (fun i hi => h i (List.mem_cons_of_mem _ hi))]
    exact this _ (by intro i hi; exact h i (by simpa using hi))
  rw [this]

/-! ## The loop -/

theorem ptr_not_const {i : Item} (h : i.isPtrRef = true) : i.isNamed kConst = false := by
  cases hc : i.isNamed kConst with
  | false => rfl
  | true => rw [named_not_ptr (by decide) hc] at h; cases h

theorem ptr_cases {i : Item} (h : i.isPtrRef = true) :
    (i.isNamed ['*'] = true ∧ i.isNamed ['&'] = false) ∨ (i.isNamed ['*'] = false ∧ i.isNamed ['&'] = true) := by
  cases i with
  | sub c => cases h
  | tok t =>
    simp only [Item.isPtrRef, Item.isNamed, Bool.or_eq_true, beq_iff_eq] at *
    rcases h with h | h <;> rw [h] <;> decide

theorem not_ptr {i : Item} (h : i.isPtrRef = false) : i.isNamed ['*'] = false ∧ i.isNamed ['&'] = false := by
  simpa [Item.isPtrRef] using h

theorem traitLoop_seg (rest : List Item) : ∀ (seg' : List Item) (pos : Nat) (st : TState) (p z : List Item),
    (∀ i ∈ seg', i.isPtrRef = false) → (∀ i ∈ z, i.isNamed kConst = false) →
    st.level = 0 → st.noConst = p ++ seg'.reverse ++ z →
    traitLoop pos st (seg' ++ rest) =
      traitLoop (pos + seg'.length)
        { st with isConst := st.isConst || hasConst seg', noConst := p ++ dropConst seg'.reverse ++ z } rest := by
  intro seg'
  induction seg' with
  | nil =>
    intro pos st p z _ _ _ hn
    simp only [List.nil_append, List.length_nil, Nat.add_zero, hasConst, List.any_nil, Bool.or_false]
    congr 1
    cases st
    simp_all [dropConst]
  | cons i r ih =>
    intro pos st p z hp hz hl hn
    have hpi := hp i (by simp)
    have hpr : ∀ j ∈ r, j.isPtrRef = false := fun j hj => hp j (List.mem_cons_of_mem _ hj)
    obtain ⟨hs1, hs2⟩ := not_ptr hpi
    simp only [List.cons_append, traitLoop]
    cases hc : i.isNamed kConst with
    | true =>
      have hro : removeOuter kConst st.noConst = (p ++ r.reverse ++ z, true) := by
        rw [hn]
        have := removeOuter_split (p ++ r.reverse) z i hc hz
        simpa using this
      have hstep : traitStep pos st i = some { st with isConst := true, noConst := p ++ r.reverse ++ z } := by
        simp [traitStep, hc, hl, hro]
      rw [hstep]
      simp only [Option.bind_some]
      rw [ih (pos + 1) { st with isConst := true, noConst := p ++ r.reverse ++ z } p z hpr hz hl rfl]
      have e : pos + 1 + r.length = pos + (i :: r).length := by simp; omega
      rw [e]
      congr 1
      simp [hasConst, dropConst, hc, List.filter_append, List.filter_cons]
    | false =>
      simp only [traitStep, hc, hs1, hs2, Bool.false_eq_true, if_false, Option.bind_some]
      rw [ih (pos + 1) st p (i :: z) hpr (by
        intro j hj
        simp at hj
        rcases hj with rfl | hj
        · exact hc
        · exact hz j hj) hl (by rw [hn]; simp)]
      have e : pos + 1 + r.length = pos + (i :: r).length := by simp; omega
      rw [e]
      congr 1
      simp [hasConst, dropConst, hc, List.filter_append, List.filter_cons]

theorem traitLoop_inner : ∀ (r : List Item) (pos : Nat) (st : TState), st.level ≠ 0 →
    ∃ lv, traitLoop pos st r = some { st with
      level := lv
      targetConst := st.targetConst ||
        (decide (st.level = 1) && hasConst (r.takeWhile (fun i => !i.isPtrRef))) } := by
  intro r
  induction r with
  | nil => intro pos st _; exact ⟨st.level, by simp [traitLoop, hasConst]⟩
  | cons i r ih =>
    intro pos st hl
    simp only [traitLoop]
    cases hc : i.isNamed kConst with
    | true =>
      have hp := named_not_ptr (by decide) hc
      by_cases h1 : st.level = 1
      · have hstep : traitStep pos st i = some { st with targetConst := true } := by
          simp [traitStep, hc, h1]
        rw [hstep]
        simp only [Option.bind_some]
        obtain ⟨lv, h⟩ := ih (pos + 1) { st with targetConst := true } hl
        refine ⟨lv, ?_⟩
        rw [h]
        simp [hasConst, hp, hc, h1]
      · simp only [traitStep, hc, hl, h1, if_true, if_false, Option.bind_some]
        obtain ⟨lv, h⟩ := ih (pos + 1) st hl
        refine ⟨lv, ?_⟩
        rw [h]
        simp [h1]
    | false =>
      cases hp : i.isPtrRef with
      | false =>
        obtain ⟨hs1, hs2⟩ := not_ptr hp
        simp only [traitStep, hc, hs1, hs2, Bool.false_eq_true, if_false, Option.bind_some]
        obtain ⟨lv, h⟩ := ih (pos + 1) st hl
        refine ⟨lv, ?_⟩
        rw [h]
        simp [hasConst, hp, hc]
      | true =>
        have hstep : traitStep pos st i = some { st with level := st.level + 1 } := by
          rcases ptr_cases hp with ⟨ha, hb⟩ | ⟨ha, hb⟩ <;> simp [traitStep, hc, ha, hb, hl]
        rw [hstep]
        simp only [Option.bind_some]
        obtain ⟨lv, h⟩ := ih (pos + 1) { st with level := st.level + 1 } (by simp)
        refine ⟨lv, ?_⟩
        rw [h]
        simp [hasConst, hp, hl]

theorem traits_flat (l : List Item) (h : ∀ i ∈ l, i.isPtrRef = false) :
    traitsOf l = some
      { ctype := l, noModifiers := unqualified l, noConst := dropConst l, isConst := hasConst l,
        isRef := false, isPtr := false, targetConst := false, target := none,
        noConstNoRef := dropConst l } := by
  unfold traitsOf
  have := traitLoop_seg [] l.reverse 0 { noConst := l } [] [] (by
    intro i hi; exact h i (by simpa using hi)) (by simp) rfl (by simp)
  rw [List.append_nil] at this
  rw [this]
  simp only [traitLoop, Option.map_some]
  have h2 : ∀ i ∈ dropConst l, i.isNamed ['&'] = false := by
    intro i hi
    exact (not_ptr (h i (by simp [dropConst] at hi; exact hi.1))).2
  simp [removeModifiers_eq, hasConst, removeOuter_none _ h2]

theorem traits_split (pre seg : List Item) (d : Item) (hd : d.isPtrRef = true)
    (h : ∀ i ∈ seg, i.isPtrRef = false) :
    traitsOf (pre ++ d :: seg) = some
      { ctype := pre ++ d :: seg
        noModifiers := unqualified (pre ++ d :: seg)
        noConst := pre ++ d :: dropConst seg
        isConst := hasConst seg
        isRef := d.isNamed ['&']
        isPtr := d.isNamed ['*']
        targetConst := hasConst (outer pre)
        target := some (unqualified pre)
        noConstNoRef := (removeOuter ['&'] (pre ++ d :: dropConst seg)).1 } := by
  unfold traitsOf
  have hrev : (pre ++ d :: seg).reverse = seg.reverse ++ (d :: pre.reverse) := by simp
  rw [hrev]
  have := traitLoop_seg (d :: pre.reverse) seg.reverse 0 { noConst := pre ++ d :: seg } (pre ++ [d]) [] (by
    intro i hi; exact h i (by simpa using hi)) (by simp) rfl (by simp)
  rw [this]
  simp only [traitLoop]
  have hc := ptr_not_const hd
  have hstep : ∀ st : TState, st.level = 0 → traitStep (0 + seg.reverse.length) st d =
      some { st with level := 1, isPtr := st.isPtr || d.isNamed ['*'], isRef := st.isRef || d.isNamed ['&'],
                     targetPos := some (seg.length + 1) } := by
    intro st hl
    rcases ptr_cases hd with ⟨ha, hb⟩ | ⟨ha, hb⟩ <;> simp [traitStep, hc, ha, hb, hl]
  rw [hstep _ rfl]
  simp only [Option.bind_some]
  obtain ⟨lv, hlv⟩ := traitLoop_inner pre.reverse (0 + seg.reverse.length + 1)
    { level := 1, isConst := false || hasConst seg.reverse, isRef := false || d.isNamed ['&'],
      isPtr := false || d.isNamed ['*'], targetConst := false, targetPos := some (seg.length + 1),
      noConst := (pre ++ [d]) ++ dropConst seg.reverse.reverse ++ [] } (by simp)
  rw [hlv]
  have hdrop : (seg.reverse ++ d :: pre.reverse).drop (seg.length + 1) = pre.reverse := by
    have : seg.length + 1 = (seg.reverse ++ [d]).length := by simp
    rw [this, show seg.reverse ++ d :: pre.reverse = (seg.reverse ++ [d]) ++ pre.reverse by simp,
      List.drop_left]
  simp [removeModifiers_eq, hasConst, outer, hdrop]

/-- Every type has traits: the `assert` in the constructor never fails. -/
theorem traits_total (l : List Item) : ∃ t, traitsOf l = some t := by
  have key : (∀ i ∈ l, i.isPtrRef = false) ∨
      ∃ pre d seg, l = pre ++ d :: seg ∧ d.isPtrRef = true ∧ ∀ i ∈ seg, i.isPtrRef = false := by
    induction l with
    | nil => left; simp
    | cons x r ih =>
      rcases ih with ih | ⟨pre, d, seg, rfl, h1, h2⟩
      · cases hx : x.isPtrRef with
        | true => right; exact ⟨[], x, r, rfl, hx, ih⟩
        | false =>
          left
          intro i hi
          simp at hi
          rcases hi with rfl | hi
          · exact hx
          · exact ih i hi
      · right; exact ⟨x :: pre, d, seg, rfl, h1, h2⟩
  rcases key with h | ⟨pre, d, seg, rfl, h1, h2⟩
  · exact ⟨_, traits_flat l h⟩
  · exact ⟨_, traits_split pre seg d h1 h2⟩

/-! ## Canonical form and levels -/

theorem canon_split (pre seg : List Item) (d : Item) (hd : d.isPtrRef = true)
    (h : ∀ i ∈ seg, i.isPtrRef = false) : canon (pre ++ d :: seg) = canon pre ++ d :: canonSeg seg := by
  suffices ∀ (pre acc : List Item), canonAcc acc (pre ++ d :: seg) = canonAcc acc pre ++ d :: canonSeg seg by
    exact this pre []
  intro pre
  induction pre with
  | nil => intro acc; simp [canonAcc, hd, canonAcc_end seg [] h]
  | cons x r ih =>
    intro acc
    simp only [List.cons_append, canonAcc]
    split
    · rw [ih]; simp
    · rw [ih]

theorem hasConst_canonSeg (s : List Item) : hasConst (canonSeg s) = hasConst s := by
  unfold hasConst canonSeg
  rw [Bool.eq_iff_iff]
  simp only [List.any_eq_true, List.mem_append, List.mem_filter]
  constructor
  · rintro ⟨x, hx, hc⟩; exact ⟨x, by tauto, hc⟩
  · rintro ⟨x, hx, hc⟩; exact ⟨x, .inl (.inr ⟨hx, hc⟩), hc⟩

theorem unqualified_canonSeg (s : List Item) : unqualified (canonSeg s) = unqualified s := by
  unfold unqualified canonSeg
  simp only [List.filter_append, List.filter_filter, Bool.and_self]
  have h1 : ∀ n ∈ kModifiers, s.filter (fun i => (!i.isMod) && i.isNamed n) = [] := by
    intro n hn
    rw [List.filter_eq_nil_iff]
    intro a _ ha
    cases hm : a.isNamed n with
    | false => rw [hm] at ha; simp at ha
    | true => rw [named_mod hn hm] at ha; simp at ha
  rw [h1 kConst (by decide), h1 kVolatile (by decide)]
  simp

theorem unqualified_append (a b : List Item) : unqualified (a ++ b) = unqualified a ++ unqualified b := by
  simp [unqualified]

theorem unqualified_canon (l : List Item) : unqualified (canon l) = unqualified l := by
  unfold canon
  induction l using levels_induction with
  | last s hs => rw [canonAcc_end s [] hs]; simpa using unqualified_canonSeg s
  | level s d r hs hd ih =>
    rw [canonAcc_seg s [] r d hs hd, show canonSeg ([] ++ s) = canonSeg s from rfl,
      show d :: canonAcc [] r = [d] ++ canonAcc [] r from rfl, show d :: r = [d] ++ r from rfl]
    simp only [unqualified_append]
    rw [ih, unqualified_canonSeg]

theorem dropConst_canonSeg (s : List Item) : dropConst (canonSeg s) = canonSeg (dropConst s) := by
  unfold dropConst canonSeg
  simp only [List.filter_append, List.filter_filter]
  have h1 : s.filter (fun a => (!a.isNamed kConst) && a.isNamed kConst) = [] := by
    rw [List.filter_eq_nil_iff]; intro a _; cases a.isNamed kConst <;> simp
  have h2 : s.filter (fun a => a.isNamed kConst && !a.isNamed kConst) = [] := by
    rw [List.filter_eq_nil_iff]; intro a _; cases a.isNamed kConst <;> simp
  rw [h1, h2]
  congr 1
  · congr 1
    congr 1; funext a; rw [Bool.and_comm]
  · congr 1; funext a; rw [Bool.and_comm]

theorem outer_last (s : List Item) (h : ∀ i ∈ s, i.isPtrRef = false) : outer s = s := by
  unfold outer
  have : s.reverse.takeWhile (fun i => !i.isPtrRef) = s.reverse := by
    rw [List.takeWhile_eq_self_iff]
    intro i hi; simp [h i (by simpa using hi)]
  rw [this]; simp

theorem outer_split (pre seg : List Item) (d : Item) (hd : d.isPtrRef = true)
    (h : ∀ i ∈ seg, i.isPtrRef = false) : outer (pre ++ d :: seg) = seg := by
  unfold outer
  have : (pre ++ d :: seg).reverse = seg.reverse ++ d :: pre.reverse := by simp
  rw [this, List.takeWhile_append_of_pos (by intro i hi; simp [h i (by simpa using hi)]),
    List.takeWhile_cons_of_neg (by simp [hd])]
  simp

theorem split_or (l : List Item) : (∀ i ∈ l, i.isPtrRef = false) ∨
    ∃ pre d seg, l = pre ++ d :: seg ∧ d.isPtrRef = true ∧ ∀ i ∈ seg, i.isPtrRef = false := by
  induction l with
  | nil => left; simp
  | cons x r ih =>
    rcases ih with ih | ⟨pre, d, seg, rfl, h1, h2⟩
    · cases hx : x.isPtrRef with
      | true => right; exact ⟨[], x, r, rfl, hx, ih⟩
      | false =>
        left
        intro i hi
        simp at hi
        rcases hi with rfl | hi
        · exact hx
        · exact ih i hi
    · right; exact ⟨x :: pre, d, seg, rfl, h1, h2⟩

theorem canonSeg_ptr {s : List Item} (h : ∀ i ∈ s, i.isPtrRef = false) : ∀ i ∈ canonSeg s, i.isPtrRef = false := by
  intro i hi; simp [canonSeg] at hi; exact h i (by tauto)

theorem hasConst_outer_canon (l : List Item) : hasConst (outer (canon l)) = hasConst (outer l) := by
  rcases split_or l with h | ⟨pre, d, seg, rfl, h1, h2⟩
  · rw [canon, canonAcc_end l [] h]
    simp only [List.nil_append]
    rw [outer_last l h, outer_last _ (canonSeg_ptr h), hasConst_canonSeg]
  · rw [canon_split pre seg d h1 h2, outer_split _ _ d h1 h2, outer_split _ _ d h1 (canonSeg_ptr h2),
      hasConst_canonSeg]

theorem hasConst_deep (l : List Item) : hasConst (deepList l) = hasConst l := by
  simp [hasConst, deepList_map, Function.comp_def, deepItem_named]

theorem outer_deep (l : List Item) : outer (deepList l) = deepList (outer l) := by
  unfold outer
  simp only [deepList_map]
  rw [← List.map_reverse, List.takeWhile_map, ← List.map_reverse]
  congr 4
  funext i
  simp [deepItem_ptr]

theorem dropConst_deep (l : List Item) : dropConst (deepList l) = deepList (dropConst l) := by
  simp [dropConst, deepList_map, List.filter_map, Function.comp_def, deepItem_named]

/-- C16, types without a top-level `*` or `&`, however written: never a pointer or reference,
no target, const iff a top-level `const` occurs; the derived types are the type without the
top-level modifiers, and without the top-level `const`. -/
theorem C16_traits_value (s : Str) (l : List Item) (h : Denotes s l)
    (hv : ∀ i ∈ l, i.isPtrRef = false) :
    ∃ t, traits s = .ok t ∧ t.ctype = deepCanon l ∧ t.isPtr = false ∧ t.isRef = false ∧
      t.target = none ∧ t.targetConst = false ∧ t.isConst = hasConst l ∧
      t.noModifiers = unqualified (deepList l) ∧ t.noConst = deepCanon (dropConst l) ∧
      t.noConstNoRef = deepCanon (dropConst l) := by
  obtain ⟨ts, h1, h2⟩ := h
  have hpt : parseType s = .ok (deepCanon l) := by
    unfold parseType; rw [h1]; simp only; exact (parse_iff ts _).2 ⟨l, h2, rfl⟩
  have hv' : ∀ i ∈ deepList l, i.isPtrRef = false := by
    intro i hi; rw [deepList_map] at hi; simp at hi
    obtain ⟨a, ha, rfl⟩ := hi; rw [deepItem_ptr]; exact hv a ha
  have hc : deepCanon l = canonSeg (deepList l) := by
    unfold deepCanon canon; rw [canonAcc_end _ [] hv']; rfl
  have hc2 : deepCanon (dropConst l) = canonSeg (dropConst (deepList l)) := by
    unfold deepCanon canon
    rw [← dropConst_deep, canonAcc_end _ [] (by
      intro i hi; exact hv' i (by simp [dropConst] at hi; exact hi.1))]; rfl
  refine ⟨_, by unfold traits; rw [hpt]; simp only; rw [hc, traits_flat _ (canonSeg_ptr hv')], hc.symm, rfl, rfl, rfl, rfl, ?_, ?_, ?_, ?_⟩
  · simp only; rw [hasConst_canonSeg, hasConst_deep]
  · simp only; rw [unqualified_canonSeg]
  · simp only; rw [hc2, dropConst_canonSeg]
  · simp only; rw [hc2, dropConst_canonSeg]

/-- C16, types `pre d seg` whose last top-level `*`/`&` is `d`, however written: pointer iff `d`
is `*`, reference iff `d` is `&`; const iff `const` follows `d`; the target is `pre` without
modifiers, and it is const iff `const` stands on the outermost level of `pre`. -/
theorem C16_traits_pointer (s : Str) (pre seg : List Item) (d : Item)
    (h : Denotes s (pre ++ d :: seg)) (hd : d.isPtrRef = true) (hseg : ∀ i ∈ seg, i.isPtrRef = false) :
    ∃ t, traits s = .ok t ∧ t.ctype = deepCanon (pre ++ d :: seg) ∧
      t.isPtr = d.isNamed ['*'] ∧ t.isRef = d.isNamed ['&'] ∧
      t.isConst = hasConst seg ∧ t.targetConst = hasConst (outer pre) ∧
      t.target = some (unqualified (deepList pre)) ∧
      t.noModifiers = unqualified (deepList (pre ++ d :: seg)) ∧
      t.noConst = deepCanon (pre ++ d :: dropConst seg) ∧
      (d.isNamed ['&'] = true → t.noConstNoRef = deepCanon pre ++ deepCanon (dropConst seg)) ∧
      ((∀ i ∈ pre ++ d :: seg, i.isNamed ['&'] = false) → t.noConstNoRef = t.noConst) := by
  obtain ⟨ts, h1, h2⟩ := h
  have hpt : parseType s = .ok (deepCanon (pre ++ d :: seg)) := by
    unfold parseType; rw [h1]; simp only; exact (parse_iff ts _).2 ⟨_, h2, rfl⟩
  have hseg' : ∀ i ∈ deepList seg, i.isPtrRef = false := by
    intro i hi; rw [deepList_map] at hi; simp at hi
    obtain ⟨a, ha, rfl⟩ := hi; rw [deepItem_ptr]; exact hseg a ha
  have hd' : (deepItem d).isPtrRef = true := by rw [deepItem_ptr]; exact hd
  have hc : ∀ sg : List Item, (∀ i ∈ sg, i.isPtrRef = false) → deepCanon (pre ++ d :: sg) =
      deepCanon pre ++ deepItem d :: canonSeg (deepList sg) := by
    intro sg hsg
    unfold deepCanon
    rw [deepList_append, deepList, canon_split _ _ _ hd' (by
      intro i hi; rw [deepList_map] at hi; simp at hi
      obtain ⟨a, ha, rfl⟩ := hi; rw [deepItem_ptr]; exact hsg a ha)]
  have hdc : ∀ i ∈ dropConst seg, i.isPtrRef = false := by
    intro i hi; exact hseg i (by simp [dropConst] at hi; exact hi.1)
  have hdc' : ∀ i ∈ deepList (dropConst seg), i.isPtrRef = false := by
    intro i hi; rw [← dropConst_deep] at hi; exact hseg' i (by simp [dropConst] at hi; exact hi.1)
  have hcs : deepCanon (dropConst seg) = dropConst (canonSeg (deepList seg)) := by
    unfold deepCanon canon
    rw [canonAcc_end _ [] hdc', List.nil_append, dropConst_canonSeg, dropConst_deep]
  refine ⟨_, by unfold traits; rw [hpt]; simp only; rw [hc seg hseg, traits_split _ _ _ hd' (canonSeg_ptr hseg')],
    (hc seg hseg).symm, ?_, ?_, ?_, ?_, ?_, ?_, ?_, ?_, ?_⟩
  · simp only [deepItem_named]
  · simp only [deepItem_named]
  · simp only; rw [hasConst_canonSeg, hasConst_deep]
  · simp only; unfold deepCanon; rw [hasConst_outer_canon, outer_deep, hasConst_deep]
  · simp only; unfold deepCanon; rw [unqualified_canon]
  · simp only
    rw [show deepItem d :: canonSeg (deepList seg) = [deepItem d] ++ canonSeg (deepList seg) from rfl]
    simp only [unqualified_append]
    unfold deepCanon
    rw [unqualified_canon, unqualified_canonSeg, deepList_append, unqualified_append, deepList,
      show deepItem d :: deepList seg = [deepItem d] ++ deepList seg from rfl, unqualified_append]
  · simp only
    rw [hc _ hdc, dropConst_canonSeg, dropConst_deep]
  · intro hamp
    simp only
    rw [removeOuter_split _ _ _ (by rw [deepItem_named]; exact hamp), hcs]
    intro i hi
    exact (not_ptr (canonSeg_ptr hseg' i (by simp [dropConst] at hi; exact hi.1))).2
  · intro hno
    simp only
    rw [removeOuter_none]
    intro i hi
    have hmem : ∀ l : List Item, ∀ i ∈ deepCanon l, (∃ j ∈ l, i = deepItem j) := by
      intro l i hi
      unfold deepCanon at hi
      have : ∀ (l acc : List Item), i ∈ canonAcc acc l → i ∈ acc ++ l := by
        intro l
        induction l with
        | nil => intro acc h; simp [canonAcc, canonSeg] at h; simp; tauto
        | cons x r ih =>
          intro acc h
          rw [canonAcc] at h
          split at h
          · simp only [List.mem_append, List.mem_cons] at h ⊢
            rcases h with h | h | h
            · simp [canonSeg] at h; tauto
            · tauto
            · have := ih [] h; simp at this; tauto
          · have := ih _ h; simpa using this
      have := this _ [] hi
      rw [deepList_map] at this
      simp at this
      obtain ⟨a, ha, rfl⟩ := this
      exact ⟨a, ha, rfl⟩
    simp only [List.mem_append, List.mem_cons] at hi
    rcases hi with hi | rfl | hi
    · obtain ⟨j, hj, rfl⟩ := hmem _ i hi
      rw [deepItem_named]; exact hno j (by simp [hj])
    · rw [deepItem_named]; exact hno d (by simp)
    · exact (not_ptr (canonSeg_ptr hseg' i (by simp [dropConst] at hi; exact hi.1))).2

/-- Non-vacuity for C16: `const char*const` is a const pointer to const. -/
example : (match traits "const char*const".toList with
    | .ok t => (t.isPtr, t.isConst, t.targetConst, t.target.map render)
    | _ => (false, false, false, none)) = (true, true, true, some "char".toList) := by decide +kernel

/-! ## C17 -/

/-- Number of `const` on the outermost level. -/
def outerConsts (l : List Item) : Nat := (outer l).countP (·.isNamed kConst)

theorem constTok_facts : constTok.isNamed kConst = true ∧ constTok.isPtrRef = false ∧ constTok.isMod = true := by
  decide

theorem hasConst_append (a b : List Item) : hasConst (a ++ b) = (hasConst a || hasConst b) := by
  simp [hasConst]

theorem dropConst_append (a b : List Item) : dropConst (a ++ b) = dropConst a ++ dropConst b := by
  simp [dropConst]

theorem unq_const : unqualified [constTok] = [] := by
  simp [unqualified, constTok_facts]

theorem countP_of_not_hasConst {l : List Item} (h : hasConst l = false) : l.countP (·.isNamed kConst) = 0 := by
  rw [List.countP_eq_zero]
  intro a ha hc
  have : hasConst l = true := by simp [hasConst]; exact ⟨a, ha, hc⟩
  rw [h] at this; cases this

/-- C17 `make_const`: a type that was const is unchanged; otherwise exactly one `const` is added,
on the outermost level.  Afterwards the type is const, doing it again changes nothing, and every
attribute is what a fresh `TypeTraits` of the new type would hold. -/
theorem C17_make_const (l : List Item) (t : Traits) (h : traitsOf l = some t) :
    t.makeConst.isConst = true ∧
    (t.isConst = true → t.makeConst = t) ∧
    (t.isConst = false → t.makeConst.ctype = l ++ [constTok] ∧ outerConsts l = 0 ∧
      outerConsts t.makeConst.ctype = 1) ∧
    t.makeConst.makeConst = t.makeConst ∧
    traitsOf t.makeConst.ctype = some t.makeConst := by
  obtain ⟨hk1, hk2, hk3⟩ := constTok_facts
  rcases split_or l with hf | ⟨pre, d, seg, rfl, h1, h2⟩
  · rw [traits_flat l hf] at h
    cases h
    have hf' : ∀ i ∈ l ++ [constTok], i.isPtrRef = false := by
      intro i hi; simp at hi; rcases hi with hi | rfl; exact hf i hi; exact hk2
    cases hc : hasConst l with
    | true =>
      simp only [Traits.makeConst, hc, if_true]
      refine ⟨trivial, by simp, by simp, trivial, ?_⟩
      rw [traits_flat l hf, hc]
    | false =>
      simp only [Traits.makeConst, hc, if_true, Bool.false_eq_true, if_false]
      refine ⟨trivial, by simp, fun _ => ⟨trivial, ?_, ?_⟩, trivial, ?_⟩
      · unfold outerConsts; rw [outer_last l hf]; exact countP_of_not_hasConst hc
      · unfold outerConsts; rw [outer_last _ hf', List.countP_append, countP_of_not_hasConst hc]
        simp [List.countP_cons, hk1]
      · rw [traits_flat _ hf']
        simp [unqualified_append, unq_const, dropConst_append, hasConst_append, dropConst, hasConst, hk1]
  · rw [traits_split pre seg d h1 h2] at h
    cases h
    have hs' : ∀ i ∈ seg ++ [constTok], i.isPtrRef = false := by
      intro i hi; simp at hi; rcases hi with hi | rfl; exact h2 i hi; exact hk2
    cases hc : hasConst seg with
    | true =>
      simp only [Traits.makeConst, hc, if_true]
      refine ⟨trivial, by simp, by simp, trivial, ?_⟩
      rw [traits_split pre seg d h1 h2, hc]
    | false =>
      simp only [Traits.makeConst, hc, if_true, Bool.false_eq_true, if_false]
      have e : pre ++ d :: seg ++ [constTok] = pre ++ d :: (seg ++ [constTok]) := by simp
      refine ⟨trivial, by simp, fun _ => ⟨trivial, ?_, ?_⟩, trivial, ?_⟩
      · unfold outerConsts; rw [outer_split _ _ _ h1 h2]; exact countP_of_not_hasConst hc
      · unfold outerConsts; rw [e, outer_split _ _ _ h1 hs', List.countP_append, countP_of_not_hasConst hc]
        simp [List.countP_cons, hk1]
      · rw [e, traits_split _ _ _ h1 hs']
        have u : unqualified (pre ++ d :: (seg ++ [constTok])) = unqualified (pre ++ d :: seg) := by
          rw [← e, unqualified_append, unq_const]; simp
        have dc : dropConst (seg ++ [constTok]) = dropConst seg := by
          rw [dropConst_append]; simp [dropConst, hk1]
        rw [u, dc, hasConst_append]
        simp [hasConst, hk1]

theorem insertTargetConst_split (pre seg : List Item) (d : Item) (h1 : d.isPtrRef = true)
    (h2 : ∀ i ∈ seg, i.isPtrRef = false) :
    insertTargetConst (pre ++ d :: seg) = pre ++ constTok :: d :: seg := by
  unfold insertTargetConst
  have : ∀ (s p : List Item), (∀ i ∈ s, i.isPtrRef = false) →
      insertAfterFirst (s ++ d :: p) = s ++ d :: constTok :: p := by
    intro s
    induction s with
    | nil => intro p _; simp [insertAfterFirst, h1]
    | cons x s ih =>
      intro p h
      simp [insertAfterFirst, h x (by simp), ih p (fun i hi => h i (List.mem_cons_of_mem _ hi))]
  have e : (pre ++ d :: seg).reverse = seg.reverse ++ d :: pre.reverse := by simp
  rw [e, this _ _ (by intro i hi; exact h2 i (by simpa using hi))]
  simp

/-- C17 `make_target_const`: refused exactly for types that are neither pointer nor reference;
a type whose target was const is unchanged; otherwise exactly one `const` is added, immediately
before the outermost `*`/`&`.  Afterwards the target is const, doing it again changes nothing,
and every attribute except `ctype_no_const_no_ref` is what a fresh `TypeTraits` would hold. -/
theorem C17_make_target_const (l : List Item) (t : Traits) (h : traitsOf l = some t) :
    (t.isPtr = false ∧ t.isRef = false → t.makeTargetConst = .error .assertionError) ∧
    (t.isPtr = true ∨ t.isRef = true → ∃ t' r, t.makeTargetConst = .ok t' ∧
      t'.targetConst = true ∧ (t.targetConst = true → t' = t) ∧
      (t.targetConst = false → ∀ pre d seg, l = pre ++ d :: seg → d.isPtrRef = true →
        (∀ i ∈ seg, i.isPtrRef = false) →
        t'.ctype = pre ++ constTok :: d :: seg ∧ outerConsts pre = 0) ∧
      t'.makeTargetConst = .ok t' ∧
      traitsOf t'.ctype = some r ∧ r = { t' with noConstNoRef := r.noConstNoRef }) := by
  obtain ⟨hk1, hk2, hk3⟩ := constTok_facts
  constructor
  · rintro ⟨a, b⟩; simp [Traits.makeTargetConst, a, b]
  · intro hpr
    rcases split_or l with hf | ⟨pre, d, seg, rfl, h1, h2⟩
    · rw [traits_flat l hf] at h; cases h; simp at hpr
    · have hb : (d.isNamed ['*'] || d.isNamed ['&']) = true := h1
      rw [traits_split pre seg d h1 h2] at h
      cases h
      cases hc : hasConst (outer pre) with
      | true =>
        have ht := traits_split pre seg d h1 h2
        rw [hc] at ht
        exact ⟨_, _, by simp [Traits.makeTargetConst, hb], rfl, fun _ => rfl, by simp,
          by simp [Traits.makeTargetConst, hb], ht, rfl⟩
      | false =>
        have hdc : ∀ i ∈ dropConst seg, i.isPtrRef = false := by
          intro i hi; exact h2 i (by simp [dropConst] at hi; exact hi.1)
        have e1 := insertTargetConst_split pre seg d h1 h2
        have e2 := insertTargetConst_split pre (dropConst seg) d h1 hdc
        have e3 : pre ++ constTok :: d :: seg = (pre ++ [constTok]) ++ d :: seg := by simp
        refine ⟨_, _, by simp [Traits.makeTargetConst, hb]; rfl, rfl, by simp, ?_,
          by simp [Traits.makeTargetConst, hb], by
            simp only; rw [e1, e3]; exact traits_split (pre ++ [constTok]) seg d h1 h2, ?_⟩
        · intro _ pre' d' seg' heq hd' hs'
          have hpre : pre' = pre ∧ d' = d ∧ seg' = seg := by
            have r1 : outer (pre ++ d :: seg) = outer (pre' ++ d' :: seg') := by rw [heq]
            rw [outer_split _ _ _ h1 h2, outer_split _ _ _ hd' hs'] at r1
            subst r1
            have := List.append_inj_left' heq (by simp)
            subst this
            simp at heq
            exact ⟨rfl, heq.symm, rfl⟩
          obtain ⟨rfl, rfl, rfl⟩ := hpre
          exact ⟨e1, countP_of_not_hasConst hc⟩
        · have u : unqualified (pre ++ [constTok] ++ d :: seg) = unqualified (pre ++ d :: seg) := by
            simp only [unqualified_append, unq_const]; simp
          have u2 : unqualified (pre ++ [constTok]) = unqualified pre := by
            simp only [unqualified_append, unq_const]; simp
          have o : hasConst (outer (pre ++ [constTok])) = true := by
            simp [outer, hk2, hasConst, hk1]
          simp only
          rw [e1, e2, u, u2, o, e3]
          simp

/-- After `make_target_const`, `ctype_no_const_no_ref` is stale: for `int &` it still is `int`,
although a fresh `TypeTraits` of the new type `int const &` has `int const`. -/
theorem C17_no_const_no_ref_stale_counterexample :
    ∃ t t' r, traitsOf [.tok ⟨.name, "int".toList⟩, .tok ⟨.syntax_, ['&']⟩] = some t ∧
      t.makeTargetConst = .ok t' ∧ traitsOf t'.ctype = some r ∧
      render t'.noConstNoRef = "int".toList ∧ render r.noConstNoRef = "int const".toList := by
  refine ⟨_, _, _, rfl, rfl, rfl, ?_, ?_⟩ <;> decide +kernel

/-- `make_target_const` can leave the canonical form: `volatile char *` gives
`char volatile const *`, which normalizes to something else. -/
theorem C17_not_canonical_counterexample :
    ∃ t t', traits "volatile char *".toList = .ok t ∧ t.makeTargetConst = .ok t' ∧
      render t'.ctype = "char volatile const *".toList ∧
      normalize "char volatile const *".toList = .ok "char const volatile *".toList := by
  have hb : (match traits "volatile char *".toList with
    | .ok t => (match t.makeTargetConst with
      | .ok t' => decide (render t'.ctype = "char volatile const *".toList) | _ => false)
    | _ => false) = true := by decide +kernel
  have hn := norm_eq "char volatile const *".toList "char const volatile *".toList (by decide +kernel)
  split at hb
  · rename_i t ht
    split at hb
    · rename_i t' hm
      exact ⟨t, t', ht, hm, of_decide_eq_true hb, hn⟩
    · cases hb
  · cases hb

/-- Non-vacuity for C17. -/
example : ∃ t, traitsOf [.tok ⟨.name, "int".toList⟩, .tok ⟨.syntax_, ['*']⟩] = some t ∧ t.isPtr = true ∧
    t.isConst = false ∧ t.targetConst = false := ⟨_, rfl, rfl, rfl, rfl⟩

/-- Two stars written together are read as one token `**`, so `int **` (a pointer to a pointer) is
classified as neither pointer nor reference and has no target; `int * *` is classified correctly. -/
theorem C16_double_star_counterexample :
    (∃ t, traits "int **".toList = .ok t ∧ t.isPtr = false ∧ t.isRef = false ∧ t.target = none) ∧
    (∃ t, traits "int * *".toList = .ok t ∧ t.isPtr = true ∧ t.isRef = false ∧
      t.target.map render = some "int *".toList) := by
  constructor
  · have hb : (match traits "int **".toList with
      | .ok t => decide (t.isPtr = false) && decide (t.isRef = false) && t.target.isNone
      | _ => false) = true := by decide +kernel
    split at hb
    · rename_i t ht
      simp only [Bool.and_eq_true, decide_eq_true_eq, Option.isNone_iff_eq_none] at hb
      exact ⟨t, ht, hb.1.1, hb.1.2, hb.2⟩
    · cases hb
  · have hb : (match traits "int * *".toList with
      | .ok t => decide (t.isPtr = true) && decide (t.isRef = false) &&
          decide (t.target.map render = some "int *".toList)
      | _ => false) = true := by decide +kernel
    split at hb
    · rename_i t ht
      simp only [Bool.and_eq_true, decide_eq_true_eq] at hb
      exact ⟨t, ht, hb.1.1, hb.1.2, hb.2⟩
    · cases hb

/-- An rvalue reference `int &&` is one token too, and is not classified as a reference. -/
theorem C16_double_amp_counterexample :
    ∃ t, traits "int &&".toList = .ok t ∧ t.isRef = false ∧ t.isPtr = false ∧ t.target = none := by
  have hb : (match traits "int &&".toList with
    | .ok t => decide (t.isPtr = false) && decide (t.isRef = false) && t.target.isNone
    | _ => false) = true := by decide +kernel
  split at hb
  · rename_i t ht
    simp only [Bool.and_eq_true, decide_eq_true_eq, Option.isNone_iff_eq_none] at hb
    exact ⟨t, ht, hb.1.2, hb.1.1, hb.2⟩
  · cases hb

end Verif.CType
