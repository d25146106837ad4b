import Verif.Container.Props

/-!
# C61 (iteration) and C62 (memory of containers)
-/
namespace Verif.Container
open Verif

variable {P E : Type}

@[simp] theorem upd_same {β : Type} (f : Nat → β) (a : Nat) (b : β) : upd f a b a = b := by simp [upd]
theorem upd_ne {β : Type} (f : Nat → β) {a x : Nat} (b : β) (h : x ≠ a) : upd f a b x = f x := by simp [upd, h]

/-! ## Specification -/

/-- The usual way of using containers: an object is initialized once, before it is used, and
iterators come from `iter()`. -/
def Op.usual (view : P → View P) (w : World E) : Op P E → Prop
  | .create a => ∀ x, a = some x → ∀ c, view x = .inst c → (w.cs c).obj ≠ none
  | .toCpp a => ∀ c, view a = .inst c → (w.cs c).obj ≠ none
  | .init c a => (w.cs c).obj = none ∧ ∀ x, a = some x → ∀ d, view x = .inst d → d = c ∨ (w.cs d).obj ≠ none
  | .iter c => (w.cs c).obj ≠ none
  | .next i => (w.is i).iter ≠ none
  | _ => True

/-! ## Invariant -/

/-- How many iterators refer to a container object. -/
def iterators (w : World E) (c : Nat) : Nat := (List.range w.nextI).countP (fun i => (w.is i).container = some c)

theorem countP_upd (f g : Nat → Bool) (i : Nat) (h : ∀ j, j ≠ i → f j = g j) :
    ∀ n, i < n → (List.range n).countP g + (f i).toNat = (List.range n).countP f + (g i).toNat := by
  have aux : ∀ n, n ≤ i → (List.range n).countP g = (List.range n).countP f := by
    intro n hn
    apply List.countP_congr
    intro x hx
    have : x < n := List.mem_range.mp hx
    rw [h x (by omega)]
  intro n
  induction n with
  | zero => intro hi; omega
  | succ n ih =>
    intro hi
    rw [List.range_succ, List.countP_append, List.countP_append]
    by_cases hn : i = n
    · subst hn
      rw [aux i (Nat.le_refl _)]
      cases hg : g i <;> cases hf : f i <;> simp [hg, hf]
    · have := ih (by omega)
      have hfg := h n (fun e => hn e.symm)
      simp only [List.countP_singleton, hfg]
      omega

/-- The invariant; `x` is an object with one reference that is about to be dropped. -/
structure Inv (w : World E) (x : Option Nat) : Prop where
  freshC : ∀ c, w.nextC ≤ c → w.cs c = ⟨0, 0, none⟩
  freshI : ∀ i, w.nextI ≤ i → w.is i = ⟨0, none, none⟩
  freshH : ∀ h, w.nextH ≤ h → w.heap h = none
  refs : ∀ c, (w.cs c).refs = (w.cs c).user + iterators w c + (if x = some c then 1 else 0)
  deadC : ∀ c, (w.cs c).refs = 0 → (w.cs c).obj = none
  deadI : ∀ i, (w.is i).refs = 0 → (w.is i).container = none
  owned : ∀ c h, (w.cs c).obj = some h → ∃ l, w.heap h = some l
  inj : ∀ c c' h, (w.cs c).obj = some h → (w.cs c').obj = some h → c = c'
  noLeak : ∀ h l, w.heap h = some l → ∃ c, (w.cs c).obj = some h
  iterSome : ∀ i h n, (w.is i).iter = some (h, n) → ∃ c, (w.is i).container = some c ∧ (w.cs c).obj = some h
  iterNone : ∀ i, (w.is i).iter = none → (w.is i).container = none

theorem inv_empty : Inv (World.empty : World E) none := by
  constructor <;> simp [World.empty, iterators]

theorem iterators_zero {w : World E} {c : Nat} (h : iterators w c = 0) (hI : ∀ i, w.nextI ≤ i → w.is i = ⟨0, none, none⟩)
    (i : Nat) : (w.is i).container ≠ some c := by
  intro hc
  by_cases hi : i < w.nextI
  · have := List.countP_eq_zero.mp h i (List.mem_range.mpr hi)
    simp [hc] at this
  · rw [hI i (by omega)] at hc
    cases hc

/-- Dropping a reference. -/
theorem Inv.decref {w : World E} {c : Nat} (h : Inv w (some c)) : Inv (decrefC w c) none := by
  have hr := h.refs c
  rw [if_pos rfl] at hr
  unfold decrefC
  by_cases h1 : (w.cs c).refs = 1
  · rw [if_pos h1]
    have hc0 : iterators w c = 0 := by omega
    have hu0 : (w.cs c).user = 0 := by omega
    have hno := iterators_zero hc0 h.freshI
    unfold deallocC
    constructor
    · intro d hd
      by_cases e : d = c
      · subst e; simp
      · show upd _ _ _ _ = _
        rw [upd_ne _ _ e]; exact h.freshC d hd
    · exact h.freshI
    · intro a ha
      cases ho : (w.cs c).obj with
      | none => simp only; exact h.freshH a ha
      | some b =>
        by_cases e : a = b
        · subst e; simp
        · show upd _ _ _ _ = _
          rw [upd_ne _ _ e]; exact h.freshH a ha
    · intro d
      by_cases e : d = c
      · subst e
        simp only [upd_same]
        show 0 = 0 + iterators w d + _
        rw [if_neg (by simp), hc0]
      · simp only [upd_ne _ _ e]
        have := h.refs d
        rw [if_neg (by intro hh; cases hh; exact e rfl)] at this
        simpa [iterators] using this
    · intro d hd
      by_cases e : d = c
      · subst e; simp
      · simp only [upd_ne _ _ e] at hd ⊢; exact h.deadC d hd
    · exact h.deadI
    · intro d a ha
      by_cases e : d = c
      · subst e; simp at ha
      · simp only [upd_ne _ _ e] at ha
        obtain ⟨l, hl⟩ := h.owned d a ha
        refine ⟨l, ?_⟩
        cases ho : (w.cs c).obj with
        | none => exact hl
        | some b =>
          have : a ≠ b := by
            intro hab
            subst hab
            exact e (h.inj d c a ha ho)
          show upd _ _ _ _ = _
          rw [upd_ne _ _ this]; exact hl
    · intro d d' a ha ha'
      by_cases e : d = c
      · subst e; simp at ha
      · by_cases e' : d' = c
        · subst e'; simp at ha'
        · simp only [upd_ne _ _ e] at ha
          simp only [upd_ne _ _ e'] at ha'
          exact h.inj d d' a ha ha'
    · intro a l hl
      cases ho : (w.cs c).obj with
      | none =>
        rw [ho] at hl
        obtain ⟨d, hd⟩ := h.noLeak a l hl
        refine ⟨d, ?_⟩
        by_cases e : d = c
        · subst e; rw [ho] at hd; cases hd
        · simp only [upd_ne _ _ e]; exact hd
      | some b =>
        rw [ho] at hl
        by_cases eab : a = b
        · subst eab; simp at hl
        · have hl' : w.heap a = some l := by
            have := hl
            simp only [upd_ne _ _ eab] at this
            exact this
          obtain ⟨d, hd⟩ := h.noLeak a l hl'
          refine ⟨d, ?_⟩
          by_cases e : d = c
          · subst e; rw [ho] at hd; cases hd; exact absurd rfl eab
          · simp only [upd_ne _ _ e]; exact hd
    · intro i a n ha
      obtain ⟨d, hd, hda⟩ := h.iterSome i a n ha
      refine ⟨d, hd, ?_⟩
      by_cases e : d = c
      · subst e; exact absurd hd (hno i)
      · simp only [upd_ne _ _ e]; exact hda
    · exact h.iterNone
  · rw [if_neg h1]
    constructor
    · intro d hd
      by_cases e : d = c
      · subst e
        have := h.freshC d hd
        rw [this] at hr
        simp at hr
      · show upd _ _ _ _ = _
        rw [upd_ne _ _ e]; exact h.freshC d hd
    · exact h.freshI
    · exact h.freshH
    · intro d
      by_cases e : d = c
      · subst e
        simp only [upd_same]
        have : iterators w d = iterators { w with cs := upd w.cs d { w.cs d with refs := (w.cs d).refs - 1 } } d := rfl
        rw [← this, if_neg (by simp)]
        omega
      · simp only [upd_ne _ _ e]
        have := h.refs d
        rw [if_neg (by intro hh; cases hh; exact e rfl)] at this
        simpa [iterators] using this
    · intro d hd
      by_cases e : d = c
      · subst e
        simp only [upd_same] at hd
        omega
      · simp only [upd_ne _ _ e] at hd ⊢; exact h.deadC d hd
    · exact h.deadI
    · intro d a ha
      by_cases e : d = c
      · subst e; simp only [upd_same] at ha; exact h.owned d a ha
      · simp only [upd_ne _ _ e] at ha; exact h.owned d a ha
    · intro d d' a ha ha'
      have hh : ∀ d, ((upd w.cs c { w.cs c with refs := (w.cs c).refs - 1 }) d).obj = (w.cs d).obj := by
        intro d
        by_cases e : d = c
        · subst e; simp
        · simp only [upd_ne _ _ e]
      simp only [hh] at ha ha'
      exact h.inj d d' a ha ha'
    · intro a l hl
      obtain ⟨d, hd⟩ := h.noLeak a l hl
      refine ⟨d, ?_⟩
      by_cases e : d = c
      · subst e; simp only [upd_same]; exact hd
      · simp only [upd_ne _ _ e]; exact hd
    · intro i a n ha
      obtain ⟨d, hd, hda⟩ := h.iterSome i a n ha
      refine ⟨d, hd, ?_⟩
      by_cases e : d = c
      · subst e; simp only [upd_same]; exact hda
      · simp only [upd_ne _ _ e]; exact hda
    · exact h.iterNone

/-- The program gives up a reference it has. -/
theorem Inv.lessUser {w : World E} {c : Nat} (h : Inv w none) (hu : 0 < (w.cs c).user) :
    Inv (lessUser w c) (some c) := by
  have hobj : ∀ d, ((Container.lessUser w c).cs d).obj = (w.cs d).obj := by
    intro d
    unfold Container.lessUser
    by_cases e : d = c
    · subst e; simp
    · simp only [upd_ne _ _ e]
  have hrefs : ∀ d, ((Container.lessUser w c).cs d).refs = (w.cs d).refs := by
    intro d
    unfold Container.lessUser
    by_cases e : d = c
    · subst e; simp
    · simp only [upd_ne _ _ e]
  constructor
  · intro d hd
    have := h.freshC d hd
    unfold Container.lessUser
    by_cases e : d = c
    · subst e; rw [this] at hu; cases hu
    · simp only [upd_ne _ _ e]; exact this
  · exact h.freshI
  · exact h.freshH
  · intro d
    rw [hrefs]
    have := h.refs d
    simp only [reduceCtorEq, if_false] at this
    have hi : iterators (Container.lessUser w c) d = iterators w d := rfl
    rw [hi]
    unfold Container.lessUser
    by_cases e : d = c
    · subst e
      simp only [upd_same, if_true]
      omega
    · simp only [upd_ne _ _ e]
      rw [if_neg (by intro hh; cases hh; exact e rfl)]
      exact this
  · intro d; rw [hobj, hrefs]; exact h.deadC d
  · exact h.deadI
  · intro d a; rw [hobj]; exact h.owned d a
  · intro d d' a; rw [hobj, hobj]; exact h.inj d d' a
  · intro a l hl
    obtain ⟨d, hd⟩ := h.noLeak a l hl
    exact ⟨d, by rw [hobj]; exact hd⟩
  · intro i a n ha
    obtain ⟨d, hd, hda⟩ := h.iterSome i a n ha
    exact ⟨d, hd, by rw [hobj]; exact hda⟩
  · exact h.iterNone

/-- A new container object, not initialized. -/
theorem Inv.alloc {w : World E} (h : Inv w none) : Inv (allocC w) none := by
  have hn : ∀ i, (w.is i).container ≠ some w.nextC := by
    have hr := h.refs w.nextC
    rw [h.freshC _ (Nat.le_refl _)] at hr
    exact iterators_zero (by simp at hr; omega) h.freshI
  unfold allocC
  constructor
  · intro d hd
    have : d ≠ w.nextC := by simp only at hd; omega
    simp only [upd_ne _ _ this]; exact h.freshC d (by simp only at hd; omega)
  · exact h.freshI
  · exact h.freshH
  · intro d
    have := h.refs d
    by_cases e : d = w.nextC
    · subst e
      rw [h.freshC _ (Nat.le_refl _)] at this
      simp only [upd_same]
      show 1 = 1 + iterators w w.nextC + _
      rw [if_neg (by simp)] at this ⊢
      simp only at this
      omega
    · simp only [upd_ne _ _ e]; exact this
  · intro d hd
    by_cases e : d = w.nextC
    · subst e; simp
    · simp only [upd_ne _ _ e] at hd ⊢; exact h.deadC d hd
  · exact h.deadI
  · intro d a ha
    by_cases e : d = w.nextC
    · subst e; simp at ha
    · simp only [upd_ne _ _ e] at ha; exact h.owned d a ha
  · intro d d' a ha ha'
    by_cases e : d = w.nextC
    · subst e; simp at ha
    · by_cases e' : d' = w.nextC
      · subst e'; simp at ha'
      · simp only [upd_ne _ _ e] at ha
        simp only [upd_ne _ _ e'] at ha'
        exact h.inj d d' a ha ha'
  · intro a l hl
    obtain ⟨d, hd⟩ := h.noLeak a l hl
    refine ⟨d, ?_⟩
    by_cases e : d = w.nextC
    · subst e; rw [h.freshC _ (Nat.le_refl _)] at hd; cases hd
    · simp only [upd_ne _ _ e]; exact hd
  · intro i a n ha
    obtain ⟨d, hd, hda⟩ := h.iterSome i a n ha
    refine ⟨d, hd, ?_⟩
    by_cases e : d = w.nextC
    · subst e; exact absurd hd (hn i)
    · simp only [upd_ne _ _ e]; exact hda
  · exact h.iterNone

/-- Giving a container object its C++ container. -/
theorem Inv.setObj {w : World E} {c : Nat} (h : Inv w none) (hc : (w.cs c).obj = none) (hr : 0 < (w.cs c).refs) (l : List E) :
    Inv { w with heap := upd w.heap w.nextH (some l), nextH := w.nextH + 1
                 cs := upd w.cs c { w.cs c with obj := some w.nextH } } none := by
  have hfresh : ∀ d, (w.cs d).obj ≠ some w.nextH := by
    intro d hd
    obtain ⟨l, hl⟩ := h.owned d _ hd
    rw [h.freshH _ (Nat.le_refl _)] at hl
    cases hl
  constructor
  · intro d hd
    by_cases e : d = c
    · subst e
      rw [h.freshC d hd] at hr; cases hr
    · simp only [upd_ne _ _ e]; exact h.freshC d hd
  · exact h.freshI
  · intro a ha
    have : a ≠ w.nextH := by simp only at ha; omega
    simp only [upd_ne _ _ this]; exact h.freshH a (by simp only at ha; omega)
  · intro d
    have := h.refs d
    by_cases e : d = c
    · subst e; simp only [upd_same]; exact this
    · simp only [upd_ne _ _ e]; exact this
  · intro d hd
    by_cases e : d = c
    · subst e
      simp only [upd_same] at hd
      omega
    · simp only [upd_ne _ _ e] at hd ⊢; exact h.deadC d hd
  · exact h.deadI
  · intro d a ha
    by_cases e : d = c
    · subst e
      simp only [upd_same, Option.some.injEq] at ha
      subst ha
      exact ⟨l, by simp⟩
    · simp only [upd_ne _ _ e] at ha
      obtain ⟨l', hl'⟩ := h.owned d a ha
      refine ⟨l', ?_⟩
      have : a ≠ w.nextH := by
        intro hh; subst hh; exact hfresh d ha
      simp only [upd_ne _ _ this]; exact hl'
  · intro d d' a ha ha'
    by_cases e : d = c
    · subst e
      simp only [upd_same, Option.some.injEq] at ha
      subst ha
      by_cases e' : d' = d
      · exact e'.symm
      · simp only [upd_ne _ _ e'] at ha'; exact absurd ha' (hfresh d')
    · simp only [upd_ne _ _ e] at ha
      by_cases e' : d' = c
      · subst e'
        simp only [upd_same, Option.some.injEq] at ha'
        subst ha'
        exact absurd ha (hfresh d)
      · simp only [upd_ne _ _ e'] at ha'
        exact h.inj d d' a ha ha'
  · intro a l' hl'
    by_cases ea : a = w.nextH
    · subst ea; exact ⟨c, by simp⟩
    · simp only [upd_ne _ _ ea] at hl'
      obtain ⟨d, hd⟩ := h.noLeak a l' hl'
      refine ⟨d, ?_⟩
      by_cases e : d = c
      · subst e; rw [hc] at hd; cases hd
      · simp only [upd_ne _ _ e]; exact hd
  · intro i a n ha
    obtain ⟨d, hd, hda⟩ := h.iterSome i a n ha
    refine ⟨d, hd, ?_⟩
    by_cases e : d = c
    · subst e; rw [hc] at hda; cases hda
    · simp only [upd_ne _ _ e]; exact hda
  · exact h.iterNone

/-- Filling, or destroying, the C++ container of an object. -/
theorem Inv.fill {w : World E} {h0 : Nat} {l0 : List E} (h : Inv w none) (hh : w.heap h0 = some l0) (l : List E) :
    Inv { w with heap := upd w.heap h0 (some l) } none := by
  constructor
  · exact h.freshC
  · exact h.freshI
  · intro a ha
    have : a ≠ h0 := by
      intro e; subst e; rw [h.freshH a ha] at hh; cases hh
    simp only [upd_ne _ _ this]; exact h.freshH a ha
  · exact h.refs
  · exact h.deadC
  · exact h.deadI
  · intro d a ha
    by_cases e : a = h0
    · subst e; exact ⟨l, by simp⟩
    · simp only [upd_ne _ _ e]; exact h.owned d a ha
  · exact h.inj
  · intro a l' hl'
    by_cases e : a = h0
    · subst e; exact h.noLeak a l0 hh
    · simp only [upd_ne _ _ e] at hl'; exact h.noLeak a l' hl'
  · exact h.iterSome
  · exact h.iterNone

section
variable (view : P → View P) (kind : Kind) (cmp : Cmp E) {conv : Item P E} {f : P → Option E}

/-- The converter does not crash on objects that are initialized. -/
theorem convert_ok (hp : Pure conv f) (w : World E) (arg : P) (cur : List E)
    (hi : ∀ c, view arg = .inst c → ∃ h l, (w.cs c).obj = some h ∧ w.heap h = some l) :
    ∃ l b, convert view kind cmp conv w arg cur = .ok (l, b) := by
  unfold convert
  cases hv : view arg with
  | inst c =>
    obtain ⟨h, l, h1, h2⟩ := hi c hv
    exact ⟨l, true, by simp [h1, h2]⟩
  | list xs =>
    obtain ⟨c', hc'⟩ := loop_pure hp (add cmp kind) xs xs.length 0 [] (by simp)
    exact ⟨_, _, hc'⟩
  | tuple xs => exact ⟨cur, false, rfl⟩
  | other => exact ⟨cur, false, rfl⟩

/-- `__init__` of an object that is not initialized. -/
theorem Inv.init {w : World E} {c : Nat} (hp : Pure conv f) (h : Inv w none) (hc : (w.cs c).obj = none)
    (hr : 0 < (w.cs c).refs) (arg : Option P)
    (ha : ∀ x, arg = some x → ∀ d, view x = .inst d → d = c ∨ (w.cs d).obj ≠ none) :
    ∃ w' b, initC view kind cmp conv w c arg = .ok (w', b) ∧ Inv w' none ∧ w'.is = w.is ∧ w'.nextI = w.nextI ∧
      w'.nextC = w.nextC ∧
      (∀ d, (w'.cs d).refs = (w.cs d).refs ∧ (w'.cs d).user = (w.cs d).user) ∧
      (∀ d, d ≠ c → (w'.cs d).obj = (w.cs d).obj) ∧ (∀ a, a < w.nextH → w'.heap a = w.heap a) := by
  unfold initC
  have h1 := h.setObj hc hr []
  have hkeep : ∀ (l : Option (List E)) a l', w.heap a = some l' → (upd w.heap w.nextH l) a = some l' := by
    intro l a l' hl'
    have : a ≠ w.nextH := by
      intro e; subst e; rw [h.freshH _ (Nat.le_refl _)] at hl'; cases hl'
    rw [upd_ne _ _ this]; exact hl'
  have hkeep' : ∀ (l : Option (List E)) a, a < w.nextH → (upd w.heap w.nextH l) a = w.heap a := by
    intro l a ha
    rw [upd_ne _ _ (by omega)]
  cases arg with
  | none =>
    refine ⟨_, true, rfl, h1, rfl, rfl, rfl, ?_, ?_, ?_⟩
    · intro d
      by_cases e : d = c
      · subst e; simp
      · simp only [upd_ne _ _ e]; simp
    · intro d e; simp only [upd_ne _ _ e]
    · exact hkeep' _
  | some x =>
    simp only
    have hconv := convert_ok view kind cmp hp
      { w with heap := upd w.heap w.nextH (some []), nextH := w.nextH + 1, cs := upd w.cs c { w.cs c with obj := some w.nextH } }
      x [] (by
        intro d hd
        rcases ha x rfl d hd with rfl | hd'
        · exact ⟨w.nextH, [], by simp, by simp⟩
        · have e : d ≠ c := by intro e; subst e; exact hd' hc
          cases ho : (w.cs d).obj with
          | none => exact absurd ho hd'
          | some a =>
            obtain ⟨l, hl⟩ := h.owned d a ho
            exact ⟨a, l, by simp only [upd_ne _ _ e]; exact ho, hkeep _ _ _ hl⟩)
    obtain ⟨l, b, hlb⟩ := hconv
    rw [hlb]
    have hupd2 : ∀ (f : Nat → Option (List E)) (a : Nat) (x y : Option (List E)), upd (upd f a x) a y = upd f a y := by
      intro f a x y; funext z; unfold upd; split <;> rfl
    cases b with
    | true =>
      refine ⟨_, true, rfl, h1.fill (l0 := []) (by simp) l, rfl, rfl, rfl, ?_, ?_, ?_⟩
      · intro d
        by_cases e : d = c
        · subst e; simp
        · simp only [upd_ne _ _ e]; simp
      · intro d e; simp only [upd_ne _ _ e]
      · simp only [hupd2]; exact hkeep' _
    | false =>
      have hcs : upd (upd w.cs c { w.cs c with obj := some w.nextH }) c
          { (upd w.cs c { w.cs c with obj := some w.nextH }) c with obj := none } = w.cs := by
        funext d
        by_cases e : d = c
        · subst e
          simp only [upd_same]
          cases hw : w.cs d with
          | mk r u o =>
            rw [hw] at hc
            simp only at hc
            subst hc
            rfl
        · rw [upd_ne _ _ e, upd_ne _ _ e]
      have hheap : upd (upd w.heap w.nextH (some [])) w.nextH none = w.heap := by
        rw [hupd2]
        funext a
        by_cases e : a = w.nextH
        · subst e; rw [upd_same, h.freshH _ (Nat.le_refl _)]
        · rw [upd_ne _ _ e]
      refine ⟨_, false, rfl, ?_, rfl, rfl, rfl, ?_, ?_, ?_⟩
      · simp only [hcs, hheap]
        exact { h with freshH := fun a ha => h.freshH a (by simp only at ha; omega) }
      · intro d; simp only [hcs]; simp
      · intro d _; simp only [hcs]
      · intro a _; simp only [hheap]

/-! ## Iterators -/

theorem iterators_upd (w : World E) (i : Nat) (hi : i < w.nextI) (o : IObj) (c : Nat) :
    iterators { w with is := upd w.is i o } c + (if (w.is i).container = some c then 1 else 0) =
      iterators w c + (if o.container = some c then 1 else 0) := by
  have := countP_upd (fun j => decide ((w.is j).container = some c)) (fun j => decide ((upd w.is i o j).container = some c)) i
    (by intro j hj; rw [upd_ne _ _ hj]) w.nextI hi
  simp only [upd_same] at this
  unfold iterators
  have t : ∀ b : Prop, [Decidable b] → (decide b).toNat = if b then 1 else 0 := by
    intro b _; by_cases hb : b <;> simp [hb]
  simpa [t] using this

theorem live_lt {w : World E} (h : Inv w none) {i : Nat} (hr : 0 < (w.is i).refs) : i < w.nextI := by
  by_cases hi : i < w.nextI
  · exact hi
  · rw [h.freshI i (by omega)] at hr; cases hr

/-- Changing an iterator's count, or moving it on. -/
theorem Inv.setIter {w : World E} (h : Inv w none) {i : Nat} (hi : i < w.nextI) (o : IObj)
    (hc : o.container = (w.is i).container) (hr : o.refs ≠ 0)
    (hit : (o.iter = none → (w.is i).iter = none) ∧ ∀ a n, o.iter = some (a, n) → ∃ m, (w.is i).iter = some (a, m)) :
    Inv { w with is := upd w.is i o } none := by
  constructor
  · exact h.freshC
  · intro j hj
    have : j ≠ i := by simp only at hj; omega
    simp only [upd_ne _ _ this]; exact h.freshI j hj
  · exact h.freshH
  · intro c
    have e := iterators_upd w i hi o c
    rw [hc] at e
    have : iterators { w with is := upd w.is i o } c = iterators w c := by omega
    rw [this]; exact h.refs c
  · exact h.deadC
  · intro j hj
    by_cases e : j = i
    · subst e; simp only [upd_same] at hj; exact absurd hj hr
    · simp only [upd_ne _ _ e] at hj ⊢; exact h.deadI j hj
  · exact h.owned
  · exact h.inj
  · exact h.noLeak
  · intro j a n ha
    by_cases e : j = i
    · subst e
      simp only [upd_same] at ha ⊢
      obtain ⟨m, hm⟩ := hit.2 a n ha
      rw [hc]
      exact h.iterSome j a m hm
    · simp only [upd_ne _ _ e] at ha ⊢; exact h.iterSome j a n ha
  · intro j hj
    by_cases e : j = i
    · subst e
      simp only [upd_same] at hj ⊢
      rw [hc]
      exact h.iterNone j (hit.1 hj)
    · simp only [upd_ne _ _ e] at hj ⊢; exact h.iterNone j hj

/-- An iterator dies. -/
theorem Inv.killIter {w : World E} (h : Inv w none) {i : Nat} (hi : i < w.nextI) :
    Inv { w with is := upd w.is i ⟨0, none, none⟩ } (w.is i).container := by
  constructor
  · exact h.freshC
  · intro j hj
    have : j ≠ i := by simp only at hj; omega
    simp only [upd_ne _ _ this]; exact h.freshI j hj
  · exact h.freshH
  · intro c
    have e := iterators_upd w i hi ⟨0, none, none⟩ c
    have := h.refs c
    simp only [reduceCtorEq, if_false] at e this
    show (w.cs c).refs = (w.cs c).user + _ + _
    omega
  · exact h.deadC
  · intro j hj
    by_cases e : j = i
    · subst e; simp
    · simp only [upd_ne _ _ e] at hj ⊢; exact h.deadI j hj
  · exact h.owned
  · exact h.inj
  · exact h.noLeak
  · intro j a n ha
    by_cases e : j = i
    · subst e; simp at ha
    · simp only [upd_ne _ _ e] at ha ⊢; exact h.iterSome j a n ha
  · intro j hj
    by_cases e : j = i
    · subst e; simp
    · simp only [upd_ne _ _ e] at hj ⊢; exact h.iterNone j hj

/-- A new iterator object. -/
theorem Inv.newIter {w : World E} (h : Inv w none) (o : IObj) (ho : o.refs ≠ 0) (cs : Nat → CObj)
    (hcs : ∀ c, (cs c).obj = (w.cs c).obj ∧ (cs c).user = (w.cs c).user ∧
      (cs c).refs = (w.cs c).refs + if o.container = some c then 1 else 0)
    (hfc : ∀ c, o.container = some c → c < w.nextC)
    (hit : (∀ a n, o.iter = some (a, n) → ∃ c, o.container = some c ∧ (w.cs c).obj = some a) ∧
      (o.iter = none → o.container = none)) :
    Inv { w with cs := cs, is := upd w.is w.nextI o, nextI := w.nextI + 1 } none := by
  constructor
  · intro c hc
    have h0 := h.freshC c hc
    obtain ⟨h1, h2, h3⟩ := hcs c
    rw [if_neg (by intro hh; have := hfc c hh; simp only at hc; omega)] at h3
    rw [h0] at h1 h2 h3
    show cs c = _
    cases hx : cs c with
    | mk r u ob =>
      rw [hx] at h1 h2 h3
      simp only at h1 h2 h3
      rw [h1, h2, h3]
  · intro j hj
    have : j ≠ w.nextI := by simp only at hj; omega
    simp only [upd_ne _ _ this]; exact h.freshI j (by simp only at hj; omega)
  · exact h.freshH
  · intro c
    obtain ⟨_, h2, h3⟩ := hcs c
    have hc : iterators { w with cs := cs, is := upd w.is w.nextI o, nextI := w.nextI + 1 } c =
        iterators w c + if o.container = some c then 1 else 0 := by
      unfold iterators
      simp only
      rw [List.range_succ, List.countP_append]
      congr 1
      · apply List.countP_congr
        intro x hx
        have : x < w.nextI := List.mem_range.mp hx
        simp only [upd_ne w.is o (show x ≠ w.nextI by omega)]
      · by_cases hb : o.container = some c <;> simp [hb]
    have := h.refs c
    simp only [reduceCtorEq, if_false] at this
    rw [hc]
    simp only [reduceCtorEq, if_false]
    omega
  · intro c hc
    obtain ⟨h1, _, h3⟩ := hcs c
    show (cs c).obj = none
    rw [h1]
    refine h.deadC c ?_
    have : (cs c).refs = 0 := hc
    omega
  · intro j hj
    by_cases e : j = w.nextI
    · subst e; simp only [upd_same] at hj; exact absurd hj ho
    · simp only [upd_ne _ _ e] at hj ⊢; exact h.deadI j hj
  · intro c a ha
    refine h.owned c a ?_
    rw [← (hcs c).1]; exact ha
  · intro c d a ha hd
    refine h.inj c d a ?_ ?_
    · rw [← (hcs c).1]; exact ha
    · rw [← (hcs d).1]; exact hd
  · intro a l hl
    obtain ⟨c, hc⟩ := h.noLeak a l hl
    exact ⟨c, by show (cs c).obj = _; rw [(hcs c).1]; exact hc⟩
  · intro j a n ha
    by_cases e : j = w.nextI
    · subst e
      simp only [upd_same] at ha ⊢
      obtain ⟨c, hc1, hc2⟩ := hit.1 a n ha
      exact ⟨c, hc1, by rw [(hcs c).1]; exact hc2⟩
    · simp only [upd_ne _ _ e] at ha ⊢
      obtain ⟨c, hc1, hc2⟩ := h.iterSome j a n ha
      exact ⟨c, hc1, by rw [(hcs c).1]; exact hc2⟩
  · intro j hj
    by_cases e : j = w.nextI
    · subst e
      simp only [upd_same] at hj ⊢
      exact hit.2 hj
    · simp only [upd_ne _ _ e] at hj ⊢; exact h.iterNone j hj

theorem decref_frame (w : World E) (c : Nat) : (decrefC w c).is = w.is ∧ (decrefC w c).nextI = w.nextI ∧
    (decrefC w c).nextH = w.nextH ∧ (∀ a l, (decrefC w c).heap a = some l → w.heap a = some l) := by
  unfold decrefC
  split
  · refine ⟨rfl, rfl, rfl, ?_⟩
    intro a l
    unfold deallocC
    simp only
    cases (w.cs c).obj with
    | none => exact id
    | some b =>
      simp only
      by_cases e : a = b
      · subst e; simp
      · rw [upd_ne _ _ e]; exact id
  · exact ⟨rfl, rfl, rfl, fun a l h => h⟩

/-- What a step does to the iterators and to C++ containers that existed before. -/
structure Frame (w w' : World E) (op : Op P E) : Prop where
  mono : w.nextI ≤ w'.nextI ∧ w.nextH ≤ w'.nextH
  heap : ∀ a l, a < w.nextH → w'.heap a = some l → w.heap a = some l
  dead : ∀ i, i < w.nextI → (w.is i).refs = 0 → (w'.is i).refs = 0
  iter : ∀ i, i < w.nextI → (w'.is i).refs = 0 ∨ (w'.is i).iter = (w.is i).iter ∨ op = .next i

/-- Every step of the usual kind succeeds and keeps the invariant. -/
theorem step_ok (hp : Pure conv f) {w : World E} (h : Inv w none) (op : Op P E) (hv : op.valid view w)
    (hu : op.usual view w) :
    ∃ w' o, step view kind cmp conv w op = .ok (w', o) ∧ Inv w' none ∧ Frame w w' op := by
  have live : ∀ c, 0 < (w.cs c).user → 0 < (w.cs c).refs := by
    intro c hc
    have := h.refs c
    omega
  cases op with
  | create a =>
    simp only [step]
    have hal := h.alloc
    have hne : ∀ d, d ≠ w.nextC → (allocC w).cs d = w.cs d := by
      intro d hd
      show upd _ _ _ _ = _
      rw [upd_ne _ _ hd]
    have hnew : (allocC w).cs w.nextC = ⟨1, 1, none⟩ := by
      show upd _ _ _ _ = _
      rw [upd_same]
    obtain ⟨w', b, h1, h2, h3, h4, h5, h6, h7, h8⟩ := hal.init view kind cmp hp (c := w.nextC)
      (by rw [hnew]) (by rw [hnew]; simp) a (by
        intro x hx d hd
        by_cases e : d = w.nextC
        · exact .inl e
        · refine .inr ?_
          rw [hne d e]
          exact hu x hx d hd)
    rw [h1]
    have hfr : ∀ w'' : World E, w''.is = w'.is → w''.nextI = w'.nextI → w''.nextH = w'.nextH →
        (∀ a l, w''.heap a = some l → w'.heap a = some l) → Frame w w'' (.create a) := by
      intro w'' e1 e2 e3 e4
      have hI : w''.nextI = w.nextI := by rw [e2, h4]; rfl
      have his : w''.is = w.is := by rw [e1, h3]; rfl
      refine ⟨⟨by omega, ?_⟩, ?_, ?_, ?_⟩
      · rw [e3]
        have : (allocC w).nextH ≤ w'.nextH := by
          revert h1
          unfold initC
          cases a with
          | none => intro h1; cases h1; simp
          | some x =>
            simp only
            split
            · intro h1; cases h1
            · intro h1; cases h1; simp
            · intro h1; cases h1; simp
        exact this
      · intro y l hy hl
        have := e4 y l hl
        rw [h8 y hy] at this
        exact this
      · intro i _ hi; rw [his]; exact hi
      · intro i _; right; left; rw [his]
    cases b with
    | true => exact ⟨w', _, rfl, h2, hfr w' rfl rfl rfl (fun _ _ x => x)⟩
    | false =>
      have hus : 0 < (w'.cs w.nextC).user := by rw [(h6 _).2, hnew]; simp
      obtain ⟨f1, f2, f3, f4⟩ := decref_frame (lessUser w' w.nextC) w.nextC
      exact ⟨_, _, rfl, (h2.lessUser hus).decref, hfr _ f1 f2 f3 f4⟩
  | alloc =>
    exact ⟨_, _, rfl, h.alloc, ⟨⟨Nat.le_refl _, Nat.le_refl _⟩, fun _ _ _ x => x, fun _ _ x => x, fun _ _ => .inr (.inl rfl)⟩⟩
  | init c a =>
    simp only [step]
    obtain ⟨w', b, h1, h2, h3, h4, h5, h6, h7, h8⟩ := h.init view kind cmp hp hu.1 (live c hv.1) a hu.2
    rw [h1]
    refine ⟨w', _, rfl, h2, ⟨⟨by omega, ?_⟩, ?_, ?_, ?_⟩⟩
    · revert h1
      unfold initC
      cases a with
      | none => intro h1; cases h1; simp
      | some x =>
        simp only
        split
        · intro h1; cases h1
        · intro h1; cases h1; simp
        · intro h1; cases h1; simp
    · intro y l hy hl; rw [h8 y hy] at hl; exact hl
    · intro i _ hi; rw [h3]; exact hi
    · intro i _; right; left; rw [h3]
  | incC c =>
    have hr := live c hv
    have hobj : ∀ d, ((upd w.cs c { w.cs c with refs := (w.cs c).refs + 1, user := (w.cs c).user + 1 }) d).obj = (w.cs d).obj := by
      intro d
      by_cases e : d = c
      · subst e; simp
      · rw [upd_ne _ _ e]
    refine ⟨_, _, rfl, ?_, ⟨⟨Nat.le_refl _, Nat.le_refl _⟩, fun _ _ _ x => x, fun _ _ x => x, fun _ _ => .inr (.inl rfl)⟩⟩
    constructor
    · intro d hd
      by_cases e : d = c
      · subst e; rw [h.freshC d hd] at hr; cases hr
      · simp only [upd_ne _ _ e]; exact h.freshC d hd
    · exact h.freshI
    · exact h.freshH
    · intro d
      have := h.refs d
      by_cases e : d = c
      · subst e
        simp only [upd_same]
        show _ = _ + iterators w d + _
        omega
      · simp only [upd_ne _ _ e]; exact this
    · intro d hd
      simp only [hobj]
      by_cases e : d = c
      · subst e; simp at hd
      · simp only [upd_ne _ _ e] at hd; exact h.deadC d hd
    · exact h.deadI
    · intro d a ha; simp only [hobj] at ha; exact h.owned d a ha
    · intro d d' a ha ha'; simp only [hobj] at ha ha'; exact h.inj d d' a ha ha'
    · intro a l hl; simp only [hobj]; exact h.noLeak a l hl
    · intro i a n ha; simp only [hobj]; exact h.iterSome i a n ha
    · exact h.iterNone
  | decC c =>
    obtain ⟨f1, f2, f3, f4⟩ := decref_frame (lessUser w c) c
    refine ⟨_, _, rfl, (h.lessUser hv).decref, ⟨⟨by rw [f2]; exact Nat.le_refl _, by rw [f3]; exact Nat.le_refl _⟩,
      fun a l _ hl => f4 a l hl, ?_, ?_⟩⟩
    · intro i _ hi; rw [f1]; exact hi
    · intro i _; right; left; rw [f1]; rfl
  | iter c =>
    simp only [step]
    cases ho : (w.cs c).obj with
    | none => exact absurd ho hu
    | some a =>
      refine ⟨_, _, rfl, ?_, ⟨⟨Nat.le_succ _, Nat.le_refl _⟩, fun _ _ _ x => x, ?_, ?_⟩⟩
      · refine h.newIter ⟨1, some c, some (a, 0)⟩ (by simp) _ ?_ ?_ ⟨?_, by simp⟩
        · intro d
          by_cases e : d = c
          · subst e; simp [ho]
          · rw [upd_ne _ _ e]
            have : ¬ (c = d) := fun hh => e hh.symm
            simp [this]
        · intro d hd
          simp only [Option.some.injEq] at hd
          subst hd
          by_cases hlt : c < w.nextC
          · exact hlt
          · rw [h.freshC c (by omega)] at ho; cases ho
        · intro b n hb
          simp only [Option.some.injEq, Prod.mk.injEq] at hb
          exact ⟨c, rfl, by rw [ho, hb.1]⟩
      · intro i hi h0
        show IObj.refs (upd _ _ _ _) = 0
        rw [upd_ne _ _ (by omega)]; exact h0
      · intro i hi
        right; left
        show IObj.iter (upd _ _ _ _) = _
        rw [upd_ne _ _ (by omega)]
  | allocI =>
    refine ⟨_, _, rfl, ?_, ⟨⟨Nat.le_succ _, Nat.le_refl _⟩, fun _ _ _ x => x, ?_, ?_⟩⟩
    · exact h.newIter ⟨1, none, none⟩ (by simp) w.cs (by intro d; simp) (by intro d hd; cases hd)
        ⟨(by intro a n ha; cases ha), (by simp)⟩
    · intro i hi h0
      show IObj.refs (upd _ _ _ _) = 0
      rw [upd_ne _ _ (by omega)]; exact h0
    · intro i hi
      right; left
      show IObj.iter (upd _ _ _ _) = _
      rw [upd_ne _ _ (by omega)]
  | incI i =>
    refine ⟨_, _, rfl, ?_, ⟨⟨Nat.le_refl _, Nat.le_refl _⟩, fun _ _ _ x => x, ?_, ?_⟩⟩
    · exact h.setIter (live_lt h hv) _ rfl (by simp) ⟨id, fun a n ha => ⟨n, ha⟩⟩
    · intro j _ h0
      by_cases e : j = i
      · subst e
        have : 0 < (w.is j).refs := hv
        omega
      · show IObj.refs (upd _ _ _ _) = 0
        rw [upd_ne _ _ e]; exact h0
    · intro j _
      right; left
      show IObj.iter (upd _ _ _ _) = _
      by_cases e : j = i
      · subst e; simp
      · rw [upd_ne _ _ e]
  | decI i =>
    have hi := live_lt h hv
    simp only [step]
    unfold decrefI
    by_cases h1 : (w.is i).refs = 1
    · rw [if_pos h1]
      have hk := h.killIter hi
      unfold deallocI
      have hdead : ∀ w' : World E, w'.is = upd w.is i ⟨0, none, none⟩ → w'.nextI = w.nextI → w'.nextH = w.nextH →
          (∀ a l, w'.heap a = some l → w.heap a = some l) → Frame w w' (.decI i : Op P E) := by
        intro w' e1 e2 e3 e4
        refine ⟨⟨by omega, by omega⟩, fun a l _ hl => e4 a l hl, ?_, ?_⟩
        · intro j _ h0
          rw [e1]
          by_cases e : j = i
          · subst e; simp
          · rw [upd_ne _ _ e]; exact h0
        · intro j _
          rw [e1]
          by_cases e : j = i
          · subst e; simp
          · rw [upd_ne _ _ e]; exact .inr (.inl rfl)
      cases hc : (w.is i).container with
      | none =>
        rw [hc] at hk
        exact ⟨_, _, rfl, hk, hdead _ rfl rfl rfl (fun _ _ x => x)⟩
      | some c =>
        rw [hc] at hk
        obtain ⟨f1, f2, f3, f4⟩ := decref_frame { w with is := upd w.is i ⟨0, none, none⟩ } c
        exact ⟨_, _, rfl, hk.decref, hdead _ f1 f2 f3 f4⟩
    · rw [if_neg h1]
      have hv' : 0 < (w.is i).refs := hv
      refine ⟨_, _, rfl, ?_, ⟨⟨Nat.le_refl _, Nat.le_refl _⟩, fun _ _ _ x => x, ?_, ?_⟩⟩
      · exact h.setIter hi _ rfl (by show (w.is i).refs - 1 ≠ 0; omega) ⟨id, fun a n ha => ⟨n, ha⟩⟩
      · intro j _ h0
        by_cases e : j = i
        · subst e; omega
        · show IObj.refs (upd _ _ _ _) = 0
          rw [upd_ne _ _ e]; exact h0
      · intro j _
        right; left
        show IObj.iter (upd _ _ _ _) = _
        by_cases e : j = i
        · subst e; simp
        · rw [upd_ne _ _ e]
  | next i =>
    have hi := live_lt h hv
    have hv' : 0 < (w.is i).refs := hv
    simp only [step]
    cases hit : (w.is i).iter with
    | none => exact absurd hit hu
    | some an =>
      obtain ⟨a, n⟩ := an
      obtain ⟨c, hc1, hc2⟩ := h.iterSome i a n hit
      obtain ⟨l, hl⟩ := h.owned c a hc2
      simp only [hc1, hc2, if_true, hl]
      cases hn : l[n]? with
      | none =>
        exact ⟨_, _, rfl, h, ⟨⟨Nat.le_refl _, Nat.le_refl _⟩, fun _ _ _ x => x, fun _ _ x => x, fun _ _ => .inr (.inl rfl)⟩⟩
      | some e =>
        refine ⟨_, _, rfl, ?_, ⟨⟨Nat.le_refl _, Nat.le_refl _⟩, fun _ _ _ x => x, ?_, ?_⟩⟩
        · refine h.setIter hi _ hc1.symm (by show (w.is i).refs ≠ 0; omega) ⟨(by intro hh; cases hh), ?_⟩
          intro b m hb
          simp only [Option.some.injEq, Prod.mk.injEq] at hb
          exact ⟨n, by rw [hit, hb.1]⟩
        · intro j _ h0
          by_cases e : j = i
          · subst e; omega
          · show IObj.refs (upd _ _ _ _) = 0
            rw [upd_ne _ _ e]; exact h0
        · intro j _
          by_cases e : j = i
          · subst e; exact .inr (.inr rfl)
          · right; left
            show IObj.iter (upd _ _ _ _) = _
            rw [upd_ne _ _ e]
  | fromCpp l =>
    refine ⟨_, _, rfl, ?_, ⟨⟨Nat.le_refl _, Nat.le_succ _⟩, ?_, fun _ _ x => x, fun _ _ => .inr (.inl rfl)⟩⟩
    · have hal := h.alloc
      have hnew : (allocC w).cs w.nextC = ⟨1, 1, none⟩ := by
        show upd _ _ _ _ = _
        rw [upd_same]
      have := hal.setObj (c := w.nextC) (by rw [hnew]) (by rw [hnew]; simp) l
      have hcs : upd (allocC w).cs w.nextC { (allocC w).cs w.nextC with obj := some w.nextH } =
          upd w.cs w.nextC ⟨1, 1, some w.nextH⟩ := by
        rw [hnew]
        funext d
        by_cases e : d = w.nextC
        · subst e; simp
        · rw [upd_ne _ _ e, upd_ne _ _ e]
          show upd _ _ _ _ = _
          rw [upd_ne _ _ e]
      have e : (allocC w).nextH = w.nextH := rfl
      rw [e, hcs] at this
      exact this
    · intro a l' ha hl'
      have : (upd w.heap w.nextH (some l)) a = some l' := hl'
      rw [upd_ne _ _ (by omega)] at this
      exact this
  | toCpp a =>
    obtain ⟨l, b, hl⟩ := convert_ok view kind cmp hp w a [] (by
      intro c hc
      cases ho : (w.cs c).obj with
      | none => exact absurd ho (hu c hc)
      | some x =>
        obtain ⟨l, hl⟩ := h.owned c x ho
        exact ⟨x, l, rfl, hl⟩)
    simp only [step, hl]
    cases b <;>
    exact ⟨_, _, rfl, h, ⟨⟨Nat.le_refl _, Nat.le_refl _⟩, fun _ _ _ x => x, fun _ _ x => x, fun _ _ => .inr (.inl rfl)⟩⟩

theorem run_inv (hp : Pure conv f) {w w' : World E} {hist : List (Op P E × Out E)} (h : Inv w none)
    (hr : Run view kind cmp conv (Op.usual view) w hist w') : Inv w' none := by
  induction hr with
  | nil => exact h
  | cons hv hq hs _ ih =>
    obtain ⟨w1, o, h1, h2, _⟩ := step_ok view kind cmp hp h _ hv hq
    rw [hs] at h1
    cases h1
    exact ih h2

/-! ## C62 -/

/-- C62: used in the usual way, containers never lead to undefined behaviour. -/
theorem C62_no_crash_partial (hp : Pure conv f) {w : World E} {hist : List (Op P E × Out E)}
    (hr : Run view kind cmp conv (Op.usual view) World.empty hist w) (op : Op P E) (hv : op.valid view w)
    (hu : op.usual view w) : step view kind cmp conv w op ≠ .crash := by
  obtain ⟨w', o, h1, _⟩ := step_ok view kind cmp hp (run_inv view kind cmp hp inv_empty hr) op hv hu
  rw [h1]; simp

/-- C62: at every moment of such a history each C++ container on the heap belongs to exactly one Python
object, which exists (nothing leaks, nothing is freed early), and a Python object exists exactly as
long as the program or an iterator refers to it. -/
theorem C62_memory_partial (hp : Pure conv f) {w : World E} {hist : List (Op P E × Out E)}
    (hr : Run view kind cmp conv (Op.usual view) World.empty hist w) :
    (∀ h, (w.heap h).isSome ↔ ∃ c, 0 < (w.cs c).refs ∧ (w.cs c).obj = some h) ∧
    (∀ c d h, (w.cs c).obj = some h → (w.cs d).obj = some h → c = d) ∧
    (∀ c, 0 < (w.cs c).refs ↔ 0 < (w.cs c).user ∨ ∃ i, 0 < (w.is i).refs ∧ (w.is i).container = some c) := by
  have h := run_inv view kind cmp hp inv_empty hr
  refine ⟨?_, h.inj, ?_⟩
  · intro a
    constructor
    · intro ha
      obtain ⟨l, hl⟩ := Option.isSome_iff_exists.mp ha
      obtain ⟨c, hc⟩ := h.noLeak a l hl
      refine ⟨c, ?_, hc⟩
      by_contra hn
      have := h.deadC c (by omega)
      rw [this] at hc; cases hc
    · rintro ⟨c, _, hc⟩
      obtain ⟨l, hl⟩ := h.owned c a hc
      rw [hl]; rfl
  · intro c
    have hc := h.refs c
    simp only [reduceCtorEq, if_false] at hc
    constructor
    · intro hpos
      by_cases hu : 0 < (w.cs c).user
      · exact .inl hu
      · right
        have : 0 < iterators w c := by omega
        obtain ⟨i, hi, hic⟩ := List.countP_pos_iff.mp this
        have hic : (w.is i).container = some c := by simpa using hic
        refine ⟨i, ?_, hic⟩
        by_contra hn
        rw [h.deadI i (by omega)] at hic; cases hic
    · rintro (hu | ⟨i, hi, hic⟩)
      · omega
      · have : 0 < iterators w c :=
          List.countP_pos_iff.mpr ⟨i, List.mem_range.mpr (live_lt h hi), by simpa using hic⟩
        omega

/-! ## C61 -/

/-- What `next` gave for iterator `i`, in order. -/
def nexts (i : Nat) : List (Op P E × Out E) → List (Option E)
  | [] => []
  | (.next j, .elem e) :: h => if j = i then e :: nexts i h else nexts i h
  | _ :: h => nexts i h

theorem nexts_cons_ne (i : Nat) (op : Op P E) (o : Out E) (hist) (h : op ≠ .next i) :
    nexts i ((op, o) :: hist) = nexts i hist := by
  cases op <;> cases o <;> simp only [nexts]
  rename_i j e
  rw [if_neg]
  intro hh; subst hh; exact h rfl

theorem nexts_dead (hp : Pure conv f) (i : Nat) {w w' : World E} {hist : List (Op P E × Out E)} (h : Inv w none)
    (hr : Run view kind cmp conv (Op.usual view) w hist w') (hi : i < w.nextI) (hd : (w.is i).refs = 0) :
    nexts i hist = [] := by
  induction hr with
  | nil => rfl
  | @cons w w1 w2 op o hist hv hq hs _ ih =>
    obtain ⟨w1', o', h1, h2, h3⟩ := step_ok view kind cmp hp h _ hv hq
    rw [hs] at h1
    cases h1
    have : op ≠ .next i := by
      intro e; subst e
      have : 0 < (w.is i).refs := hv
      omega
    rw [nexts_cons_ne i _ _ _ this]
    exact ih h2 (Nat.lt_of_lt_of_le hi h3.mono.1) (h3.dead i hi hd)

theorem nexts_from (hp : Pure conv f) (i : Nat) {w w' : World E} {hist : List (Op P E × Out E)} (h : Inv w none)
    (hr : Run view kind cmp conv (Op.usual view) w hist w') (hi : i < w.nextI) :
    ∀ (a n : Nat) (l : List E), (w.is i).iter = some (a, n) → w.heap a = some l →
      nexts i hist = (List.range (nexts i hist).length).map (fun k => l[n + k]?) := by
  induction hr with
  | nil => intro a n l _ _; rfl
  | @cons w w1 w2 op o hist hv hq hs hrest ih =>
    intro a n l hit hl
    obtain ⟨w1', o', h1, h2, h3⟩ := step_ok view kind cmp hp h _ hv hq
    rw [hs] at h1
    cases h1
    have hi' : i < w1.nextI := Nat.lt_of_lt_of_le hi h3.mono.1
    have ha : a < w.nextH := by
      by_contra hn
      rw [h.freshH a (by omega)] at hl; cases hl
    have keep : ∀ m, (w1.is i).iter = some (a, m) → w1.heap a = some l := by
      intro m hm
      obtain ⟨c, hc1, hc2⟩ := h2.iterSome i a m hm
      obtain ⟨l', hl'⟩ := h2.owned c a hc2
      have := h3.heap a l' ha hl'
      rw [hl] at this
      cases this
      exact hl'
    by_cases hop : op = .next i
    · subst hop
      obtain ⟨c, hc1, hc2⟩ := h.iterSome i a n hit
      simp only [step, hit, hc1, hc2, if_true, hl] at hs
      cases hn : l[n]? with
      | none =>
        rw [hn] at hs
        have hs := Res.ok.inj hs
        obtain ⟨rfl, rfl⟩ := Prod.mk.inj hs
        have := ih h2 hi' a n l hit hl
        simp only [nexts, if_true, List.length_cons, List.range_succ_eq_map, List.map_cons, List.map_map]
        rw [Nat.add_zero, hn]
        congr 1
        conv => lhs; rw [this]
        apply List.map_congr_left
        intro k _
        simp only [Function.comp]
        have hge : l.length ≤ n := List.getElem?_eq_none_iff.mp hn
        rw [List.getElem?_eq_none (by omega), List.getElem?_eq_none (by omega)]
      | some e =>
        rw [hn] at hs
        have hs := Res.ok.inj hs
        obtain ⟨rfl, rfl⟩ := Prod.mk.inj hs
        have := ih h2 hi' a (n + 1) l (by simp) hl
        simp only [nexts, if_true, List.length_cons, List.range_succ_eq_map, List.map_cons, List.map_map]
        rw [Nat.add_zero, hn]
        congr 1
        conv => lhs; rw [this]
        apply List.map_congr_left
        intro k _
        simp only [Function.comp]
        congr 1
        omega
    · rw [nexts_cons_ne i _ _ _ hop]
      rcases h3.iter i hi with hd | hd | hd
      · rw [nexts_dead view kind cmp hp i h2 hrest hi' hd]; rfl
      · rw [hit] at hd
        exact ih h2 hi' a n l hd (keep n hd)
      · exact absurd hd hop

/-- C61: an iterator yields the elements that were in the container when it was made, in order, each
once, and `StopIteration` ever after — whatever else happens to other objects, to other iterators of
the same container, or to the program's references to the container. -/
theorem C61_iteration_partial (hp : Pure conv f) {w w1 w2 : World E} {before after : List (Op P E × Out E)}
    (hr : Run view kind cmp conv (Op.usual view) World.empty before w)
    {c i : Nat} {l : List E} (hl : (w.cs c).obj.bind w.heap = some l) (hv : 0 < (w.cs c).user)
    (hs : step view kind cmp conv w (.iter c) = .ok (w1, .newI i))
    (hr' : Run view kind cmp conv (Op.usual view) w1 after w2) :
    nexts i after = (List.range (nexts i after).length).map (fun k => l[k]?) := by
  have h := run_inv view kind cmp hp inv_empty hr
  cases ho : (w.cs c).obj with
  | none => rw [ho] at hl; cases hl
  | some a =>
    rw [ho] at hl
    have hl : w.heap a = some l := hl
    obtain ⟨w1', o', h1, h2, _⟩ := step_ok view kind cmp hp h (.iter c) hv (by
      show (w.cs c).obj ≠ none
      rw [ho]; simp)
    rw [hs] at h1
    cases h1
    simp only [step, ho] at hs
    have hs := Res.ok.inj hs
    obtain ⟨rfl, hi⟩ := Prod.mk.inj hs
    cases hi
    have := nexts_from view kind cmp hp w.nextI h2 hr' (Nat.lt_succ_self _) a 0 l (by simp) hl
    simpa using this
end

end Verif.Container
