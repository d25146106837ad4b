import Verif.CType.Spec

/-!
# Modifier placement: `reorder_modifiers` is `canon`, and `canon` decides `Same`
-/
namespace Verif.CType
open Verif

theorem isNamed_const_volatile {i : Item} (h : i.isNamed kConst = true) : i.isNamed kVolatile = false := by
  cases i with
  | tok t => simp [Item.isNamed] at *; rw [h]; decide
  | sub c => rfl

theorem mod_not_ptr {i : Item} (h : i.isMod = true) : i.isPtrRef = false := by
  cases i with
  | tok t =>
    simp only [Item.isMod, Item.isNamed, Item.isPtrRef, Bool.or_eq_true, beq_iff_eq] at *
    rcases h with h | h <;> rw [h] <;> decide
  | sub c => rfl

theorem named_mod {m : Str} (hm : m ∈ kModifiers) {i : Item} (h : i.isNamed m = true) :
    i.isMod = true := by
  simp [kModifiers] at hm
  rcases hm with rfl | rfl <;> simp [Item.isMod, h]

theorem named_not_ptr {m : Str} (hm : m ∈ kModifiers) {i : Item} (h : i.isNamed m = true) :
    i.isPtrRef = false := mod_not_ptr (named_mod hm h)

/-- Flagged version of one reordering pass. -/
def cf (m : Str) : List (Item × Bool) → List (Item × Bool) → List (Item × Bool)
  | c, [] => c
  | c, x :: r =>
    if x.1.isNamed m && !x.2 then cf m (c ++ [(x.1, true)]) r
    else if x.1.isPtrRef then c ++ x :: cf m [] r
    else x :: cf m c r

theorem cf_insert {m : Str} (hm : m ∈ kModifiers) (x : Item) (hx : x.isNamed m = true) :
    ∀ (r c : List (Item × Bool)), cf m c (insertBefore (x, true) r) = cf m ((x, true) :: c) r := by
  intro r
  induction r with
  | nil => intro c; simp [insertBefore, cf, named_not_ptr hm hx]
  | cons y ys ih =>
    intro c
    unfold insertBefore
    split
    · rename_i hy
      have hyn : y.1.isNamed m = false := by
        cases h : y.1.isNamed m with
        | false => rfl
        | true => rw [named_not_ptr hm h] at hy; cases hy
      simp [cf, named_not_ptr hm hx, hy, hyn]
    · rename_i hy
      simp only [cf]
      split
      · rw [ih]; rfl
      · rw [ih]

theorem cf_move {m : Str} (hm : m ∈ kModifiers) :
    ∀ (l l' : List (Item × Bool)), moveFirst m l = some l' → cf m [] l' = cf m [] l := by
  suffices h : ∀ (l l' c : List (Item × Bool)), moveFirst m l = some l' → c = [] → cf m c l' = cf m c l by
    intro l l' hl; exact h l l' [] hl rfl
  intro l
  induction l with
  | nil => intro l' c h; simp [moveFirst] at h
  | cons x r ih =>
    intro l' c h hc
    unfold moveFirst at h
    split at h
    · rename_i hx
      cases h; subst hc
      simp only [cf, hx, if_true]
      rw [cf_insert hm x.1 (by simpa using (Bool.and_eq_true_iff.mp hx).1)]
      rfl
    · rename_i hx
      cases hr : moveFirst m r with
      | none => rw [hr] at h; cases h
      | some r' =>
        rw [hr] at h; cases h; subst hc
        simp only [cf, hx]
        have := ih r' [] hr rfl
        simp [this]

theorem cf_done {m : Str} : ∀ (l : List (Item × Bool)), moveFirst m l = none → cf m [] l = l := by
  intro l
  induction l with
  | nil => intro; rfl
  | cons x r ih =>
    intro h
    unfold moveFirst at h
    split at h
    · cases h
    · rename_i hx
      have hr : moveFirst m r = none := by
        cases hr : moveFirst m r with
        | none => rfl
        | some r' => rw [hr] at h; cases h
      simp only [cf, hx]
      simp [ih hr]

def pend (m : Str) (l : List (Item × Bool)) : Nat := l.countP (fun x => x.1.isNamed m && !x.2)

theorem pend_insert {m : Str} (x : Item) (r : List (Item × Bool)) :
    pend m (insertBefore (x, true) r) = pend m r := by
  induction r with
  | nil => simp [insertBefore, pend]
  | cons y ys ih =>
    unfold insertBefore
    unfold pend at *
    split
    · simp [List.countP_cons]
    · simp [List.countP_cons, ih]

theorem pend_move {m : Str} : ∀ (l l' : List (Item × Bool)), moveFirst m l = some l' →
    pend m l = pend m l' + 1 := by
  intro l
  induction l with
  | nil => intro l' h; simp [moveFirst] at h
  | cons x r ih =>
    intro l' h
    unfold moveFirst at h
    split at h
    · rename_i hx
      cases h
      rw [pend_insert]
      simp [pend, List.countP_cons, hx]
    · rename_i hx
      cases hr : moveFirst m r with
      | none => rw [hr] at h; cases h
      | some r' =>
        rw [hr] at h; cases h
        have := ih r' hr
        unfold pend at *
        simp only [List.countP_cons, this, hx]; simp; 

theorem move_none_of_pend {m : Str} : ∀ (l : List (Item × Bool)), pend m l = 0 → moveFirst m l = none := by
  intro l h
  cases hm : moveFirst m l with
  | none => rfl
  | some l' => have := pend_move l l' hm; omega

theorem reorderLoop_eq {m : Str} (hm : m ∈ kModifiers) :
    ∀ (n : Nat) (l : List (Item × Bool)), pend m l ≤ n → reorderLoop m n l = cf m [] l := by
  intro n
  induction n with
  | zero => intro l h; rw [reorderLoop, cf_done l (move_none_of_pend l (by omega))]
  | succ n ih =>
    intro l h
    unfold reorderLoop
    cases hl : moveFirst m l with
    | none => simp only [cf_done l hl]
    | some l' =>
      simp only
      rw [ih l' (by have := pend_move l l' hl; omega), cf_move hm l l' hl]

/-- One reordering pass without flags. -/
def pass (m : Str) : List Item → List Item → List Item
  | c, [] => c
  | c, x :: r =>
    if x.isNamed m then pass m (c ++ [x]) r
    else if x.isPtrRef then c ++ x :: pass m [] r
    else x :: pass m c r

theorem cf_pass (m : Str) : ∀ (l : List Item) (c : List (Item × Bool)),
    (cf m c (l.map (·, false))).map (·.1) = pass m (c.map (·.1)) l := by
  intro l
  induction l with
  | nil => intro c; rfl
  | cons x r ih =>
    intro c
    simp only [List.map_cons, cf, pass]
    cases hx : x.isNamed m with
    | true => simp [ih]
    | false =>
      cases hp : x.isPtrRef with
      | true => simp [ih]
      | false => simp [ih]

theorem reorderModifier_eq {m : Str} (hm : m ∈ kModifiers) (l : List Item) :
    reorderModifier m l = pass m [] l := by
  unfold reorderModifier
  rw [reorderLoop_eq hm, cf_pass]
  · rfl
  · unfold pend
    exact Nat.le_trans List.countP_le_length (by simp)

theorem pass_seg (m : Str) (hm : m ∈ kModifiers) : ∀ (s c r : List Item) (d : Item),
    (∀ x ∈ s, x.isPtrRef = false) → d.isPtrRef = true →
    pass m c (s ++ d :: r) =
      s.filter (fun x => !x.isNamed m) ++ c ++ s.filter (·.isNamed m) ++ d :: pass m [] r := by
  intro s
  induction s with
  | nil =>
    intro c r d _ hd
    have : d.isNamed m = false := by
      cases h : d.isNamed m with
      | false => rfl
      | true => rw [named_not_ptr hm h] at hd; cases hd
    simp [pass, this, hd]
  | cons x s ih =>
    intro c r d hs hd
    have hs' : ∀ y ∈ s, y.isPtrRef = false := fun y hy => hs y (List.mem_cons_of_mem _ hy)
    simp only [List.cons_append, pass]
    cases hx : x.isNamed m with
    | true => simp [ih _ r d hs' hd, hx]
    | false => simp [ih _ r d hs' hd, hx, hs x (by simp)]

theorem pass_end (m : Str) : ∀ (s c : List Item),
    (∀ x ∈ s, x.isPtrRef = false) →
    pass m c s = s.filter (fun x => !x.isNamed m) ++ c ++ s.filter (·.isNamed m) := by
  intro s
  induction s with
  | nil => intro c _; simp [pass]
  | cons x s ih =>
    intro c hs
    have hs' : ∀ y ∈ s, y.isPtrRef = false := fun y hy => hs y (List.mem_cons_of_mem _ hy)
    simp only [pass]
    cases hx : x.isNamed m with
    | true => simp [ih _ hs', hx]
    | false => simp [ih _ hs', hx, hs x (by simp)]

theorem canonAcc_seg : ∀ (s c r : List Item) (d : Item),
    (∀ x ∈ s, x.isPtrRef = false) → d.isPtrRef = true →
    canonAcc c (s ++ d :: r) = canonSeg (c ++ s) ++ d :: canonAcc [] r := by
  intro s
  induction s with
  | nil => intro c r d _ hd; simp [canonAcc, hd]
  | cons x s ih =>
    intro c r d hs hd
    simp only [List.cons_append, canonAcc, hs x (by simp)]
    simp [ih (c ++ [x]) r d (fun y hy => hs y (List.mem_cons_of_mem _ hy)) hd]

theorem canonAcc_end : ∀ (s c : List Item),
    (∀ x ∈ s, x.isPtrRef = false) → canonAcc c s = canonSeg (c ++ s) := by
  intro s
  induction s with
  | nil => intro c _; simp [canonAcc]
  | cons x s ih =>
    intro c hs
    simp only [canonAcc, hs x (by simp)]
    simp [ih (c ++ [x]) (fun y hy => hs y (List.mem_cons_of_mem _ hy))]

/-- Induction over the levels of a type. -/
theorem levels_induction {P : List Item → Prop}
    (last : ∀ s, (∀ x ∈ s, x.isPtrRef = false) → P s)
    (level : ∀ s d r, (∀ x ∈ s, x.isPtrRef = false) → d.isPtrRef = true → P r → P (s ++ d :: r))
    (l : List Item) : P l := by
  suffices h : ∀ (l s : List Item), (∀ x ∈ s, x.isPtrRef = false) → P (s ++ l) by
    exact h l [] (by simp)
  intro l
  induction l with
  | nil => intro s hs; simpa using last s hs
  | cons x r ih =>
    intro s hs
    cases hx : x.isPtrRef with
    | true => exact level s x r hs hx (by simpa using ih [] (by simp))
    | false =>
      have := ih (s ++ [x]) (by
        intro y hy
        simp at hy
        rcases hy with hy | rfl
        · exact hs y hy
        · exact hx)
      simpa using this

theorem filter_two (s : List Item) :
    (s.filter (fun x => !x.isNamed kConst) ++ s.filter (·.isNamed kConst)).filter
        (fun x => !x.isNamed kVolatile) ++
      (s.filter (fun x => !x.isNamed kConst) ++ s.filter (·.isNamed kConst)).filter
        (·.isNamed kVolatile) = canonSeg s := by
  unfold canonSeg
  simp only [List.filter_append, List.filter_filter]
  have h1 : s.filter (fun a => (!a.isNamed kVolatile) && (!a.isNamed kConst)) =
      s.filter (fun i => !i.isMod) := by
    congr 1; funext a; simp [Item.isMod, Bool.and_comm]
  have h2 : s.filter (fun a => (!a.isNamed kVolatile) && a.isNamed kConst) =
      s.filter (·.isNamed kConst) := by
    congr 1; funext a
    cases h : a.isNamed kConst with
    | false => simp
    | true => simp [isNamed_const_volatile h]
  have h3 : s.filter (fun a => a.isNamed kVolatile && !a.isNamed kConst) =
      s.filter (·.isNamed kVolatile) := by
    congr 1; funext a
    cases h : a.isNamed kConst with
    | false => simp
    | true => simp [isNamed_const_volatile h]
  have h4 : s.filter (fun a => a.isNamed kVolatile && a.isNamed kConst) = [] := by
    rw [List.filter_eq_nil_iff]
    intro a _
    cases h : a.isNamed kConst with
    | false => simp
    | true => simp [isNamed_const_volatile h]
  rw [h1, h2, h3, h4]
  simp

/-- `reorder_modifiers` puts the modifiers of every level last. -/
theorem reorder_eq_canon (l : List Item) : reorder l = canon l := by
  unfold reorder
  simp only [kModifiers, List.foldl_cons, List.foldl_nil]
  have hc : kConst ∈ kModifiers := by decide
  have hv : kVolatile ∈ kModifiers := by decide
  rw [reorderModifier_eq hv, reorderModifier_eq hc]
  unfold canon
  induction l using levels_induction with
  | last s hs =>
    rw [canonAcc_end s [] hs, pass_end kConst s [] hs, pass_end]
    · simpa using filter_two s
    · intro x hx; simp at hx; exact hs x (by tauto)
  | level s d r hs hd ih =>
    rw [canonAcc_seg s [] r d hs hd, pass_seg kConst hc s [] r d hs hd, pass_seg kVolatile hv _ [] _ d _ hd, ih]
    · rw [List.nil_append, ← filter_two s]; simp
    · intro x hx; simp at hx; exact hs x (by tauto)

/-! ## `Same` -/

theorem deepItem_named (i : Item) (n : Str) : (deepItem i).isNamed n = i.isNamed n := by
  cases i <;> simp [deepItem, Item.isNamed]

theorem deepItem_mod (i : Item) : (deepItem i).isMod = i.isMod := by
  simp [Item.isMod, deepItem_named]

theorem deepItem_ptr (i : Item) : (deepItem i).isPtrRef = i.isPtrRef := by
  simp [Item.isPtrRef, deepItem_named]

theorem deepList_map (l : List Item) : deepList l = l.map deepItem := by
  induction l with
  | nil => rfl
  | cons x r ih => simp [deepList, ih]

theorem canonAcc_congr : ∀ (l a b : List Item),
    a.filter (fun i => !i.isMod) = b.filter (fun i => !i.isMod) →
    a.filter (·.isNamed kConst) = b.filter (·.isNamed kConst) →
    a.filter (·.isNamed kVolatile) = b.filter (·.isNamed kVolatile) →
    canonAcc a l = canonAcc b l := by
  intro l
  induction l with
  | nil => intro a b h1 h2 h3; simp [canonAcc, canonSeg, h1, h2, h3]
  | cons x r ih =>
    intro a b h1 h2 h3
    simp only [canonAcc]
    split
    · simp [canonSeg, h1, h2, h3]
    · exact ih _ _ (by simp [h1]) (by simp [h2]) (by simp [h3])

theorem canonAcc_append (x y : List Item) (hxy : ∀ acc, canonAcc acc x = canonAcc acc y) :
    ∀ (a acc : List Item), canonAcc acc (a ++ x) = canonAcc acc (a ++ y) := by
  intro a
  induction a with
  | nil => intro acc; simpa using hxy acc
  | cons z a ih =>
    intro acc
    simp only [List.cons_append, canonAcc]
    split
    · rw [ih]
    · rw [ih]

theorem swap_canon {m x : Item} (b : List Item) (hm : m.isMod = true) (hx : x.isPtrRef = false)
    (hd : ∀ n ∈ kModifiers, ¬ (m.isNamed n = true ∧ x.isNamed n = true)) (acc : List Item) :
    canonAcc acc (m :: x :: b) = canonAcc acc (x :: m :: b) := by
  have hmp := mod_not_ptr hm
  simp only [canonAcc, hmp, hx]
  have h1 := hd kConst (by decide)
  have h2 := hd kVolatile (by decide)
  apply canonAcc_congr
  · simp [List.filter_cons, hm]
  · simp only [List.filter_append, List.filter_cons]
    cases h : m.isNamed kConst <;> cases h' : x.isNamed kConst <;> simp
    exact absurd ⟨h, h'⟩ h1
  · simp only [List.filter_append, List.filter_cons]
    cases h : m.isNamed kVolatile <;> cases h' : x.isNamed kVolatile <;> simp
    exact absurd ⟨h, h'⟩ h2

theorem deepCanon_of_same {l l' : List Item} (h : Same l l') : deepCanon l = deepCanon l' := by
  induction h with
  | refl => rfl
  | symm _ ih => exact ih.symm
  | trans _ _ ih1 ih2 => exact ih1.trans ih2
  | swap a b hm hx hd =>
    unfold deepCanon canon
    simp only [deepList_map, List.map_append, List.map_cons]
    apply canonAcc_append
    intro acc
    exact swap_canon _ (by rw [deepItem_mod]; exact hm) (by rw [deepItem_ptr]; exact hx)
      (by intro n hn; simp only [deepItem_named]; exact hd n hn) acc
  | inside a b _ ih =>
    unfold deepCanon at *
    simp only [deepList_map, List.map_append, List.map_cons, deepItem] at *
    rw [ih]

theorem Same.append_left {l l' : List Item} (h : Same l l') (a : List Item) : Same (a ++ l) (a ++ l') := by
  induction h with
  | refl => exact .refl _
  | symm _ ih => exact .symm ih
  | trans _ _ ih1 ih2 => exact .trans ih1 ih2
  | swap p b hm hx hd =>
    simpa using Same.swap (a ++ p) b hm hx hd
  | inside p b h _ => simpa using Same.inside (a ++ p) b h

theorem Same.append_right {l l' : List Item} (h : Same l l') (b : List Item) : Same (l ++ b) (l' ++ b) := by
  induction h with
  | refl => exact .refl _
  | symm _ ih => exact .symm ih
  | trans _ _ ih1 ih2 => exact .trans ih1 ih2
  | swap p q hm hx hd =>
    simpa using Same.swap p (q ++ b) hm hx hd
  | inside p q h _ => simpa using Same.inside p (q ++ b) h

/-- A modifier moves right past items that are neither `*`/`&` nor the same modifier. -/
theorem same_move {m : Item} (hm : m.isMod = true) : ∀ (n r : List Item),
    (∀ x ∈ n, x.isPtrRef = false ∧ ∀ k ∈ kModifiers, ¬ (m.isNamed k = true ∧ x.isNamed k = true)) →
    Same (m :: n ++ r) (n ++ m :: r) := by
  intro n
  induction n with
  | nil => intro r _; exact .refl _
  | cons x n ih =>
    intro r h
    have h1 : Same (m :: x :: (n ++ r)) (x :: m :: (n ++ r)) :=
      Same.swap [] (n ++ r) hm (h x (by simp)).1 (h x (by simp)).2
    have h2 : Same (m :: n ++ r) (n ++ m :: r) := ih r (fun y hy => h y (List.mem_cons_of_mem _ hy))
    exact .trans h1 (h2.append_left [x])

theorem not_named_of_not_mod {x : Item} (h : x.isMod = false) : ∀ k ∈ kModifiers, x.isNamed k = false := by
  intro k hk
  cases h' : x.isNamed k with
  | false => rfl
  | true => rw [named_mod hk h'] at h; cases h

theorem same_canonSeg : ∀ (s : List Item), (∀ x ∈ s, x.isPtrRef = false) → Same s (canonSeg s) := by
  intro s
  induction s with
  | nil => intro _; exact .refl _
  | cons x s ih =>
    intro hs
    have hs' : ∀ y ∈ s, y.isPtrRef = false := fun y hy => hs y (List.mem_cons_of_mem _ hy)
    have h1 : Same (x :: s) (x :: canonSeg s) := (ih hs').append_left [x]
    refine .trans h1 ?_
    cases hm : x.isMod with
    | false =>
      have : canonSeg (x :: s) = x :: canonSeg s := by
        unfold canonSeg
        have hc := not_named_of_not_mod hm kConst (by decide)
        have hv := not_named_of_not_mod hm kVolatile (by decide)
        simp [List.filter_cons, hm, hc, hv]
      rw [this]; exact .refl _
    | true =>
      cases hc : x.isNamed kConst with
      | true =>
        have hv := isNamed_const_volatile hc
        have : canonSeg (x :: s) = s.filter (fun i => !i.isMod) ++
            x :: (s.filter (·.isNamed kConst) ++ s.filter (·.isNamed kVolatile)) := by
          unfold canonSeg
          simp [List.filter_cons, hm, hc, hv]
        rw [this]
        unfold canonSeg
        have := same_move hm (s.filter (fun i => !i.isMod))
          (s.filter (·.isNamed kConst) ++ s.filter (·.isNamed kVolatile)) (by
            intro y hy
            simp at hy
            exact ⟨hs' y hy.1, fun k hk hh => by
              rw [not_named_of_not_mod hy.2 k hk] at hh; exact absurd hh.2 (by simp)⟩)
        simpa using this
      | false =>
        have hv : x.isNamed kVolatile = true := by simpa [Item.isMod, hc] using hm
        have : canonSeg (x :: s) = (s.filter (fun i => !i.isMod) ++ s.filter (·.isNamed kConst)) ++
            x :: s.filter (·.isNamed kVolatile) := by
          unfold canonSeg
          simp [List.filter_cons, hm, hc, hv]
        rw [this]
        unfold canonSeg
        have := same_move hm (s.filter (fun i => !i.isMod) ++ s.filter (·.isNamed kConst))
          (s.filter (·.isNamed kVolatile)) (by
            intro y hy
            simp at hy
            refine ⟨hs' y (by tauto), ?_⟩
            rcases hy with hy | hy
            · intro k hk hh
              rw [not_named_of_not_mod hy.2 k hk] at hh; exact absurd hh.2 (by simp)
            · intro k hk hh
              simp [kModifiers] at hk
              rcases hk with rfl | rfl
              · rw [hc] at hh; exact absurd hh.1 (by simp)
              · rw [isNamed_const_volatile hy.2] at hh; exact absurd hh.2 (by simp))
        simpa using this

theorem same_canon (l : List Item) : Same l (canon l) := by
  unfold canon
  induction l using levels_induction with
  | last s hs => rw [canonAcc_end s [] hs]; exact same_canonSeg s hs
  | level s d r hs hd ih =>
    rw [canonAcc_seg s [] r d hs hd]
    have h1 := (same_canonSeg s hs).append_right (d :: r)
    have h2 := (ih.append_left [d]).append_left (canonSeg s)
    exact .trans h1 (by simpa using h2)

mutual
theorem same_deepItem : ∀ (i : Item) (b : List Item), Same (i :: b) (deepItem i :: b)
  | .tok t, b => by rw [deepItem]; exact .refl _
  | .sub c, b => by
    rw [deepItem]
    have h := (same_deepList c).trans (same_canon (deepList c))
    exact Same.inside [] b h
theorem same_deepList : ∀ (l : List Item), Same l (deepList l)
  | [] => .refl _
  | i :: r => by
    rw [deepList]
    have h1 := same_deepItem i r
    have h2 := (same_deepList r).append_left [deepItem i]
    exact .trans h1 h2
end

theorem same_deepCanon (l : List Item) : Same l (deepCanon l) :=
  (same_deepList l).trans (same_canon _)

/-- The canonical form decides `Same`. -/
theorem same_iff_deepCanon (l l' : List Item) : Same l l' ↔ deepCanon l = deepCanon l' := by
  constructor
  · exact deepCanon_of_same
  · intro h
    refine (same_deepCanon l).trans ?_
    rw [h]
    exact (same_deepCanon l').symm

theorem deepCanon_idem (l : List Item) : deepCanon (deepCanon l) = deepCanon l :=
  (deepCanon_of_same (same_deepCanon l)).symm

end Verif.CType
