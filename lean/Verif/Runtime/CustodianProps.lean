import Verif.Runtime.Custodian
import Mathlib.Algebra.BigOperators.Group.List.Basic
import Mathlib.Data.List.Induction

/-!
# C46: custodians keep their wards alive
-/
namespace Verif.Custodian

/-! ## Heap lemmas -/

theorem get_put (h : Heap) (o v : Nat) (x : Option Obj) (ho : o < h.objs.length) :
    (h.put o x).get v = if v = o then x else h.get v := by
  unfold Heap.get Heap.put
  simp only
  by_cases e : v = o
  · subst e; simp [ho]
  · simp [e, List.getElem?_set_ne (Ne.symm e)]

theorem lt_of_get {h : Heap} {o : Nat} {x : Obj} (hx : h.get o = some x) : o < h.objs.length := by
  unfold Heap.get at hx
  by_contra hc
  rw [List.getElem?_eq_none (by omega)] at hx
  simp at hx

/-- number of references to `v` in a possible object's list -/
def cnt (v : Nat) (m : Option Obj) : Nat := m.elim 0 (fun x => x.wardList.count v)

/-- number of references to `v` in all lists -/
def held (h : Heap) (v : Nat) : Nat := (h.objs.map (cnt v)).sum

theorem held_put (h : Heap) (o v : Nat) (x : Option Obj) (ho : o < h.objs.length) :
    held (h.put o x) v + cnt v (h.get o) = held h v + cnt v x := by
  unfold held Heap.get Heap.put
  simp only
  obtain ⟨l, e⟩ := h
  simp only at ho ⊢
  clear e
  induction l generalizing o with
  | nil => simp at ho
  | cons y ys ih =>
    cases o with
    | zero => simp; omega
    | succ o =>
      have := ih o (by simpa using ho)
      simp only [List.set_cons_succ, List.map_cons, List.sum_cons, List.getElem?_cons_succ]
      omega

def rcOf (h : Heap) (o : Nat) : Nat := (h.get o).elim 0 Obj.rc

/-- Reference counts are right, `q` being the references about to be released. -/
def Inv (h : Heap) (q : List Nat) : Prop :=
  (∀ o, rcOf h o = h.ext o + held h o + q.count o) ∧ ∀ o x, h.get o = some x → 1 ≤ x.rc

theorem rcOf_put (h : Heap) (o v : Nat) (x : Option Obj) (ho : o < h.objs.length) :
    rcOf (h.put o x) v = if v = o then x.elim 0 Obj.rc else rcOf h v := by
  unfold rcOf
  rw [get_put h o v x ho]
  split <;> rfl

/-- Only freed objects differ after `decref`, apart from the counts. -/
def Shrunk (h h' : Heap) : Prop :=
  h'.ext = h.ext ∧ h'.objs.length = h.objs.length ∧
    ∀ o y, h'.get o = some y → ∃ x, h.get o = some x ∧ y.hasDict = x.hasDict ∧ y.wards = x.wards

theorem Shrunk.refl (h : Heap) : Shrunk h h := ⟨rfl, rfl, fun _ y hy => ⟨y, hy, rfl, rfl⟩⟩

theorem Shrunk.trans {a b c : Heap} (h1 : Shrunk a b) (h2 : Shrunk b c) : Shrunk a c := by
  refine ⟨h2.1.trans h1.1, h2.2.1.trans h1.2.1, fun o z hz => ?_⟩
  obtain ⟨y, hy, d, w⟩ := h2.2.2 o z hz
  obtain ⟨x, hx, d', w'⟩ := h1.2.2 o y hy
  exact ⟨x, hx, d.trans d', w.trans w'⟩

theorem inv_free {h : Heap} {o : Nat} {q : List Nat} {x : Obj} (hi : Inv h (o :: q))
    (hx : h.get o = some x) (hr : x.rc ≤ 1) : Inv (h.put o none) (x.wardList ++ q) := by
  have hl := lt_of_get hx
  have h1 : x.rc = h.ext o + held h o + (o :: q).count o := by
    have := hi.1 o; unfold rcOf at this; rwa [hx] at this
  refine ⟨fun v => ?_, fun v y hy => ?_⟩
  · rw [rcOf_put _ _ _ _ hl]
    have hv := hi.1 v
    have hh := held_put h o v none hl
    rw [hx] at hh
    simp only [cnt, Option.elim_some, Option.elim_none] at hh
    have he : (h.put o none).ext = h.ext := rfl
    rw [he, List.count_append]
    by_cases e : v = o
    · subst e
      simp only [List.count_cons_self] at h1
      simp only [if_true, Option.elim_none]
      omega
    · simp only [e, if_false]
      have : (o :: q).count v = q.count v := List.count_cons_of_ne (Ne.symm e)
      omega
  · rw [get_put _ _ _ _ hl] at hy
    split at hy
    · cases hy
    · exact hi.2 v y hy

theorem inv_dec {h : Heap} {o : Nat} {q : List Nat} {x : Obj} (hi : Inv h (o :: q))
    (hx : h.get o = some x) (hr : ¬ x.rc ≤ 1) :
    Inv (h.put o (some { x with rc := x.rc - 1 })) q := by
  have hl := lt_of_get hx
  have h1 : x.rc = h.ext o + held h o + (o :: q).count o := by
    have := hi.1 o; unfold rcOf at this; rwa [hx] at this
  refine ⟨fun v => ?_, fun v y hy => ?_⟩
  · rw [rcOf_put _ _ _ _ hl]
    have hv := hi.1 v
    have hh := held_put h o v (some { x with rc := x.rc - 1 }) hl
    rw [hx] at hh
    simp only [cnt, Option.elim_some, Obj.wardList] at hh
    have he : (h.put o (some { x with rc := x.rc - 1 })).ext = h.ext := rfl
    rw [he]
    by_cases e : v = o
    · subst e
      simp only [List.count_cons_self] at h1
      simp only [if_true, Option.elim_some]
      omega
    · simp only [e, if_false]
      have : (o :: q).count v = q.count v := List.count_cons_of_ne (Ne.symm e)
      omega
  · rw [get_put _ _ _ _ hl] at hy
    split at hy
    · cases hy; simp; omega
    · exact hi.2 v y hy

theorem shrunk_free {h : Heap} {o : Nat} {x : Obj} (hx : h.get o = some x) :
    Shrunk h (h.put o none) := by
  refine ⟨rfl, by simp [Heap.put], fun v y hy => ?_⟩
  rw [get_put _ _ _ _ (lt_of_get hx)] at hy
  split at hy
  · cases hy
  · exact ⟨y, hy, rfl, rfl⟩

theorem shrunk_dec {h : Heap} {o : Nat} {x : Obj} (n : Nat) (hx : h.get o = some x) :
    Shrunk h (h.put o (some { x with rc := n })) := by
  refine ⟨rfl, by simp [Heap.put], fun v y hy => ?_⟩
  rw [get_put _ _ _ _ (lt_of_get hx)] at hy
  split at hy
  · rename_i e; subst e; cases hy; exact ⟨x, hx, rfl, rfl⟩
  · exact ⟨y, hy, rfl, rfl⟩

theorem decref_inv (h : Heap) (q : List Nat) (hi : Inv h q) :
    Inv (decref h q) [] ∧ Shrunk h (decref h q) := by
  induction h, q using decref.induct with
  | case1 h => unfold decref; exact ⟨hi, Shrunk.refl h⟩
  | case2 h o q hx ih =>
    exfalso
    have := hi.1 o
    unfold rcOf at this
    rw [hx] at this
    simp at this
  | case3 h o q x hx hr ih =>
    obtain ⟨i, s⟩ := ih (inv_free hi hx hr)
    rw [decref]
    split
    · simp_all
    · rename_i y hy
      rw [hx] at hy; cases hy
      rw [if_pos hr]
      exact ⟨i, (shrunk_free hx).trans s⟩
  | case4 h o q x hx hr ih =>
    obtain ⟨i, s⟩ := ih (inv_dec hi hx hr)
    rw [decref]
    split
    · simp_all
    · rename_i y hy
      rw [hx] at hy; cases hy
      rw [if_neg hr]
      exact ⟨i, (shrunk_dec _ hx).trans s⟩

theorem decref_cons (h : Heap) (o : Nat) (q : List Nat) :
    decref h (o :: q) = match h.get o with
      | none => decref h q
      | some x =>
        if x.rc ≤ 1 then decref (h.put o none) (x.wardList ++ q)
        else decref (h.put o (some { x with rc := x.rc - 1 })) q := by
  rw [decref]
  split <;> simp_all

theorem decref_nil (h : Heap) : decref h [] = h := by rw [decref]

theorem alive_of_ext {h : Heap} {o : Nat} (hi : Inv h []) (he : 0 < h.ext o) :
    ∃ x, h.get o = some x := by
  cases hx : h.get o with
  | some x => exact ⟨x, rfl⟩
  | none =>
    have := hi.1 o
    unfold rcOf at this
    rw [hx] at this
    simp at this
    omega

/-- What `_add_ward` does when custodian and ward are alive. -/
theorem addWard_spec (eq : Nat → Nat → Bool) (h : Heap) (c w : Nat) (x y : Obj)
    (hx : h.get c = some x) (hy : h.get w = some y) :
    addWard eq h c (some w) =
      if x.wards = none ∧ x.hasDict = false then (h, true)
      else if x.wardList.any (fun v => v == w || eq v w) then (h, false)
      else
        ((((h.put w (some { y with rc := y.rc + 1 })).put c
          (some { x with rc := if c = w then x.rc + 1 else x.rc,
                         wards := some (x.wardList ++ [w]) }))), false) := by
  have hw := lt_of_get hy
  have hinc : incref h w = h.put w (some { y with rc := y.rc + 1 }) := by
    unfold incref; rw [hy]
  have hget : (incref h w).get c
      = some { x with rc := if c = w then x.rc + 1 else x.rc } := by
    rw [hinc, get_put _ _ _ _ hw]
    by_cases e : c = w
    · subst e; rw [hx] at hy; cases hy; simp
    · simp [e, hx]
  unfold addWard
  rw [hx]
  simp only
  cases hwd : x.wards with
  | some l =>
    simp only [Obj.wardList, hwd, Option.getD_some]
    simp only [reduceCtorEq, false_and, if_false]
    split
    · rfl
    · rw [hget]; simp only [hinc]
  | none =>
    cases hd : x.hasDict with
    | false => simp
    | true =>
      simp only [if_true]
      rw [hget]; simp [hinc, Obj.wardList, hwd, hd]

/-- a heap in which the ward was stored is right again -/
theorem inv_store {h : Heap} {c w : Nat} {x y : Obj} (hi : Inv h [])
    (hx : h.get c = some x) (hy : h.get w = some y) :
    Inv ((h.put w (some { y with rc := y.rc + 1 })).put c
          (some { x with rc := if c = w then x.rc + 1 else x.rc,
                         wards := some (x.wardList ++ [w]) })) [] := by
  have hw := lt_of_get hy
  have hc := lt_of_get hx
  have hc' : c < (h.put w (some { y with rc := y.rc + 1 })).objs.length := by
    simpa [Heap.put] using hc
  refine ⟨fun v => ?_, fun v z hz => ?_⟩
  · rw [rcOf_put _ _ _ _ hc', rcOf_put _ _ _ _ hw]
    have h1 := held_put h w v (some { y with rc := y.rc + 1 }) hw
    have h2 := held_put (h.put w (some { y with rc := y.rc + 1 })) c v
      (some { x with rc := if c = w then x.rc + 1 else x.rc,
                     wards := some (x.wardList ++ [w]) }) hc'
    rw [hy] at h1
    rw [get_put _ _ _ _ hw] at h2
    have hv := hi.1 v
    unfold rcOf at hv
    show _ = h.ext v + _ + _
    simp only [cnt, Option.elim_some, Obj.wardList, List.count_nil, Nat.add_zero,
      Option.getD_some, List.count_append] at h1 h2 hv ⊢
    by_cases e : c = w
    · subst e
      rw [hx] at hy; cases hy
      simp only [if_true, Option.elim_some, cnt, Obj.wardList] at h2 ⊢
      by_cases e' : v = c
      · subst e'
        rw [hx] at hv
        simp only [if_true, Option.elim_some, List.count_cons_self, List.count_nil] at *
        omega
      · have h0 : List.count v [c] = 0 := by simp [List.count_cons, Ne.symm e']
        simp only [e', if_false, rcOf] at *
        omega
    · simp only [e, if_false, hx, Option.elim_some, cnt, Obj.wardList] at h2 ⊢
      by_cases e' : v = c
      · subst e'
        have h0 : List.count v [w] = 0 := by simp [List.count_cons, Ne.symm e]
        rw [hx] at hv
        simp only [if_true, Option.elim_some] at *
        omega
      · by_cases e2 : v = w
        · subst e2
          rw [hy] at hv
          simp only [if_true, e', if_false, Option.elim_some, List.count_cons_self, List.count_nil] at *
          omega
        · have h0 : List.count v [w] = 0 := by simp [List.count_cons, Ne.symm e2]
          simp only [e', e2, if_false, rcOf] at *
          omega
  · rw [get_put _ _ _ _ hc', get_put _ _ _ _ hw] at hz
    have := hi.2 c x hx
    split at hz
    · cases hz; simp only; split <;> omega
    · split at hz
      · cases hz; simp
      · exact hi.2 v z hz

/-- adding a `NULL` ward -/
theorem addWard_null (eq : Nat → Nat → Bool) (h : Heap) (c : Nat) (x : Obj)
    (hx : h.get c = some x) :
    addWard eq h c none =
      if x.wards = none ∧ x.hasDict = false then (h, true)
      else if x.wards = none then (h.put c (some { x with wards := some [] }), false)
      else (h, false) := by
  unfold addWard
  rw [hx]
  simp only
  cases hwd : x.wards with
  | some l => simp
  | none => cases hd : x.hasDict <;> simp

theorem inv_emptyList {h : Heap} {c : Nat} {x : Obj} (hi : Inv h []) (hx : h.get c = some x)
    (hw : x.wards = none) : Inv (h.put c (some { x with wards := some [] })) [] := by
  have hc := lt_of_get hx
  refine ⟨fun v => ?_, fun v z hz => ?_⟩
  · rw [rcOf_put _ _ _ _ hc]
    have h1 := held_put h c v (some { x with wards := some [] }) hc
    rw [hx] at h1
    simp only [cnt, Option.elim_some, Obj.wardList, hw, Option.getD_none, Option.getD_some,
      List.count_nil] at h1
    have hv := hi.1 v
    unfold rcOf at hv
    show _ = h.ext v + _ + _
    by_cases e : v = c
    · subst e; rw [hx] at hv; simp only [if_true, Option.elim_some] at *; omega
    · simp only [e, if_false, rcOf]; omega
  · rw [get_put _ _ _ _ hc] at hz
    split at hz
    · cases hz; exact hi.2 c x hx
    · exact hi.2 v z hz

theorem inv_drop {h : Heap} {o : Nat} (hi : Inv h []) (hl : 0 < h.ext o) :
    Inv { h with ext := Function.update h.ext o (h.ext o - 1) } [o] := by
  refine ⟨fun v => ?_, fun v z hz => hi.2 v z hz⟩
  have hv := hi.1 v
  change rcOf h v = (Function.update h.ext o (h.ext o - 1)) v + held h v + _
  by_cases e : v = o
  · subst e
    simp only [Function.update_self, List.count_cons_self, List.count_nil] at *
    omega
  · have h0 : List.count v [o] = 0 := by simp [List.count_cons, Ne.symm e]
    rw [Function.update_of_ne (show v ≠ o from e), h0]; simpa using hv

theorem step_inv (eq : Nat → Nat → Bool) (h : Heap) (e : Ev) (hi : Inv h []) (hl : Legal h e) :
    Inv (step eq h e) [] := by
  cases e with
  | new d =>
    have hn : h.get h.objs.length = none := by unfold Heap.get; simp
    have h0 := hi.1 h.objs.length
    unfold rcOf at h0; rw [hn] at h0
    simp only [Option.elim_none, List.count_nil, Nat.add_zero] at h0
    have hg : ∀ v, (step eq h (.new d)).get v
        = if v = h.objs.length then some { rc := 1, hasDict := d, wards := none } else h.get v := by
      intro v
      unfold step Heap.get
      simp only
      split
      · rename_i e; subst e; simp
      · rename_i e
        by_cases hlt : v < h.objs.length
        · rw [List.getElem?_append_left hlt]
        · rw [List.getElem?_eq_none (by simp; omega), List.getElem?_eq_none (by omega)]
    have hh : ∀ v, held (step eq h (.new d)) v = held h v := by
      intro v; simp [held, step, cnt, Obj.wardList]
    refine ⟨fun v => ?_, fun v z hz => ?_⟩
    · unfold rcOf; rw [hg, hh]
      have hv := hi.1 v
      unfold rcOf at hv
      by_cases e : v = h.objs.length
      · subst e
        have : (step eq h (.new d)).ext h.objs.length = 1 := by simp [step]
        rw [this]; simp; omega
      · have : (step eq h (.new d)).ext v = h.ext v := by simp [step, Function.update, e]
        rw [this]; simp only [e, if_false]; exact hv
    · rw [hg] at hz
      split at hz
      · cases hz; simp
      · exact hi.2 v z hz
  | take o =>
    obtain ⟨x, hx⟩ := Option.isSome_iff_exists.mp hl
    have ho := lt_of_get hx
    have hs : step eq h (.take o) = { h.put o (some { x with rc := x.rc + 1 }) with
        ext := Function.update h.ext o (h.ext o + 1) } := by
      simp only [step, incref]; rw [hx]
    rw [hs]
    refine ⟨fun v => ?_, fun v z hz => ?_⟩
    · have h1 := held_put h o v (some { x with rc := x.rc + 1 }) ho
      rw [hx] at h1
      simp only [cnt, Option.elim_some, Obj.wardList] at h1
      have hv := hi.1 v
      have h2 := rcOf_put h o v (some { x with rc := x.rc + 1 }) ho
      change rcOf (h.put o (some { x with rc := x.rc + 1 })) v
        = (Function.update h.ext o (h.ext o + 1)) v
          + held (h.put o (some { x with rc := x.rc + 1 })) v + _
      rw [h2]
      by_cases e : v = o
      · subst e
        unfold rcOf at hv; rw [hx] at hv
        simp only [if_true, Option.elim_some, Function.update_self] at *
        omega
      · simp only [e, if_false, Function.update_of_ne (show v ≠ o from e)]; omega
    · change (h.put o (some { x with rc := x.rc + 1 })).get v = some z at hz
      rw [get_put _ _ _ _ ho] at hz
      split at hz
      · cases hz; simp
      · exact hi.2 v z hz
  | drop o =>
    change 0 < h.ext o at hl
    exact (decref_inv _ _ (inv_drop hi hl)).1
  | adopt c w =>
    obtain ⟨hc, hw⟩ := hl
    obtain ⟨x, hx⟩ := alive_of_ext hi hc
    cases w with
    | none =>
      simp only [step]
      rw [addWard_null eq h c x hx]
      split
      · exact hi
      · split
        · rename_i hn; exact inv_emptyList hi hx hn
        · exact hi
    | some w =>
      obtain ⟨y, hy⟩ := alive_of_ext hi (hw w rfl)
      simp only [step]
      rw [addWard_spec eq h c w x y hx hy]
      split
      · exact hi
      · split
        · exact hi
        · exact inv_store hi hx hy

theorem inv_empty : Inv Heap.empty [] := by
  refine ⟨fun o => ?_, fun o x hx => ?_⟩
  · simp [rcOf, Heap.get, Heap.empty, held]
  · simp [Heap.get, Heap.empty] at hx

theorem run_inv (eq : Nat → Nat → Bool) : ∀ (evs : List Ev) (h : Heap), Inv h [] →
    LegalRun eq h evs → Inv (run eq h evs) []
  | [], _, hi, _ => hi
  | e :: evs, h, hi, hl => run_inv eq evs _ (step_inv eq h e hi hl.1) hl.2

theorem legalRun_append (eq : Nat → Nat → Bool) : ∀ (a b : List Ev) (h : Heap),
    LegalRun eq h (a ++ b) ↔ LegalRun eq h a ∧ LegalRun eq (run eq h a) b
  | [], b, h => by simp [LegalRun, run]
  | e :: a, b, h => by
    have := legalRun_append eq a b (step eq h e)
    simp only [List.cons_append, LegalRun, this, run, List.foldl_cons]
    constructor
    · rintro ⟨a, b, c⟩; exact ⟨⟨a, b⟩, c⟩
    · rintro ⟨⟨a, b⟩, c⟩; exact ⟨a, b, c⟩

theorem run_append (eq : Nat → Nat → Bool) (a b : List Ev) (h : Heap) :
    run eq h (a ++ b) = run eq (run eq h a) b := by
  simp [run, List.foldl_append]

theorem held_pos_iff (h : Heap) (v : Nat) :
    0 < held h v ↔ ∃ c x, h.get c = some x ∧ v ∈ x.wardList := by
  unfold held Heap.get
  rw [Nat.pos_iff_ne_zero, ne_eq, List.sum_eq_zero_iff_forall_eq_nat]
  constructor
  · intro hh
    push Not at hh
    obtain ⟨n, hn, hz⟩ := hh
    obtain ⟨m, hm, rfl⟩ := List.mem_map.mp hn
    obtain ⟨c, hc⟩ := List.mem_iff_getElem?.mp hm
    cases m with
    | none => simp [cnt] at hz
    | some x =>
      refine ⟨c, x, by rw [hc]; rfl, ?_⟩
      simp only [cnt, Option.elim_some] at hz
      exact List.count_pos_iff.mp (Nat.pos_of_ne_zero hz)
  · rintro ⟨c, x, hx, hm⟩ hh
    have : some x ∈ h.objs := by
      rw [List.mem_iff_getElem?]
      refine ⟨c, ?_⟩
      cases hc : h.objs[c]? with
      | none => rw [hc] at hx; simp at hx
      | some m => rw [hc] at hx; simp at hx; rw [hx]
    have := hh _ (List.mem_map.mpr ⟨_, this, rfl⟩)
    simp only [cnt, Option.elim_some] at this
    exact absurd hm (List.count_eq_zero.mp this)

/-! ## The properties -/

/-- In every history an object is alive exactly as long as the program holds a reference to it or
a live object holds it as a ward: a ward is never freed while it has a custodian, and it is freed
in the same step in which its last custodian dies if nothing else refers to it. -/
theorem C46_alive_iff (eq : Nat → Nat → Bool) (evs : List Ev) (hl : LegalRun eq Heap.empty evs)
    (o : Nat) :
    Alive (run eq Heap.empty evs) o ↔
      0 < (run eq Heap.empty evs).ext o ∨
        ∃ c x, (run eq Heap.empty evs).get c = some x ∧ o ∈ x.wardList := by
  have hi := run_inv eq evs _ inv_empty hl
  generalize run eq Heap.empty evs = h at hi
  rw [← held_pos_iff]
  have h1 := hi.1 o
  simp only [List.count_nil, Nat.add_zero] at h1
  unfold Alive
  unfold rcOf at h1
  cases hx : h.get o with
  | none => rw [hx] at h1; simp at h1 ⊢; omega
  | some x =>
    have := hi.2 o x hx
    rw [hx] at h1
    simp only [Option.elim_some, Option.isSome_some, true_iff] at *
    omega

/-- `==` of Python objects is identity: the class of the wards defines no `==`. -/
def Identity (eq : Nat → Nat → Bool) : Prop := ∀ a b, eq a b = true → a = b

/-- The wards given to custodian `c` in a history. -/
def adopted (c : Nat) : List Ev → List Nat
  | [] => []
  | .adopt c' (some w) :: evs => if c' = c then w :: adopted c evs else adopted c evs
  | _ :: evs => adopted c evs

/-- A list without its later duplicates. -/
def firsts (l : List Nat) : List Nat := l.reverse.dedup.reverse

theorem firsts_append_one (l : List Nat) (a : Nat) :
    firsts (l ++ [a]) = if a ∈ l then firsts l else firsts l ++ [a] := by
  unfold firsts
  simp only [List.reverse_append, List.reverse_cons, List.reverse_nil, List.nil_append,
    List.singleton_append, List.dedup_cons]
  by_cases h : a ∈ l <;> simp [h]

theorem adopted_append (c : Nat) : ∀ a b : List Ev, adopted c (a ++ b) = adopted c a ++ adopted c b
  | [], b => rfl
  | e :: a, b => by
    have := adopted_append c a b
    cases e with
    | adopt c' w =>
      cases w with
      | none => simpa [adopted] using this
      | some w =>
        by_cases e : c' = c <;> simp [adopted, e, this]
    | _ => simpa [adopted] using this

/-- How the stored lists and dictionaries evolve. -/
theorem step_obj (eq : Nat → Nat → Bool) (heq : Identity eq) (h : Heap) (e : Ev) (hi : Inv h [])
    (hl : Legal h e) (c : Nat) (z : Obj) (hz : (step eq h e).get c = some z) :
    (h.get c = none ∧ c = h.objs.length ∧ z.wardList = [] ∧ adopted c [e] = []
        ∧ ∃ d, e = .new d ∧ z.hasDict = d) ∨
    ∃ x, h.get c = some x ∧ z.hasDict = x.hasDict ∧
      ((x.hasDict = true ∨ x.wards ≠ none) → (z.hasDict = true ∨ z.wards ≠ none)) ∧
      ((x.hasDict = false ∧ x.wards = none) → (z.hasDict = false ∧ z.wards = none)) ∧
      ((x.hasDict = true ∨ x.wards ≠ none) →
        z.wardList = (adopted c [e]).foldl (fun l w => if w ∈ l then l else l ++ [w]) x.wardList)
        := by
  have hany : ∀ (l : List Nat) (w : Nat),
      l.any (fun v => v == w || eq v w) = decide (w ∈ l) := by
    intro l w
    apply Bool.eq_iff_iff.mpr
    simp only [List.any_eq_true, Bool.or_eq_true, beq_iff_eq, decide_eq_true_eq]
    constructor
    · rintro ⟨v, hv, rfl | h⟩
      · exact hv
      · rw [← heq _ _ h]; exact hv
    · intro h; exact ⟨w, h, Or.inl rfl⟩
  cases e with
  | new d =>
    have hg : (step eq h (.new d)).get c
        = if c = h.objs.length then some { rc := 1, hasDict := d, wards := none } else h.get c := by
      unfold step Heap.get
      simp only
      split
      · rename_i e; subst e; simp
      · rename_i e
        by_cases hlt : c < h.objs.length
        · rw [List.getElem?_append_left hlt]
        · rw [List.getElem?_eq_none (by simp; omega), List.getElem?_eq_none (by omega)]
    rw [hg] at hz
    split at hz
    · rename_i e
      cases hz
      exact Or.inl ⟨by subst e; unfold Heap.get; simp, e, rfl, rfl, d, rfl, rfl⟩
    · exact Or.inr ⟨z, hz, rfl, id, id, fun _ => rfl⟩
  | take o =>
    obtain ⟨x, hx⟩ := Option.isSome_iff_exists.mp hl
    have hs : (step eq h (.take o)).get c = (h.put o (some { x with rc := x.rc + 1 })).get c := by
      simp only [step, incref]; rw [hx]; rfl
    rw [hs] at hz
    obtain ⟨y, hy, hd, hw⟩ := (shrunk_dec (x.rc + 1) hx).2.2 c z hz
    exact Or.inr ⟨y, hy, hd, by rw [hd, hw]; exact id, by rw [hd, hw]; exact id,
      fun _ => by simp [Obj.wardList, hw, adopted]⟩
  | drop o =>
    change 0 < h.ext o at hl
    have hi' := inv_drop hi hl
    obtain ⟨y, hy, hd, hw⟩ := (decref_inv _ _ hi').2.2.2 c z hz
    exact Or.inr ⟨y, hy, hd, by rw [hd, hw]; exact id, by rw [hd, hw]; exact id,
      fun _ => by simp [Obj.wardList, hw, adopted]⟩
  | adopt c' w =>
    obtain ⟨hc, hw⟩ := hl
    obtain ⟨x, hx⟩ := alive_of_ext hi hc
    have hcl := lt_of_get hx
    right
    cases w with
    | none =>
      simp only [step] at hz
      rw [addWard_null eq h c' x hx] at hz
      split at hz
      · exact ⟨z, hz, rfl, id, id, fun _ => rfl⟩
      · rename_i hnd
        split at hz
        · rename_i hn
          simp only at hz
          rw [get_put _ _ _ _ hcl] at hz
          split at hz
          · rename_i e; subst e; cases hz
            refine ⟨x, hx, rfl, fun _ => Or.inr (by simp), fun hh => ?_, fun _ => ?_⟩
            · exact absurd ⟨hn, hh.1⟩ hnd
            · simp [Obj.wardList, hn, adopted]
          · exact ⟨z, hz, rfl, id, id, fun _ => rfl⟩
        · exact ⟨z, hz, rfl, id, id, fun _ => rfl⟩
    | some w =>
      obtain ⟨y, hy⟩ := alive_of_ext hi (hw w rfl)
      have hwl := lt_of_get hy
      simp only [step] at hz
      rw [addWard_spec eq h c' w x y hx hy, hany] at hz
      by_cases ec : c' = c
      · subst ec
        have had : adopted c' [.adopt c' (some w)] = [w] := by simp [adopted]
        rw [had]
        simp only [List.foldl_cons, List.foldl_nil]
        split at hz
        · rename_i hnd
          simp only at hz
          rw [hx] at hz; cases hz
          refine ⟨z, hx, rfl, id, id, fun hh => ?_⟩
          rcases hh with hh | hh
          · rw [hnd.2] at hh; cases hh
          · exact absurd hnd.1 hh
        · split at hz
          · rename_i hm
            simp only [decide_eq_true_eq] at hm
            simp only at hz
            rw [hx] at hz; cases hz
            exact ⟨z, hx, rfl, id, id, fun _ => by rw [if_pos hm]⟩
          · rename_i hnd hm
            simp only [decide_eq_true_eq] at hm
            simp only at hz
            rw [get_put _ _ _ _ (by simpa [Heap.put] using hcl), if_pos rfl] at hz
            cases hz
            refine ⟨x, hx, rfl, fun _ => Or.inr (by simp), fun hh => ?_, fun _ => ?_⟩
            · exact absurd ⟨hh.2, hh.1⟩ hnd
            · rw [if_neg hm]; simp [Obj.wardList]
      · have had : adopted c [.adopt c' (some w)] = [] := by simp [adopted, ec]
        rw [had]
        simp only [List.foldl_nil]
        have key : ∃ z', h.get c = some z' ∧ z.hasDict = z'.hasDict ∧ z.wards = z'.wards := by
          split at hz
          · exact ⟨z, hz, rfl, rfl⟩
          · split at hz
            · exact ⟨z, hz, rfl, rfl⟩
            · simp only at hz
              rw [get_put _ _ _ _ (by simpa [Heap.put] using hcl), if_neg (Ne.symm ec)] at hz
              exact (shrunk_dec (y.rc + 1) hy).2.2 c z hz
        obtain ⟨z', h1, h2, h3⟩ := key
        exact ⟨z', h1, h2, by rw [h2, h3]; exact id, by rw [h2, h3]; exact id,
          fun _ => by simp [Obj.wardList, h3]⟩

theorem foldl_firsts (l : List Nat) : ∀ m : List Nat,
    m.foldl (fun l w => if w ∈ l then l else l ++ [w]) (firsts l) = firsts (l ++ m)
  | [] => by simp
  | a :: m => by
    have ih := foldl_firsts (l ++ [a]) m
    have hmem : a ∈ firsts l ↔ a ∈ l := by simp [firsts]
    have : (if a ∈ firsts l then firsts l else firsts l ++ [a]) = firsts (l ++ [a]) := by
      rw [firsts_append_one]; simp [hmem]
    rw [List.foldl_cons, this, ih]; simp

/-- Objects that were never created are not adopted by legal programs. -/
theorem not_adopted (eq : Nat → Nat → Bool) (evs : List Ev) (hl : LegalRun eq Heap.empty evs)
    (c : Nat) (hc : (run eq Heap.empty evs).objs.length ≤ c) : adopted c evs = [] := by
  induction evs using List.reverseRecOn with
  | nil => rfl
  | append_singleton evs e ih =>
    obtain ⟨h1, h2, -⟩ := (legalRun_append eq evs [e] _).mp hl
    have hi := run_inv eq evs _ inv_empty h1
    rw [run_append] at hc
    have hlen : (run eq Heap.empty evs).objs.length ≤ (step eq (run eq Heap.empty evs) e).objs.length := by
      generalize run eq Heap.empty evs = h at *
      cases e with
      | new d => simp [step]
      | take o => simp only [step, incref]; split <;> simp [Heap.put]
      | drop o =>
        change 0 < h.ext o at h2
        have hi' := inv_drop hi h2
        have := (decref_inv _ _ hi').2.2.1
        simp only [step]; rw [this]; exact Nat.le_refl _
      | adopt c' w =>
        obtain ⟨hc, hw⟩ := h2
        obtain ⟨x, hx⟩ := alive_of_ext hi hc
        cases w with
        | none =>
          simp only [step]; rw [addWard_null eq h c' x hx]
          split
          · exact Nat.le_refl _
          · split <;> simp [Heap.put]
        | some w =>
          obtain ⟨y, hy⟩ := alive_of_ext hi (hw w rfl)
          simp only [step]; rw [addWard_spec eq h c' w x y hx hy]
          split
          · exact Nat.le_refl _
          · split <;> simp [Heap.put]
    change (step eq (run eq Heap.empty evs) e).objs.length ≤ c at hc
    rw [adopted_append, ih h1 (by omega)]
    cases e with
    | adopt c' w =>
      cases w with
      | none => rfl
      | some w =>
        obtain ⟨hc', -⟩ := h2
        obtain ⟨x, hx⟩ := alive_of_ext hi hc'
        have := lt_of_get hx
        have : c' ≠ c := by omega
        simp [adopted, this]
    | _ => rfl

/-- With identity comparison, a live custodian that can have attributes holds exactly the wards it
was given, each once, in the order in which they were first given. -/
theorem C46_wards_list (eq : Nat → Nat → Bool) (heq : Identity eq) (evs : List Ev)
    (hl : LegalRun eq Heap.empty evs) (c : Nat) (x : Obj)
    (hx : (run eq Heap.empty evs).get c = some x) (hd : x.hasDict = true) :
    x.wardList = firsts (adopted c evs) := by
  induction evs using List.reverseRecOn generalizing x with
  | nil => simp [run, Heap.get, Heap.empty] at hx
  | append_singleton evs e ih =>
    obtain ⟨h1, h2, -⟩ := (legalRun_append eq evs [e] _).mp hl
    have hi := run_inv eq evs _ inv_empty h1
    rw [run_append] at hx
    change (step eq (run eq Heap.empty evs) e).get c = some x at hx
    rw [adopted_append]
    rcases step_obj eq heq _ e hi h2 c x hx with ⟨hn, hc, hw, ha, -⟩ | ⟨y, hy, hyd, -, -, hw⟩
    · rw [ha, hw, not_adopted eq evs h1 c (by omega)]; rfl
    · rw [hw (Or.inl (by rw [← hyd, hd])), ih h1 y hy (by rw [← hyd, hd]), foldl_firsts]

/-- A custodian keeps its ward: once `c` was made custodian of `w`, in every later state in which
`c` is alive `w` is alive too.  (Needs identity comparison and a custodian with an instance
dictionary, see the counterexamples.) -/
theorem C46_kept_alive_partial (eq : Nat → Nat → Bool) (heq : Identity eq) (before after : List Ev)
    (c w : Nat) (hl : LegalRun eq Heap.empty (before ++ .adopt c (some w) :: after)) (x : Obj)
    (hx : (run eq Heap.empty (before ++ .adopt c (some w) :: after)).get c = some x)
    (hd : x.hasDict = true) :
    Alive (run eq Heap.empty (before ++ .adopt c (some w) :: after)) w := by
  rw [C46_alive_iff eq _ hl]
  refine Or.inr ⟨c, x, hx, ?_⟩
  rw [C46_wards_list eq heq _ hl c x hx hd, adopted_append]
  simp [firsts, adopted]

theorem sum_cnt (v : Nat) : ∀ l : List (Option Obj),
    (∀ m ∈ l, ∀ x, m = some x → x.wardList.Nodup) →
    (l.map (cnt v)).sum = l.countP (fun m => m.any (fun x => decide (v ∈ x.wardList)))
  | [], _ => rfl
  | m :: l, hn => by
    have ih := sum_cnt v l (fun m hm => hn m (List.mem_cons_of_mem _ hm))
    simp only [List.map_cons, List.sum_cons, List.countP_cons, ih]
    cases m with
    | none => simp [cnt]
    | some x =>
      have := hn (some x) (by simp) x rfl
      by_cases hm : v ∈ x.wardList
      · have : x.wardList.count v = 1 := List.count_eq_one_of_mem this hm
        simp [cnt, hm, this]; omega
      · have : x.wardList.count v = 0 := List.count_eq_zero.mpr hm
        simp [cnt, hm, this]

theorem run_nodict (eq : Nat → Nat → Bool) (heq : Identity eq) (evs : List Ev)
    (hl : LegalRun eq Heap.empty evs) (c : Nat) (x : Obj)
    (hx : (run eq Heap.empty evs).get c = some x) (hd : x.hasDict = false) : x.wards = none := by
  induction evs using List.reverseRecOn generalizing x with
  | nil => simp [run, Heap.get, Heap.empty] at hx
  | append_singleton evs e ih =>
    obtain ⟨h1, h2, -⟩ := (legalRun_append eq evs [e] _).mp hl
    have hi := run_inv eq evs _ inv_empty h1
    rw [run_append] at hx
    change (step eq (run eq Heap.empty evs) e).get c = some x at hx
    rcases step_obj eq heq _ e hi h2 c x hx with ⟨hn, hc, hw, ha, d, he, hd'⟩ | ⟨y, hy, hyd, -, hz, -⟩
    · subst he
      have : (step eq (run eq Heap.empty evs) (.new d)).get c
          = some { rc := 1, hasDict := d, wards := none } := by
        rw [hc]; simp [step, Heap.get]
      rw [this] at hx; cases hx; rfl
    · have : y.hasDict = false := by rw [← hyd, hd]
      exact (hz ⟨this, ih h1 y hy this⟩).2

/-- The reference count of a live object is the number of references held by the program plus one
for each live custodian: a custodian takes and gives back one reference, however often the pair
was added. -/
theorem C46_one_reference_per_custodian (eq : Nat → Nat → Bool) (heq : Identity eq)
    (evs : List Ev) (hl : LegalRun eq Heap.empty evs) (w : Nat) (y : Obj)
    (hy : (run eq Heap.empty evs).get w = some y) :
    y.rc = (run eq Heap.empty evs).ext w +
      (run eq Heap.empty evs).objs.countP
        (fun m => m.any (fun x => decide (w ∈ x.wardList))) := by
  have hi := run_inv eq evs _ inv_empty hl
  have h1 := hi.1 w
  unfold rcOf at h1
  rw [hy] at h1
  simp only [Option.elim_some, List.count_nil, Nat.add_zero] at h1
  rw [h1]
  unfold held
  rw [sum_cnt]
  intro m hm x hx
  subst hx
  obtain ⟨c, hc⟩ := List.mem_iff_getElem?.mp hm
  have hg : (run eq Heap.empty evs).get c = some x := by unfold Heap.get; rw [hc]; rfl
  cases hd : x.hasDict with
  | true => rw [C46_wards_list eq heq evs hl c x hg hd]; simp [firsts, List.nodup_dedup]
  | false =>
    unfold Obj.wardList
    rw [run_nodict eq heq evs hl c x hg hd]; simp

/-- Making the same object custodian of the same ward a second time changes nothing. -/
theorem C46_idempotent (eq : Nat → Nat → Bool) (evs : List Ev) (hl : LegalRun eq Heap.empty evs)
    (c w : Nat) (h1 : Legal (run eq Heap.empty evs) (.adopt c (some w))) :
    run eq Heap.empty (evs ++ [.adopt c (some w), .adopt c (some w)])
      = run eq Heap.empty (evs ++ [.adopt c (some w)]) := by
  have hi := run_inv eq evs _ inv_empty hl
  rw [run_append, run_append]
  generalize run eq Heap.empty evs = h at *
  obtain ⟨hc, hw⟩ := h1
  obtain ⟨x, hx⟩ := alive_of_ext hi hc
  obtain ⟨y, hy⟩ := alive_of_ext hi (hw w rfl)
  have hcl := lt_of_get hx
  have hwl := lt_of_get hy
  simp only [run, List.foldl_cons, List.foldl_nil, step]
  rw [addWard_spec eq h c w x y hx hy]
  by_cases a : x.wards = none ∧ x.hasDict = false
  · rw [if_pos a]
    simp only
    rw [addWard_spec eq h c w x y hx hy, if_pos a]
  · rw [if_neg a]
    by_cases b : x.wardList.any (fun v => v == w || eq v w) = true
    · rw [if_pos b]
      simp only
      rw [addWard_spec eq h c w x y hx hy, if_neg a, if_pos b]
    · rw [if_neg b]
      simp only
      generalize hh : (h.put w (some { y with rc := y.rc + 1 })).put c
          (some { x with rc := if c = w then x.rc + 1 else x.rc,
                         wards := some (x.wardList ++ [w]) }) = h'
      have hx' : h'.get c = some ({ x with
          rc := (if c = w then x.rc + 1 else x.rc), wards := some (x.wardList ++ [w]) }) := by
        rw [← hh, get_put _ _ _ _ (by simpa [Heap.put] using hcl), if_pos rfl]
      have hy' : ∃ y', h'.get w = some y' := by
        rw [← hh, get_put _ _ _ _ (by simpa [Heap.put] using hcl)]
        split
        · exact ⟨_, rfl⟩
        · rw [get_put _ _ _ _ hwl, if_pos rfl]; exact ⟨_, rfl⟩
      obtain ⟨y', hy'⟩ := hy'
      rw [addWard_spec eq h' c w _ y' hx' hy', if_neg (by simp), if_pos (by simp [Obj.wardList])]

/-! ### Where it fails -/

/-- Identity comparison. -/
def idEq : Nat → Nat → Bool := fun a b => a == b

/-- A boolean version of `LegalRun`, to check concrete histories. -/
def legalB (h : Heap) : Ev → Bool
  | .new _ => true
  | .take o => (h.get o).isSome
  | .drop o => decide (0 < h.ext o)
  | .adopt c w => decide (0 < h.ext c) && w.all (fun v => decide (0 < h.ext v))

def legalRunB (eq : Nat → Nat → Bool) : Heap → List Ev → Bool
  | _, [] => true
  | h, e :: evs => legalB h e && legalRunB eq (step eq h e) evs

theorem legalRun_of_B (eq : Nat → Nat → Bool) : ∀ (evs : List Ev) (h : Heap),
    legalRunB eq h evs = true → LegalRun eq h evs
  | [], _, _ => trivial
  | e :: evs, h, hb => by
    simp only [legalRunB, Bool.and_eq_true] at hb
    refine ⟨?_, legalRun_of_B eq evs _ hb.2⟩
    cases e with
    | adopt c w =>
      simp only [legalB, Bool.and_eq_true, decide_eq_true_eq] at hb
      refine ⟨hb.1.1, fun v hv => ?_⟩
      subst hv; simpa using hb.1.2
    | _ => simpa [legalB, Legal, Alive] using hb.1

/-- `Alive`, as a decision. -/
def aliveB (h : Heap) (o : Nat) : Bool := (h.get o).isSome

/-- A custodian without instance dictionary (a class that can not be subclassed from Python)
silently does not keep its ward: the generated code ignores that the attribute could not be set.
Besides, the exception stays set. -/
theorem C46_no_dict_counterexample :
    ∃ evs : List Ev, LegalRun idEq Heap.empty evs ∧ adopted 0 evs = [1] ∧
      Alive (run idEq Heap.empty evs) 0 ∧ ¬ Alive (run idEq Heap.empty evs) 1 := by
  refine ⟨[.new false, .new true, .adopt 0 (some 1), .drop 1], legalRun_of_B _ _ _ ?_, rfl, ?_, ?_⟩
  · simp [legalRunB, legalB, step, Heap.empty, addWard, Heap.get, Function.update]
  · simp [Alive, run, step, Heap.empty, addWard, Heap.get, Function.update, decref_cons, decref_nil, Obj.wardList, Heap.put]
  · simp [Alive, run, step, Heap.empty, addWard, Heap.get, Function.update, decref_cons, decref_nil, Obj.wardList, Heap.put]

theorem C46_no_dict_error (eq : Nat → Nat → Bool) (h : Heap) (c : Nat) (w : Option Nat) (x : Obj)
    (hx : h.get c = some x) (hd : x.hasDict = false) (hw : x.wards = none) :
    addWard eq h c w = (h, true) := by
  simp [addWard, hx, hd, hw]

/-- A second ward that compares equal to a first one is not kept. -/
theorem C46_equal_wards_counterexample :
    ∃ (eq : Nat → Nat → Bool) (evs : List Ev), LegalRun eq Heap.empty evs ∧
      adopted 0 evs = [1, 2] ∧
      (∃ x, (run eq Heap.empty evs).get 0 = some x ∧ x.hasDict = true) ∧
      ¬ Alive (run eq Heap.empty evs) 2 := by
  refine ⟨fun _ _ => true,
    [.new true, .new true, .new true, .adopt 0 (some 1), .adopt 0 (some 2), .drop 2],
    legalRun_of_B _ _ _ ?_, rfl, ?_, ?_⟩
  · simp [legalRunB, legalB, step, Heap.empty, addWard, Heap.get, Function.update, incref, Heap.put]
  · simp [run, step, Heap.empty, addWard, Heap.get, Function.update, decref_cons, decref_nil, Obj.wardList, Heap.put, incref]
  · simp [Alive, run, step, Heap.empty, addWard, Heap.get, Function.update, decref_cons, decref_nil, Obj.wardList, Heap.put, incref]

/-- A non-trivial history for the theorems above: two custodians share a ward, one of them is given
the ward twice, then the program drops the ward and the first custodian; the ward survives until
the second custodian goes. -/
example :
    let evs : List Ev := [.new true, .new true, .new false, .adopt 0 (some 2), .adopt 0 (some 2),
      .adopt 1 (some 2), .drop 2, .drop 0]
    LegalRun idEq Heap.empty evs ∧ Alive (run idEq Heap.empty evs) 2
      ∧ ¬ Alive (run idEq Heap.empty evs) 0
      ∧ LegalRun idEq Heap.empty (evs ++ [.drop 1])
      ∧ ¬ Alive (run idEq Heap.empty (evs ++ [.drop 1])) 2 := by
  refine ⟨legalRun_of_B _ _ _ ?_, ?_, ?_, legalRun_of_B _ _ _ ?_, ?_⟩ <;>
  simp [Alive, legalRunB, legalB, run, step, Heap.empty, addWard, Heap.get, Function.update, decref_cons, decref_nil, Obj.wardList,
    Heap.put, incref, idEq]

example : Identity idEq := fun a b h => by simpa [idEq] using h

/-! ### Generator side -/

theorem scanParams_ok : ∀ (ps : List (Option Int)) (n : Nat) (l : List (Int × Int × Bool)),
    scanParams n ps l = .ok (l ++ (ps.zipIdx n).filterMap
      (fun p => p.1.map (fun c => (c, ((p.2 + 1 : Nat) : Int), decide (c = -1)))))
  | [], n, l => by simp [scanParams]
  | none :: ps, n, l => by
    have := scanParams_ok ps (n + 1) l
    simpa [scanParams, List.zipIdx_cons] using this
  | some c :: ps, n, l => by
    have h1 : addCustodianAndWard l c ((n + 1 : Nat) : Int) none
        = .ok (l ++ [(c, ((n + 1 : Nat) : Int), decide (c = -1))]) := by
      unfold addCustodianAndWard
      by_cases e : c = -1
      · simp [e]
      · have : ((n + 1 : Nat) : Int) ≠ -1 := by omega
        simp only [e, this, or_self, if_false]; simp
    have ih := scanParams_ok ps (n + 1) (l ++ [(c, ((n + 1 : Nat) : Int), decide (c = -1))])
    unfold scanParams
    rw [h1]
    change scanParams (n + 1) ps _ = _
    rw [ih]
    simp [List.zipIdx_cons]

/-- The relations set up for a wrapper are exactly the annotated ones: parameter `i` (from 1) is
ward of its `custodian`, the return value is ward of its `custodian`, and with
`return_internal_reference` the instance is ward of the return value; a relation is made after the
call exactly when it involves the return value. -/
theorem C46_annotations (a : Annotations) :
    scan a = .ok (
      a.params.zipIdx.filterMap
        (fun p => p.1.map (fun c => (c, ((p.2 + 1 : Nat) : Int), decide (c = -1))))
      ++ (match a.retCustodian with | some c => [(c, -1, true)] | none => [])
      ++ (if a.returnInternalReference then [(-1, 0, true)] else [])) := by
  unfold scan
  rw [scanParams_ok]
  simp only [List.nil_append]
  have h1 : ∀ l c, addCustodianAndWard l c (-1) none = .ok (l ++ [(c, -1, true)]) := by
    intro l c; simp [addCustodianAndWard]
  have h2 : ∀ l, addCustodianAndWard l (-1) 0 none = .ok (l ++ [(-1, 0, true)]) := by
    intro l; simp [addCustodianAndWard]
  cases hr : a.retCustodian <;> cases hi : a.returnInternalReference <;>
    simp [bind, Except.bind, h1, h2]

/-- What the documentation says a number means. -/
inductive Means (n : Nat) : Int → Role → Prop
  | retval : Means n (-1) .retval
  | self : Means n 0 .self
  | param (i : Nat) (h : i < n) : Means n (i + 1 : Nat) (.param i)

theorem getCustodianOrWard_means (n : Nat) (num : Int) (r : Role) (h : Means n num r) :
    getCustodianOrWard n num = .ok r := by
  cases h with
  | retval => simp [getCustodianOrWard]
  | self => simp [getCustodianOrWard]
  | param i h =>
    have h1 : ((i + 1 : Nat) : Int) ≠ -1 := by omega
    have h2 : ((i + 1 : Nat) : Int) ≠ 0 := by omega
    have h3 : (0 : Int) < ((i + 1 : Nat) : Int) := by omega
    unfold getCustodianOrWard
    rw [if_neg h1, if_neg h2, if_pos h3]
    simp; omega

/-- When every number of the relations is one of the documented ones, the code written before
(after) the call makes exactly the pre-call (post-call) relations, in order, between the objects
meant. -/
theorem C46_pre_post (n : Nat) (post : Bool) (rel : List (Int × Int × Bool))
    (roles : List (Role × Role))
    (hr : List.Forall₂ (fun r p => Means n r.1 p.1 ∧ Means n r.2.1 p.2)
      (rel.filter (fun r => r.2.2 == post)) roles) :
    implement n post rel = .ok roles := by
  induction rel generalizing roles with
  | nil => cases hr; rfl
  | cons r rel ih =>
    obtain ⟨c, w, p⟩ := r
    unfold implement
    by_cases e : p = post
    · rw [List.filter_cons_of_pos (by simp [e])] at hr
      cases hr with
      | @cons _ q _ qs h1 h2 =>
        rw [if_pos e, getCustodianOrWard_means n c q.1 h1.1, getCustodianOrWard_means n w q.2 h1.2,
          ih _ h2]
        rfl
    · rw [List.filter_cons_of_neg (by simp [e])] at hr
      rw [if_neg e]; exact ih _ hr

/-- An undocumented number is accepted: `custodian=-2` means the third parameter from the end. -/
theorem C46_negative_index : getCustodianOrWard 3 (-2) = .ok (.param 0) := by decide

/-- Asking for a pre-call relation with the return value is refused, but with a `NameError`. -/
theorem C46_precall_retval (l : List (Int × Int × Bool)) (c w : Int) (p : Option Bool) :
    (∃ l', addCustodianAndWard l c w p = .ok l' ∧ ∃ b, l' = l ++ [(c, w, b)] ∧
        ((c = -1 ∨ w = -1) → b = true) ∧ (∀ q, p = some q → b = q)) ∨
      (addCustodianAndWard l c w p = .error .nameError ∧ (c = -1 ∨ w = -1) ∧ p = some false) := by
  unfold addCustodianAndWard
  by_cases e : c = -1 ∨ w = -1
  · cases p with
    | none => left; simp [e]
    | some q => cases q <;> simp [e]
  · left
    rw [if_neg e]
    refine ⟨_, rfl, _, rfl, fun h => absurd h e, ?_⟩
    intro q hq; subst hq; rfl

/-- The events of one wrapper call: `_add_ward` for the pre-call relations, the C++ call (with
whatever Python code it runs), `_add_ward` for the post-call relations (base.py:887 and 929/942). -/
def callEvents (bind : Role → Nat) (pre post : List (Role × Role)) (body : List Ev) : List Ev :=
  pre.map (fun p => .adopt (bind p.1) (some (bind p.2))) ++ body ++
    post.map (fun p => .adopt (bind p.1) (some (bind p.2)))

/-- The relation (custodian number, ward number) is one of those annotated. -/
inductive Annotated (a : Annotations) : Int → Int → Prop
  | param (i : Nat) (c : Int) (h : a.params[i]? = some (some c)) : Annotated a c (i + 1 : Nat)
  | ret (c : Int) (h : a.retCustodian = some c) : Annotated a c (-1)
  | internal (h : a.returnInternalReference = true) : Annotated a (-1) 0

theorem mem_scan (a : Annotations) (rel : List (Int × Int × Bool)) (hrel : scan a = .ok rel)
    (c w : Int) (h : Annotated a c w) : ∃ b, (c, w, b) ∈ rel := by
  rw [C46_annotations] at hrel
  cases hrel
  cases h with
  | param i c h =>
    refine ⟨decide (c = -1), List.mem_append_left _ (List.mem_append_left _ ?_)⟩
    refine List.mem_filterMap.mpr ⟨(some c, i), ?_, rfl⟩
    exact List.mem_zipIdx_iff_getElem?.mpr h
  | ret c h =>
    exact ⟨true, List.mem_append_left _ (List.mem_append_right _ (by rw [h]; simp))⟩
  | internal h => exact ⟨true, List.mem_append_right _ (by rw [h]; simp)⟩

/-- A whole call: after a call of a wrapper annotated with a relation between two of its objects,
in every later state in which the custodian lives the ward lives. -/
theorem C46_call_partial (eq : Nat → Nat → Bool) (heq : Identity eq)
    (before body after : List Ev) (bind : Role → Nat) (n : Nat) (a : Annotations)
    (rel : List (Int × Int × Bool)) (hrel : scan a = .ok rel)
    (pre post : List (Role × Role)) (hpre : implement n false rel = .ok pre)
    (hpost : implement n true rel = .ok post)
    (hl : LegalRun eq Heap.empty (before ++ callEvents bind pre post body ++ after))
    (c w : Int) (hann : Annotated a c w) (rc rw' : Role) (hc : Means n c rc)
    (hw : Means n w rw') (x : Obj)
    (hx : (run eq Heap.empty (before ++ callEvents bind pre post body ++ after)).get (bind rc)
      = some x) (hd : x.hasDict = true) :
    Alive (run eq Heap.empty (before ++ callEvents bind pre post body ++ after)) (bind rw') := by
  obtain ⟨b, hm⟩ := mem_scan a rel hrel c w hann
  have himp : ∀ (post : Bool) (rel : List (Int × Int × Bool)) (l : List (Role × Role)),
      implement n post rel = .ok l → (c, w, post) ∈ rel → (rc, rw') ∈ l := by
    intro post rel
    induction rel with
    | nil => intro l _ h; cases h
    | cons r rel ih =>
      intro l hl hmem
      obtain ⟨c', w', p'⟩ := r
      unfold implement at hl
      by_cases e : p' = post
      · rw [if_pos e] at hl
        cases h1 : getCustodianOrWard n c' with
        | error _ => rw [h1] at hl; simp [Bind.bind, Except.bind] at hl
        | ok r1 =>
          cases h2 : getCustodianOrWard n w' with
          | error _ => rw [h1, h2] at hl; simp [Bind.bind, Except.bind] at hl
          | ok r2 =>
            cases h3 : implement n post rel with
            | error _ => rw [h1, h2, h3] at hl; simp [Bind.bind, Except.bind] at hl
            | ok l' =>
              rw [h1, h2, h3] at hl
              simp only [Bind.bind, Except.bind, Except.ok.injEq] at hl
              subst hl
              rcases List.mem_cons.mp hmem with e' | hmem
              · cases e'
                rw [getCustodianOrWard_means n c rc hc] at h1
                rw [getCustodianOrWard_means n w rw' hw] at h2
                cases h1; cases h2; exact List.mem_cons_self
              · exact List.mem_cons_of_mem _ (ih _ h3 hmem)
      · rw [if_neg e] at hl
        rcases List.mem_cons.mp hmem with e' | hmem
        · cases e'; exact absurd rfl e
        · exact ih _ hl hmem
  have hev : Ev.adopt (bind rc) (some (bind rw'))
      ∈ before ++ callEvents bind pre post body ++ after := by
    have : Ev.adopt (bind rc) (some (bind rw')) ∈ callEvents bind pre post body := by
      unfold callEvents
      cases b with
      | false =>
        have := himp false rel pre hpre hm
        exact List.mem_append_left _ (List.mem_append_left _ (List.mem_map.mpr ⟨_, this, rfl⟩))
      | true =>
        have := himp true rel post hpost hm
        exact List.mem_append_right _ (List.mem_map.mpr ⟨_, this, rfl⟩)
    exact List.mem_append_left _ (List.mem_append_right _ this)
  generalize before ++ callEvents bind pre post body ++ after = evs at *
  obtain ⟨s, t, rfl⟩ := List.append_of_mem hev
  exact C46_kept_alive_partial eq heq s t _ _ hl x hx hd

/-- A method annotated with `custodian=0` on its first parameter and `return_internal_reference`. -/
example : scan { params := [some 0, none], retCustodian := none, returnInternalReference := true }
    = .ok [(0, 1, false), (-1, 0, true)] := by decide

example : implement 2 false [(0, 1, false), (-1, 0, true)] = .ok [(.self, .param 0)] ∧
    implement 2 true [(0, 1, false), (-1, 0, true)] = .ok [(.retval, .self)] := by decide

end Verif.Custodian
