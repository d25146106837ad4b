import Verif.ClassIter.Props

/-!
# C107: histories
-/
namespace Verif.ClassIter
open Verif Verif.Wrap Verif.Params
open Verif.Flow (Op)
open _root_.Verif.Lifetime (upd upd_same upd_ne)

variable {Val Py : Type}

/-! ## Single steps -/

theorem upd_upd {β : Type} (f : Nat → β) (a : Nat) (x y : β) : upd (upd f a x) a y = upd f a y := by
  funext n
  by_cases h : n = a
  · subst h; simp
  · rw [upd_ne _ _ h, upd_ne _ _ h, upd_ne _ _ h]

theorem upd_self {β : Type} (f : Nat → β) (a : Nat) : upd f a (f a) = f := by
  funext n
  by_cases h : n = a
  · subst h; simp
  · rw [upd_ne _ _ h]

/-- The world after `iter(w)`, for an object at `a`. -/
def afterIter (s : World Val) (w a : Nat) : World Val :=
  { s with its := upd s.its s.next ⟨true, some w, some (a, (s.objs a).1, 0)⟩, next := s.next + 1
           refs := upd s.refs w (s.refs w + 1) }

theorem step_iter (c : Lifetime.Cls) (t : Traits) (S : Sem' Val Py) (code : List Op) (s : World Val) (w : Nat) :
    step c t S code s (.iter w) =
      match (s.base.ws w).obj with
      | none => .crash
      | some a =>
        match s.base.heap a with
        | none => .crash
        | some _ => .ok (afterIter s w a, .iter s.next) := by
  show (match runActs (iterAct w s.next) tpIter s with | .crash => _ | .ok s' => _) = _
  simp only [tpIter, runActs, iterAct]
  cases ho : (s.base.ws w).obj with
  | none => rfl
  | some a =>
    cases hh : s.base.heap a with
    | none => simp only [hh]
    | some x => simp only [hh, upd_same, upd_upd, afterIter]

/-- The world after an iterator died. -/
def afterDrop (s : World Val) (i : Nat) : World Val :=
  { s with its := upd s.its i ⟨false, none, none⟩
           refs := match (s.its i).container with
             | none => s.refs
             | some w => upd s.refs w (s.refs w - 1) }

theorem step_drop (c : Lifetime.Cls) (t : Traits) (S : Sem' Val Py) (code : List Op) (s : World Val) (i : Nat) :
    step c t S code s (.drop i) = .ok (afterDrop s i, .unit) := by
  show (match runActs (deallocAct i) tpDealloc s with | .crash => _ | .ok s' => _) = _
  cases hc : (s.its i).container with
  | none =>
    simp only [tpDealloc, runActs, deallocAct, hc, upd_same, upd_upd, afterDrop]
  | some w =>
    simp only [tpDealloc, runActs, deallocAct, hc, upd_same, upd_upd, afterDrop]

/-- The world after the iterator moved on. -/
def afterNext (s : World Val) (i : Nat) (it : Nat × Nat × Nat) : World Val :=
  { s with its := upd s.its i { s.its i with iter := some (it.1, it.2.1, it.2.2 + 1) } }

theorem step_next (c : Lifetime.Cls) (t : Traits) (S : Sem' Val Py) (s : World Val) (i : Nat) :
    step c t S (loopOps t) s (.next i) =
      match (s.its i).iter with
      | none => .crash
      | some it =>
        match atEnd s (s.its i).container it with
        | .crash => .crash
        | .ok true => .ok (s, .stop)
        | .ok false =>
          match (s.objs it.1).2[it.2.2]? with
          | none => .crash
          | some e => .ok (afterNext s i it, .value (convert t S e)) := by
  show nextOut t S (runNext i ((loopOps t).map (actOf t)) { s := s }) = _
  rw [loop_acts]
  cases hi : (s.its i).iter with
  | none => simp only [runNext, nextAct, hi, nextOut]
  | some it =>
    simp only [runNext, nextAct, hi, Bool.false_eq_true, if_false]
    cases ha : atEnd s (s.its i).container it with
    | crash => simp only [nextOut]
    | ok b =>
      cases b with
      | true => simp only [if_true, nextOut]
      | false =>
        simp only [hi, Bool.false_eq_true, if_false, nextOut, elemAt, afterNext]
        cases (s.objs it.1).2[it.2.2]? <;> rfl

/-! ## The invariant -/

/-- How many iterators refer to a wrapper. -/
def iterators (s : World Val) (w : Nat) : Nat := (List.range s.next).countP (fun i => (s.its i).container = some w)

structure Inv (s : World Val) : Prop where
  fresh : ∀ i, s.next ≤ i → s.its i = ⟨false, none, none⟩
  refs : ∀ w, s.refs w = iterators s w
  dead : ∀ i, (s.its i).live = false → (s.its i).container = none
  keeps : ∀ i w, (s.its i).container = some w → (s.base.ws w).live = true

theorem inv_init : Inv (World.init Val) :=
  ⟨fun _ _ => rfl, fun _ => rfl, fun _ _ => rfl, fun _ _ h => by cases h⟩

theorem refs_pos {s : World Val} (h : Inv s) {i w : Nat} (hc : (s.its i).container = some w) : 0 < s.refs w := by
  rw [h.refs w]
  refine List.countP_pos_iff.mpr ⟨i, List.mem_range.mpr ?_, by simpa using hc⟩
  refine Nat.lt_of_not_le fun hle => ?_
  rw [h.fresh i hle] at hc
  cases hc

theorem live_step (c : Lifetime.Cls) (s : Lifetime.World) (e : Lifetime.Ev) (w : Nat) (hl : (s.ws w).live = true)
    (hd : e ≠ .dealloc w) : ((Lifetime.step c s e).ws w).live = true := by
  have hnew : ∀ (u : Lifetime.World) (p : Option Nat) (b : Bool), (u.ws w).live = true → ((Lifetime.newWrapper u p b).ws w).live = true := by
    intro u p b hu
    unfold Lifetime.newWrapper
    by_cases h : w = u.next
    · subst h; simp
    · simp only [upd_ne _ _ h]; exact hu
  have hset : ∀ (u : Lifetime.World) (v : Nat) (p : Option Nat), (u.ws w).live = true → ((Lifetime.setObj u v p).ws w).live = true := by
    intro u v p hu
    unfold Lifetime.setObj
    by_cases h : w = v
    · subst h; simp only [upd_same]; exact hu
    · simp only [upd_ne _ _ h]; exact hu
  have hdel : ∀ (u : Lifetime.World) (v : Nat), (u.ws w).live = true → ((Lifetime.deleteCode c u v).ws w).live = true := by
    intro u v hu
    unfold Lifetime.deleteCode
    split
    · exact hu
    · split
      · dsimp only
        split
        · split
          · exact hset _ _ _ hu
          · split
            · exact hset _ _ _ hu
            · rw [Lifetime.release_ws]; exact hset _ _ _ hu
        · exact hset _ _ _ hu
      all_goals
        split
        · exact hu
        · rw [Lifetime.release_ws]; exact hset _ _ _ hu
  have hcreate : ∀ (o : Lifetime.RetOpts) (u : Lifetime.World) (a b : Nat), (u.ws w).live = true →
      ((Lifetime.createWrapper c o u a b).ws w).live = true := by
    intro o u a b hu
    unfold Lifetime.createWrapper
    dsimp only
    split
    · rw [Lifetime.register_ws]; exact hnew _ _ _ hu
    · split
      · split
        · rw [Lifetime.register_ws]; exact hnew _ _ _ hu
        · split
          · rw [Lifetime.register_ws]; exact hnew _ _ _ hu
          · rw [Lifetime.register_ws]; exact hnew _ _ _ hu
      · split
        · rw [Lifetime.register_ws]; exact hnew _ _ _ (by rw [Lifetime.incref_ws]; exact hu)
        · rw [Lifetime.register_ws]; exact hnew _ _ _ hu
  cases e with
  | cppNew a => exact hl
  | cppIncref a => simp only [Lifetime.step, Lifetime.cppGains_ws, Lifetime.incref_ws]; exact hl
  | cppRelease a => simp only [Lifetime.step, Lifetime.release_ws, Lifetime.cppLoses_ws]; exact hl
  | ret o a b same =>
    have hrel : ∀ (b : Prop) [Decidable b] (u : Lifetime.World), (u.ws w).live = true →
        ((if b then Lifetime.release u a else u).ws w).live = true := by
      intro b _ u hu; split
      · rw [Lifetime.release_ws]; exact hu
      · exact hu
    have h0 : ((if o.own || o.freeAfterCopy then Lifetime.cppLoses s a else s).ws w).live = true := by
      split
      · rw [Lifetime.cppLoses_ws]; exact hl
      · exact hl
    simp only [Lifetime.step, Lifetime.retObj]
    generalize (if o.own || o.freeAfterCopy then Lifetime.cppLoses s a else s) = u at h0
    apply hrel
    split
    · exact hrel _ _ (hset _ _ _ h0)
    · split
      · exact hrel _ _ h0
      · exact hcreate _ _ _ _ h0
  | pyNew => exact hnew _ _ _ hl
  | pyInit v a b =>
    simp only [Lifetime.step, Lifetime.pyInit, Lifetime.alloc]
    by_cases h : w = v
    · subst h; simp only [upd_same]; exact hl
    · simp only [upd_ne _ _ h]; exact hl
  | pyCopy v b =>
    simp only [Lifetime.step, Lifetime.pyCopy, Lifetime.register_ws]
    exact hnew _ _ _ hl
  | transfer v =>
    simp only [Lifetime.step, Lifetime.transfer]
    split
    · exact hl
    · split
      · split
        · exact hset _ _ _ (by rw [Lifetime.unregister_ws]; exact hl)
        · rw [Lifetime.cppGains_ws]; exact hset _ _ _ (by rw [Lifetime.unregister_ws]; exact hl)
      · rw [Lifetime.cppGains_ws, Lifetime.incref_ws]; exact hl
  | clear v => exact hdel _ _ hl
  | dealloc v =>
    have hv : w ≠ v := fun h => hd (by rw [h])
    simp only [Lifetime.step, Lifetime.dealloc]
    rw [upd_ne _ _ hv]
    exact hdel _ _ (by rw [Lifetime.unregister_ws]; exact hl)

theorem Inv.iter {s : World Val} (h : Inv s) {w a : Nat} (hl : (s.base.ws w).live = true) : Inv (afterIter s w a) := by
  have hnext : (s.its s.next).container = none := by rw [h.fresh _ (Nat.le_refl _)]
  constructor
  · intro i hi
    have : i ≠ s.next := by have : s.next + 1 ≤ i := hi; omega
    show upd _ _ _ _ = _
    rw [upd_ne _ _ this]
    exact h.fresh i (by have : s.next + 1 ≤ i := hi; omega)
  · intro v
    have e : iterators (afterIter s w a) v = iterators s v + (if v = w then 1 else 0) := by
      unfold iterators
      show (List.range (s.next + 1)).countP _ = _
      rw [List.range_succ, List.countP_append, List.countP_singleton]
      congr 1
      · apply List.countP_congr
        intro i hi
        have : i ≠ s.next := by have := List.mem_range.mp hi; omega
        show (decide ((upd s.its _ _ i).container = some v) = true) ↔ _
        rw [upd_ne _ _ this]
      · show (if decide ((upd s.its _ _ _).container = some v) = true then 1 else 0) = _
        rw [upd_same]
        by_cases hv : v = w
        · subst hv; simp
        · simp [hv, Ne.symm hv]
    rw [e]
    show upd _ _ _ _ = _
    by_cases hv : v = w
    · subst hv; rw [upd_same, h.refs v]; simp
    · rw [upd_ne _ _ hv, h.refs v]; simp [hv]
  · intro i hi
    by_cases e : i = s.next
    · subst e
      have : (upd s.its s.next _ s.next).live = false := hi
      rw [upd_same] at this
      cases this
    · have hi : (upd s.its s.next _ i).live = false := hi
      show (upd s.its s.next _ i).container = none
      rw [upd_ne _ _ e] at hi ⊢
      exact h.dead i hi
  · intro i v hi
    show (s.base.ws v).live = true
    by_cases e : i = s.next
    · subst e
      have hi : (upd s.its s.next _ s.next).container = some v := hi
      rw [upd_same] at hi
      cases hi
      exact hl
    · have hi : (upd s.its s.next _ i).container = some v := hi
      rw [upd_ne _ _ e] at hi
      exact h.keeps i v hi

theorem Inv.drop {s : World Val} (h : Inv s) {i : Nat} (hl : (s.its i).live = true) : Inv (afterDrop s i) := by
  have hi : i < s.next := by
    refine Nat.lt_of_not_le fun hle => ?_
    rw [h.fresh i hle] at hl
    cases hl
  have hne : ∀ j, j ≠ i → (afterDrop s i).its j = s.its j := fun j hj => upd_ne _ _ hj
  have hsame : (afterDrop s i).its i = ⟨false, none, none⟩ := upd_same _ _ _
  constructor
  · intro j hj
    have hj : s.next ≤ j := hj
    rw [hne j (by omega)]
    exact h.fresh j hj
  · intro v
    have e := Container.countP_upd (fun j => decide ((s.its j).container = some v))
      (fun j => decide (((afterDrop s i).its j).container = some v)) i (fun j hj => by rw [hne j hj]) s.next hi
    have e1 : iterators (afterDrop s i) v = (List.range s.next).countP (fun j => decide (((afterDrop s i).its j).container = some v)) := rfl
    have e2 : iterators s v = (List.range s.next).countP (fun j => decide ((s.its j).container = some v)) := rfl
    rw [← e1, ← e2] at e
    simp only [hsame, reduceCtorEq, decide_false, Bool.toNat_false, Nat.add_zero] at e
    have hr := h.refs v
    show (match (s.its i).container with | none => s.refs | some w => upd s.refs w (s.refs w - 1)) v = _
    cases hc : (s.its i).container with
    | none =>
      simp only [hc, reduceCtorEq, decide_false, Bool.toNat_false, Nat.add_zero] at e
      show s.refs v = _
      omega
    | some w =>
      show upd s.refs w (s.refs w - 1) v = _
      by_cases hv : v = w
      · subst hv
        rw [upd_same]
        simp only [hc, decide_true, Bool.toNat_true] at e
        omega
      · rw [upd_ne _ _ hv]
        have : some w ≠ some v := fun hh => hv (Option.some.inj hh).symm
        simp only [hc, this, decide_false, Bool.toNat_false, Nat.add_zero] at e
        omega
  · intro j hj
    by_cases e : j = i
    · subst e; rw [hsame]
    · rw [hne j e] at hj ⊢; exact h.dead j hj
  · intro j v hj
    show (s.base.ws v).live = true
    by_cases e : j = i
    · subst e; rw [hsame] at hj; cases hj
    · rw [hne j e] at hj; exact h.keeps j v hj

/-- Changing the C++ iterator of an iterator object, or nothing, leaves the invariant. -/
theorem Inv.move {s : World Val} (h : Inv s) {i : Nat} (hl : (s.its i).live = true) (it : Nat × Nat × Nat) :
    Inv (afterNext s i it) := by
  have hcon : ∀ j, ((afterNext s i it).its j).container = (s.its j).container := by
    intro j
    by_cases e : j = i
    · subst e; show (upd s.its _ _ _).container = _; rw [upd_same]
    · show (upd s.its _ _ _).container = _; rw [upd_ne _ _ e]
  have hliv : ∀ j, ((afterNext s i it).its j).live = (s.its j).live := by
    intro j
    by_cases e : j = i
    · subst e; show (upd s.its _ _ _).live = _; rw [upd_same]
    · show (upd s.its _ _ _).live = _; rw [upd_ne _ _ e]
  constructor
  · intro j hj
    have hj : s.next ≤ j := hj
    have : j ≠ i := by
      intro e; subst e; rw [h.fresh j hj] at hl; cases hl
    show upd _ _ _ _ = _
    rw [upd_ne _ _ this]
    exact h.fresh j hj
  · intro v
    show s.refs v = _
    rw [h.refs v]
    unfold iterators
    show _ = (List.range s.next).countP _
    simp only [hcon]
  · intro j hj; rw [hliv] at hj; rw [hcon]; exact h.dead j hj
  · intro j v hj; rw [hcon] at hj; exact h.keeps j v hj

theorem Inv.newIter {s : World Val} (h : Inv s) :
    Inv { s with its := upd s.its s.next ⟨true, none, none⟩, next := s.next + 1 } := by
  constructor
  · intro i hi
    have hi : s.next + 1 ≤ i := hi
    show upd _ _ _ _ = _
    rw [upd_ne _ _ (by omega)]
    exact h.fresh i (by omega)
  · intro v
    show s.refs v = _
    rw [h.refs v]
    unfold iterators
    show _ = (List.range (s.next + 1)).countP _
    rw [List.range_succ, List.countP_append, List.countP_singleton]
    simp only [upd_same, reduceCtorEq, decide_false, Bool.false_eq_true, if_false, Nat.add_zero]
    apply List.countP_congr
    intro i hi
    have : i ≠ s.next := by have := List.mem_range.mp hi; omega
    simp only [upd_ne _ _ this]
  · intro i hi
    by_cases e : i = s.next
    · subst e; show (upd s.its _ _ _).container = _; rw [upd_same]
    · have hi : (upd s.its s.next _ i).live = false := hi
      show (upd s.its _ _ _).container = _
      rw [upd_ne _ _ e] at hi ⊢
      exact h.dead i hi
  · intro i v hi
    by_cases e : i = s.next
    · subst e
      have hi : (upd s.its s.next _ s.next).container = some v := hi
      rw [upd_same] at hi; cases hi
    · have hi : (upd s.its s.next _ i).container = some v := hi
      rw [upd_ne _ _ e] at hi
      exact h.keeps i v hi

theorem Inv.step {c : Lifetime.Cls} {t : Traits} {S : Sem' Val Py} {s s' : World Val} {e : Ev Val} {o : Out Py}
    (h : Inv s) (hok : Ok c s e) (hs : step c t S (loopOps t) s e = .ok (s', o)) : Inv s' := by
  cases e with
  | life e fill =>
    have hs := Res.ok.inj hs
    obtain ⟨rfl, -⟩ := Prod.mk.inj hs
    refine ⟨h.fresh, h.refs, h.dead, ?_⟩
    intro i w hi
    refine live_step c s.base e w (h.keeps i w hi) ?_
    intro he
    have := refs_pos h hi
    have := hok.2 w (.inl he)
    omega
  | change a l =>
    have hs := Res.ok.inj hs
    obtain ⟨rfl, -⟩ := Prod.mk.inj hs
    exact ⟨h.fresh, h.refs, h.dead, h.keeps⟩
  | iter w =>
    rw [step_iter] at hs
    split at hs
    · cases hs
    · split at hs
      · cases hs
      · have hs := Res.ok.inj hs
        obtain ⟨rfl, -⟩ := Prod.mk.inj hs
        exact h.iter hok
  | newIter =>
    have hs := Res.ok.inj hs
    obtain ⟨rfl, -⟩ := Prod.mk.inj hs
    exact h.newIter
  | next i =>
    rw [step_next] at hs
    split at hs
    · cases hs
    · split at hs
      · cases hs
      · have hs := Res.ok.inj hs
        obtain ⟨rfl, -⟩ := Prod.mk.inj hs
        exact h
      · split at hs
        · cases hs
        · have hs := Res.ok.inj hs
          obtain ⟨rfl, -⟩ := Prod.mk.inj hs
          exact h.move hok _
  | drop i =>
    rw [step_drop] at hs
    have hs := Res.ok.inj hs
    obtain ⟨rfl, -⟩ := Prod.mk.inj hs
    exact h.drop hok

theorem Inv.run {c : Lifetime.Cls} {t : Traits} {S : Sem' Val Py} {Q : World Val → Ev Val → Prop} {s s' : World Val}
    {h : List (Ev Val × Out Py)} (hi : Inv s) (hr : Run c t S (loopOps t) Q s h s') : Inv s' := by
  induction hr with
  | nil => exact hi
  | cons hok _ hs _ ih => exact ih (hi.step hok hs)

end Verif.ClassIter
