import Verif.Runtime.LifetimeProps

/-!
# One wrapper per object (C38)
-/
namespace Verif.Lifetime

/-! ### The registry by itself -/

/-- Operations on the registry. -/
inductive RegOp where
  | register (a : Addr) (w : Wid)
  | unregister (a : Addr)

/-- Run registry operations of a class with a `std::map` registry. -/
def regRun (c : Cls) : World → List RegOp → World
  | s, [] => s
  | s, .register a w :: os => regRun c (register c s a w) os
  | s, .unregister a :: os => regRun c (unregister c s (some a)) os

/-- Specification: the last operation on `a` decides. -/
def lastEntry (a : Addr) : List RegOp → Option Wid → Option Wid
  | [], d => d
  | .register b w :: os, d => lastEntry a os (if b = a then some w else d)
  | .unregister b :: os, d => lastEntry a os (if b = a then none else d)

/-- **C38.**  After any sequence of registrations and unregistrations, the `std::map` registry finds
for every object the wrapper registered last unless the object was unregistered since; without
registry nothing is ever found. -/
theorem C38_registry (c : Cls) (s : World) (os : List RegOp) (a : Addr) :
    lookup c (regRun c s os) a = if c.registry then lastEntry a os (s.reg a) else none := by
  cases hr : c.registry with
  | false => simp [lookup, hr]
  | true =>
    simp only [lookup, hr, if_true]
    induction os generalizing s with
    | nil => rfl
    | cons o os ih =>
      cases o with
      | register b w =>
        simp only [regRun, lastEntry]
        rw [ih]
        congr 1
        simp only [register, hr, if_true, upd_apply]
        by_cases h : a = b <;> simp [h]
        intro e; exact absurd e.symm h
      | unregister b =>
        simp only [regRun, lastEntry]
        rw [ih]
        congr 1
        simp only [unregister, hr, if_true, upd_apply]
        by_cases h : a = b <;> simp [h]
        intro e; exact absurd e.symm h

example : lookup plain (regRun plain init [.register 1 5, .register 2 6, .unregister 2,
    .register 1 7]) 1 = some 7 := by rw [C38_registry]; rfl

/-! ### The invariant of the protocol -/

/-- The registry describes the live wrappers that were made by returning or copying; no object has
two wrappers; helper objects know a live wrapper initialised by `__init__`. -/
structure RegInv (s : World) : Prop where
  known : ∀ w a, (s.ws w).live = true → (s.ws w).obj = some a → (s.ws w).viaInit = false →
    s.reg a = some w
  sound : ∀ a w, s.reg a = some w →
    (s.ws w).live = true ∧ (s.ws w).obj = some a ∧ (s.ws w).viaInit = false
  uniq : ∀ w v a, (s.ws w).live = true → (s.ws v).live = true → (s.ws w).obj = some a →
    (s.ws v).obj = some a → w = v
  self : ∀ a o w, s.heap a = some o → o.pyself = some w →
    (s.ws w).live = true ∧ (s.ws w).viaInit = true
  dead : ∀ w, s.next ≤ w → (s.ws w).live = false

/-- `t`'s helper objects are helper objects of `s`. -/
def SelfLe (s t : World) : Prop :=
  ∀ a o w, t.heap a = some o → o.pyself = some w → ∃ o', s.heap a = some o' ∧ o'.pyself = some w

theorem SelfLe.refl (s : World) : SelfLe s s := fun _ o _ h h' => ⟨o, h, h'⟩
theorem SelfLe.trans {s t u} (h : SelfLe s t) (h' : SelfLe t u) : SelfLe s u := by
  intro a o w ha hw
  obtain ⟨o', h1, h2⟩ := h' a o w ha hw
  exact h a o' w h1 h2
theorem SelfLe.of_heap {s t : World} (h : t.heap = s.heap) : SelfLe s t := by
  intro a o w ha hw; rw [h] at ha; exact ⟨o, ha, hw⟩

theorem SelfLe.upd {s t : World} (a : Addr) (x : Option Obj) (ht : t.heap = Lifetime.upd s.heap a x)
    (hx : ∀ o w, x = some o → o.pyself = some w → ∃ o', s.heap a = some o' ∧ o'.pyself = some w) :
    SelfLe s t := by
  intro b o w hb hw
  rw [ht, upd_apply] at hb
  split at hb
  · next e => subst e; exact hx o w hb hw
  · exact ⟨o, hb, hw⟩

theorem selfLe_release (s a) : SelfLe s (release s a) := by
  unfold release
  cases ha : s.heap a with
  | none => exact SelfLe.of_heap rfl
  | some o =>
    simp only
    split
    · exact SelfLe.upd a none rfl (by simp)
    · exact SelfLe.upd a (some { o with refs := o.refs - 1 }) rfl
        (fun o' w e hw => by cases e; exact ⟨o, ha, hw⟩)

theorem selfLe_incref (s a) : SelfLe s (incref s a) := by
  unfold incref
  cases ha : s.heap a with
  | none => exact SelfLe.of_heap rfl
  | some o =>
    exact SelfLe.upd a (some { o with refs := o.refs + 1 }) rfl
      (fun o' w e hw => by cases e; exact ⟨o, ha, hw⟩)

theorem selfLe_cppGains (s a d) : SelfLe s (cppGains s a d) := by
  unfold cppGains
  cases ha : s.heap a with
  | none => exact SelfLe.refl s
  | some o =>
    exact SelfLe.upd a (some { o with cpp := o.cpp + d }) rfl
      (fun o' w e hw => by cases e; exact ⟨o, ha, hw⟩)

theorem selfLe_cppLoses (s a) : SelfLe s (cppLoses s a) := by
  unfold cppLoses
  cases ha : s.heap a with
  | none => exact SelfLe.refl s
  | some o =>
    exact SelfLe.upd a (some { o with cpp := o.cpp - 1 }) rfl
      (fun o' w e hw => by cases e; exact ⟨o, ha, hw⟩)

theorem selfLe_alloc (s b) : SelfLe s (alloc s b none) :=
  SelfLe.upd b (some ⟨1, 0, none⟩) rfl (fun o w e hw => by cases e; cases hw)

theorem selfLe_deleteCode (c s w) : SelfLe s (deleteCode c s w) := by
  unfold deleteCode
  split
  · exact SelfLe.refl s
  · have hs : SelfLe s (setObj s w none) := SelfLe.of_heap rfl
    split
    · simp only
      split
      · split
        · exact hs
        · split
          · exact hs
          · exact hs.trans (selfLe_release _ _)
      · exact hs
    · split
      · exact SelfLe.refl s
      · exact hs.trans (selfLe_release _ _)
    · split
      · exact SelfLe.refl s
      · exact hs.trans (selfLe_release _ _)

/-- The delete code at most clears `obj` of its wrapper. -/
theorem deleteCode_any (c s w) :
    ((deleteCode c s w).ws = s.ws ∨ (deleteCode c s w).ws = upd s.ws w { s.ws w with obj := none }) ∧
    (deleteCode c s w).next = s.next ∧ (deleteCode c s w).reg = s.reg := by
  unfold deleteCode
  split
  · exact ⟨Or.inl rfl, rfl, rfl⟩
  · split
    · simp only
      split
      · split
        · exact ⟨Or.inr rfl, rfl, rfl⟩
        · split <;> simp [setObj]
      · exact ⟨Or.inr rfl, rfl, rfl⟩
    · split <;> simp [setObj]
    · split <;> simp [setObj]

theorem RegInv.same {s t} (h : RegInv s) (hws : t.ws = s.ws) (hreg : t.reg = s.reg)
    (hn : t.next = s.next) (hs : SelfLe s t) : RegInv t := by
  refine ⟨?_, ?_, ?_, ?_, ?_⟩
  · rw [hws, hreg]; exact h.known
  · rw [hws, hreg]; exact h.sound
  · rw [hws]; exact h.uniq
  · intro a o w ha hw
    obtain ⟨o', h1, h2⟩ := hs a o w ha hw
    rw [hws]; exact h.self a o' w h1 h2
  · rw [hws, hn]; exact h.dead

theorem RegInv.lt {s} (h : RegInv s) {w : Wid} (hw : (s.ws w).live = true) : w < s.next := by
  by_contra hn
  rw [h.dead w (by omega)] at hw; cases hw

/-- A wrapper is made for an object nobody holds, and registered. -/
theorem RegInv.create {c s} (hr : c.registry = true) (h : RegInv s) (a : Addr) (no : Bool)
    (ha : ∀ w, (s.ws w).live = true → (s.ws w).obj ≠ some a) :
    RegInv (register c (newWrapper s (some a) no) a s.next) := by
  have hreg : (register c (newWrapper s (some a) no) a s.next).reg = upd s.reg a (some s.next) := by
    simp [register, hr, newWrapper]
  have hws : (register c (newWrapper s (some a) no) a s.next).ws =
      upd s.ws s.next ⟨true, some a, no, false⟩ := by simp [newWrapper]
  refine ⟨?_, ?_, ?_, ?_, ?_⟩
  · rw [hws, hreg]
    intro w b hl ho hv
    by_cases hw : w = s.next
    · subst hw
      simp only [upd_same, Option.some.injEq] at ho
      subst ho
      simp
    · rw [upd_ne _ _ hw] at hl ho hv
      have : b ≠ a := fun e => ha w hl (e ▸ ho)
      rw [upd_ne _ _ this]
      exact h.known w b hl ho hv
  · rw [hws, hreg]
    intro b w hb
    by_cases e : b = a
    · subst e
      rw [upd_same, Option.some.injEq] at hb
      subst hb
      simp
    · rw [upd_ne _ _ e] at hb
      have hs := h.sound b w hb
      rw [upd_ne _ _ (by have := h.lt hs.1; omega)]
      exact hs
  · rw [hws]
    intro w v b hlw hlv how hov
    by_cases hw : w = s.next <;> by_cases hv : v = s.next
    · rw [hw, hv]
    · subst hw
      rw [upd_same] at how
      rw [upd_ne _ _ hv] at hov hlv
      exact absurd (hov.trans (how.symm)) (ha v hlv)
    · subst hv
      rw [upd_same] at hov
      rw [upd_ne _ _ hw] at how hlw
      exact absurd (how.trans (hov.symm)) (ha w hlw)
    · rw [upd_ne _ _ hw] at how hlw
      rw [upd_ne _ _ hv] at hov hlv
      exact h.uniq w v b hlw hlv how hov
  · rw [hws]
    intro b o w hb hw
    have := h.self b o w (by simpa [newWrapper] using hb) hw
    rw [upd_ne _ _ (by have := h.lt this.1; omega)]
    exact this
  · intro w hw
    rw [hws]
    simp only [register_next, newWrapper] at hw
    rw [upd_ne _ _ (by omega)]
    exact h.dead w (by omega)

/-- A wrapper that was set up by `__init__` (or has no object) gets an object nobody holds. -/
theorem RegInv.assign {s} (h : RegInv s) (w : Wid) (a : Addr) (x : Wrapper)
    (hx : x.obj = some a ∧ x.live = true ∧ x.viaInit = true) (hl : (s.ws w).live = true)
    (hw : (s.ws w).viaInit = true ∨ (s.ws w).obj = none)
    (ha : ∀ v, (s.ws v).live = true → (s.ws v).obj ≠ some a) :
    RegInv { s with ws := upd s.ws w x } := by
  have nreg : ∀ b v, s.reg b = some v → v ≠ w := by
    intro b v hb e
    have := h.sound b v hb
    rw [e] at this
    rcases hw with hw | hw
    · rw [this.2.2] at hw; cases hw
    · rw [this.2.1] at hw; cases hw
  refine ⟨?_, ?_, ?_, ?_, ?_⟩
  · intro v b hl' ho hv
    simp only at hl' ho hv ⊢
    by_cases e : v = w
    · subst e; rw [upd_same] at hv; rw [hx.2.2] at hv; cases hv
    · rw [upd_ne _ _ e] at hl' ho hv; exact h.known v b hl' ho hv
  · intro b v hb
    simp only at hb ⊢
    rw [upd_ne _ _ (nreg b v hb)]
    exact h.sound b v hb
  · intro v u b hlv hlu hov hou
    simp only at hlv hlu hov hou
    by_cases ev : v = w <;> by_cases eu : u = w
    · rw [ev, eu]
    · subst ev
      rw [upd_same] at hov
      rw [upd_ne _ _ eu] at hlu hou
      exact absurd (hou.trans (hov.symm.trans hx.1)) (ha u hlu)
    · subst eu
      rw [upd_same] at hou
      rw [upd_ne _ _ ev] at hlv hov
      exact absurd (hov.trans (hou.symm.trans hx.1)) (ha v hlv)
    · rw [upd_ne _ _ ev] at hlv hov
      rw [upd_ne _ _ eu] at hlu hou
      exact h.uniq v u b hlv hlu hov hou
  · intro b o v hb hv
    have := h.self b o v hb hv
    simp only
    by_cases e : v = w
    · subst e; rw [upd_same]; exact ⟨hx.2.1, hx.2.2⟩
    · rw [upd_ne _ _ e]; exact this
  · intro v hv
    have hlt := h.lt hl
    simp only at hv ⊢
    rw [upd_ne _ _ (by omega)]
    exact h.dead v hv

/-- A wrapper loses its object (and possibly its life) after its registry entry was erased. -/
theorem RegInv.lose {s} (h : RegInv s) (w : Wid) (x : Wrapper) (r : Nat → Option Nat)
    (hl : (s.ws w).live = true)
    (hx : x.obj = none ∨ x.live = false ∨ (x.obj = (s.ws w).obj ∧ x.viaInit = true))
    (hxv : x.viaInit = (s.ws w).viaInit)
    (hself : x.live = false → ∀ a o, s.heap a = some o → o.pyself ≠ some w)
    (hr : r = s.reg ∧ ((s.ws w).obj = none ∨ (s.ws w).viaInit = true) ∨
      ∃ a, (s.ws w).obj = some a ∧ r = upd s.reg a none)
    (hxl : x.live = true ∨ x.live = false) :
    RegInv { s with ws := upd s.ws w x, reg := r } := by
  have hreg : ∀ b v, r b = some v → s.reg b = some v ∧ v ≠ w := by
    intro b v hb
    rcases hr with ⟨e, h1⟩ | ⟨a, h1, e⟩
    · subst e
      refine ⟨hb, fun ev => ?_⟩
      have := h.sound b v hb
      rw [ev] at this
      rcases h1 with h1 | h1
      · rw [this.2.1] at h1; cases h1
      · rw [this.2.2] at h1; cases h1
    · subst e
      rw [upd_apply] at hb
      split at hb
      · cases hb
      · next e =>
        refine ⟨hb, fun ev => ?_⟩
        have := h.sound b v hb
        rw [ev, h1] at this
        exact e (Option.some.inj this.2.1).symm
  refine ⟨?_, ?_, ?_, ?_, ?_⟩
  · intro v b hlv hov hvv
    simp only at hlv hov hvv ⊢
    by_cases e : v = w
    · subst e
      rw [upd_same] at hlv hov hvv
      rcases hx with hx | hx | ⟨_, hx⟩
      · rw [hx] at hov; cases hov
      · rw [hx] at hlv; cases hlv
      · rw [hx] at hvv; cases hvv
    · rw [upd_ne _ _ e] at hlv hov hvv
      have hk := h.known v b hlv hov hvv
      rcases hr with ⟨e', _⟩ | ⟨a, h1, e'⟩
      · rw [e']; exact hk
      · rw [e', upd_ne _ _ ?_]
        · exact hk
        · intro eb
          exact e (h.uniq v w b hlv hl hov (eb ▸ h1))
  · intro b v hb
    have ⟨h1, h2⟩ := hreg b v hb
    simp only
    rw [upd_ne _ _ h2]
    exact h.sound b v h1
  · intro v u b hlv hlu hov hou
    simp only at hlv hlu hov hou
    have old : ∀ y, (upd s.ws w x y).live = true → (upd s.ws w x y).obj = some b →
        (s.ws y).live = true ∧ (s.ws y).obj = some b := by
      intro y h1 h2
      by_cases e : y = w
      · subst e
        rw [upd_same] at h1 h2
        rcases hx with hx | hx | ⟨hx, _⟩
        · rw [hx] at h2; cases h2
        · rw [hx] at h1; cases h1
        · exact ⟨hl, hx ▸ h2⟩
      · rw [upd_ne _ _ e] at h1 h2; exact ⟨h1, h2⟩
    have h1 := old v hlv hov
    have h2 := old u hlu hou
    exact h.uniq v u b h1.1 h2.1 h1.2 h2.2
  · intro b o v hb hv
    have := h.self b o v hb hv
    simp only
    by_cases e : v = w
    · subst e
      rw [upd_same]
      rcases hxl with hxl | hxl
      · exact ⟨hxl, hxv.trans this.2⟩
      · exact absurd hv (hself hxl b o hb)
    · rw [upd_ne _ _ e]; exact this
  · intro v hv
    have hlt := h.lt hl
    simp only at hv ⊢
    rw [upd_ne _ _ (by omega)]
    exact h.dead v hv

theorem upd_upd {β : Type} (f : Nat → β) (w : Nat) (x y : β) : upd (upd f w x) w y = upd f w y := by
  funext z; simp only [upd_apply]; split <;> rfl

theorem RegInv.createWrapper {c s} {o : RetOpts} {a b : Addr} (hr : c.registry = true)
    (h : RegInv s) (ha : ∀ w, (s.ws w).live = true → (s.ws w).obj ≠ some a)
    (hb : ∀ w, (s.ws w).live = true → (s.ws w).obj ≠ some b) :
    RegInv (createWrapper c o s a b) := by
  unfold Lifetime.createWrapper
  simp only
  split
  · exact h.create hr a _ ha
  · split
    · split
      · exact h.create hr a _ ha
      · split
        · exact (h.same (t := alloc s b none) rfl rfl rfl (selfLe_alloc s b)).create hr b _ hb
        · exact h.create hr a _ ha
    · split
      · have := (h.same (t := incref s a) (by simp) (by simp) (by simp) (selfLe_incref s a)).create
          hr a false (by simpa using ha)
        simpa using this
      · exact h.create hr a _ ha

/-- The wrapper Python gets and the invariant, for a returned object. -/
theorem RegInv.ret {c s} {o : RetOpts} {a b : Addr} {same : Option Wid} (hr : c.registry = true)
    (h : RegInv s) (hal : ∀ a, Wrapped s a → s.heap a ≠ none)
    (hok : Ok c s (.ret o a b same)) (hg : GoodReg c s (.ret o a b same)) :
    RegInv (retObj c o s a b same).1 ∧
    (∀ w, (s.ws w).live = true → (s.ws w).obj = some a → (retObj c o s a b same).2 = w) ∧
    (copies c o = false ∨ Wrapped s a →
      (((retObj c o s a b same).1.ws (retObj c o s a b same).2).live = true ∧
       ((retObj c o s a b same).1.ws (retObj c o s a b same).2).obj = some a)) := by
  obtain ⟨hgen, ⟨x, hx, hsame, hcpp⟩, hb⟩ := hok
  obtain ⟨-, g1, g2⟩ := hg
  unfold retObj
  simp only
  have hs1 : (if o.own || o.freeAfterCopy then Lifetime.cppLoses s a else s).ws = s.ws ∧
      (if o.own || o.freeAfterCopy then Lifetime.cppLoses s a else s).reg = s.reg ∧
      (if o.own || o.freeAfterCopy then Lifetime.cppLoses s a else s).next = s.next ∧
      SelfLe s (if o.own || o.freeAfterCopy then Lifetime.cppLoses s a else s) := by
    split
    · exact ⟨by simp, by simp, by simp, selfLe_cppLoses s a⟩
    · exact ⟨rfl, rfl, rfl, SelfLe.refl s⟩
  generalize (if o.own || o.freeAfterCopy then Lifetime.cppLoses s a else s) = s1 at hs1 ⊢
  obtain ⟨hws, hreg, hnext, hself⟩ := hs1
  have h1 : RegInv s1 := h.same hws hreg hnext hself
  -- releasing references changes nothing here
  have rel : ∀ (t : World) (p : Bool) , RegInv t →
      RegInv (if p = true then Lifetime.release t a else t) ∧
      (if p = true then Lifetime.release t a else t).ws = t.ws := by
    intro t p ht
    split
    · exact ⟨ht.same (by simp) (by simp) (by simp) (selfLe_release t a), by simp⟩
    · exact ⟨ht, rfl⟩
  cases hm : (if c.helper then same else none) with
  | some w =>
    have hh : c.helper = true ∧ same = some w := by
      cases hc : c.helper <;> simp [hc] at hm ⊢; exact hm
    have hps : x.pyself = some w := by
      rcases hsame with e | e
      · rw [← e]; exact hh.2
      · rw [hh.2] at e; cases e
    have hsw := h.self a x w hx hps
    have hset : RegInv (setObj s1 w (some a)) ∧
        (∀ v, (s.ws v).live = true → (s.ws v).obj = some a → w = v) := by
      rcases g2 w hh.1 hh.2 with e | ⟨e1, e2⟩
      · rw [setObj_same (by rw [hws]; exact e)]
        exact ⟨h1, fun v hv ho => h.uniq w v a hsw.1 hv e ho⟩
      · refine ⟨h1.assign w a _ ⟨rfl, ?_, ?_⟩ (by rw [hws]; exact hsw.1)
          (Or.inl (by rw [hws]; exact hsw.2)) ?_, fun v hv ho => absurd ⟨v, hv, ho⟩ e2⟩
        · simp [hws, hsw.1]
        · simp [hws, hsw.2]
        · rw [hws]; exact fun v hv ho => e2 ⟨v, hv, ho⟩
    simp only
    have r1 := rel (setObj s1 w (some a)) (o.own && decide (c.policy = .refcount)) hset.1
    have r2 := rel _ o.freeAfterCopy r1.1
    refine ⟨r2.1, hset.2, fun _ => ?_⟩
    rw [r2.2, r1.2]
    simp [setObj, hws, hsw.1]
  | none =>
    simp only
    have hl0 : lookup c s1 a = s.reg a := by simp [lookup, hr, hreg]
    rw [hl0]
    have noInit : ∀ v, (s.ws v).live = true → (s.ws v).obj = some a → (s.ws v).viaInit = false := by
      intro v hv ho
      cases hvi : (s.ws v).viaInit with
      | false => rfl
      | true =>
        have := g1 v hv ho hvi
        rw [if_pos this.1, this.2] at hm; cases hm
    cases hl : s.reg a with
    | some w =>
      simp only
      have r1 := rel s1 (o.own && decide (c.policy = .refcount)) h1
      have r2 := rel _ o.freeAfterCopy r1.1
      have hsw := h.sound a w hl
      refine ⟨r2.1, fun v hv ho => h.uniq w v a hsw.1 hv hsw.2.1 ho, fun _ => ?_⟩
      rw [r2.2, r1.2, hws]
      exact ⟨hsw.1, hsw.2.1⟩
    | none =>
      simp only
      have na : ∀ v, (s.ws v).live = true → (s.ws v).obj ≠ some a := by
        intro v hv ho
        have := h.known v a hv ho (noInit v hv ho)
        rw [hl] at this; cases this
      have hc : RegInv (Lifetime.createWrapper c o s1 a b) := h1.createWrapper hr
        (by rw [hws]; exact na)
        (by rw [hws]; exact fun v hv ho => hal b ⟨v, hv, ho⟩ hb)
      have r2 := rel _ o.freeAfterCopy hc
      refine ⟨r2.1, fun v hv ho => absurd ho (na v hv), fun hcp => ?_⟩
      have hcp : copies c o = false := by
        rcases hcp with e | ⟨v, hv, ho⟩
        · exact e
        · exact absurd ho (na v hv)
      rw [r2.2]
      unfold Lifetime.createWrapper
      simp only
      split
      · simp [newWrapper]
      · next ho =>
        split
        · next hp =>
          split
          · simp [newWrapper]
          · next hre =>
            split
            · next hma =>
              exfalso
              simp [copies, ho, hp, hre, hma] at hcp
            · simp [newWrapper]
        · split <;> simp [newWrapper]

theorem RegInv.step {c s} {e : Ev} (hr : c.registry = true) (h : RegInv s)
    (hal : ∀ a, Wrapped s a → s.heap a ≠ none) (hok : Ok c s e) (hg : GoodReg c s e) :
    RegInv (step c s e) := by
  have fresh : ∀ b, s.heap b = none → ∀ w, (s.ws w).live = true → (s.ws w).obj ≠ some b :=
    fun b hb w hw ho => hal b ⟨w, hw, ho⟩ hb
  cases e with
  | cppNew a =>
    exact h.same rfl rfl rfl (SelfLe.upd a (some ⟨1, 1, none⟩) rfl
      (fun o w e hw => by cases e; cases hw))
  | cppIncref a =>
    exact h.same (by simp [Lifetime.step]) (by simp [Lifetime.step]) (by simp [Lifetime.step])
      ((selfLe_incref s a).trans (selfLe_cppGains _ _ _))
  | cppRelease a =>
    exact h.same (by simp [Lifetime.step]) (by simp [Lifetime.step]) (by simp [Lifetime.step])
      ((selfLe_cppLoses s a).trans (selfLe_release _ _))
  | ret o a b same => exact (h.ret hr hal hok hg).1
  | pyNew =>
    show RegInv (newWrapper s none false)
    refine ⟨?_, ?_, ?_, ?_, ?_⟩
    · intro w a hl ho hv
      simp only [newWrapper] at hl ho hv ⊢
      by_cases e : w = s.next
      · subst e; rw [upd_same] at ho; cases ho
      · rw [upd_ne _ _ e] at hl ho hv; exact h.known w a hl ho hv
    · intro a w ha
      have := h.sound a w ha
      simp only [newWrapper]
      rw [upd_ne _ _ (by have := h.lt this.1; omega)]
      exact this
    · intro w v a hlw hlv how hov
      simp only [newWrapper] at hlw hlv how hov
      have e1 : w ≠ s.next := by rintro rfl; rw [upd_same] at how; cases how
      have e2 : v ≠ s.next := by rintro rfl; rw [upd_same] at hov; cases hov
      rw [upd_ne _ _ e1] at hlw how
      rw [upd_ne _ _ e2] at hlv hov
      exact h.uniq w v a hlw hlv how hov
    · intro a o w ha hw
      have := h.self a o w ha hw
      simp only [newWrapper]
      rw [upd_ne _ _ (by have := h.lt this.1; omega)]
      exact this
    · intro w hw
      simp only [newWrapper] at hw ⊢
      rw [upd_ne _ _ (by omega)]
      exact h.dead w (by omega)
  | pyInit w a hh =>
    obtain ⟨hw, ha, _⟩ := hok
    have hg : (s.ws w).obj = none := hg.2
    have h1 := h.assign w a { s.ws w with obj := some a, notOwned := false, viaInit := true }
      ⟨rfl, hw, rfl⟩ hw (Or.inr hg) (fresh a ha)
    show RegInv (pyInit s w a hh)
    refine ⟨h1.known, h1.sound, h1.uniq, ?_, h1.dead⟩
    intro b o v hb hv
    simp only [pyInit, alloc, upd_apply] at hb ⊢
    by_cases e : v = w
    · simp [e, hw]
    · rw [if_neg e]
      split at hb
      · cases hb
        simp only at hv
        split at hv
        · exact absurd (Option.some.inj hv).symm e
        · cases hv
      · exact h.self b o v hb hv
  | pyCopy w b =>
    obtain ⟨_, _, hb, _⟩ := hok
    exact (h.same (t := alloc s b none) rfl rfl rfl (selfLe_alloc s b)).create hr b _ (fresh b hb)
  | transfer w =>
    obtain ⟨hw, a, ho, ha⟩ := hok
    show RegInv (transfer c s w)
    unfold transfer
    rw [ho]
    simp only
    split
    · have h1 := h.lose w { s.ws w with obj := none } (upd s.reg a none) hw (Or.inl rfl) rfl
        (fun e => by simp only at e; rw [hw] at e; cases e) (Or.inr ⟨a, ho, rfl⟩) (Or.inl hw)
      have e : setObj (unregister c s (some a)) w none =
          { s with ws := upd s.ws w { s.ws w with obj := none }, reg := upd s.reg a none } := by
        simp [setObj, unregister, hr]
      rw [e]
      split
      · exact h1
      · exact h1.same (by simp) (by simp) (by simp) (selfLe_cppGains _ _ _)
    · exact h.same (by simp) (by simp) (by simp)
        ((selfLe_incref s a).trans (selfLe_cppGains _ _ _))
  | clear w =>
    have hg := hg.2
    have hw : (s.ws w).live = true := hok
    show RegInv (deleteCode c s w)
    have ⟨d1, d2, d3⟩ := deleteCode_any c s w
    rcases d1 with d1 | d1
    · exact h.same d1 d3 d2 (selfLe_deleteCode c s w)
    · have h1 := h.lose w { s.ws w with obj := none } s.reg hw (Or.inl rfl) rfl
        (fun e => by simp only at e; rw [hw] at e; cases e) (Or.inl ⟨rfl, by
          cases ho : (s.ws w).obj with
          | none => exact Or.inl rfl
          | some a => exact Or.inr (hg (by simp [ho]))⟩) (Or.inl hw)
      exact h1.same d1 d3 d2 (selfLe_deleteCode c s w)
  | dealloc w =>
    obtain ⟨hw, hp⟩ := hok
    show RegInv (dealloc c s w)
    unfold dealloc
    simp only
    have ⟨d1, d2, d3⟩ := deleteCode_any c (unregister c s (s.ws w).obj) w
    have dself := selfLe_deleteCode c (unregister c s (s.ws w).obj) w
    generalize deleteCode c (unregister c s (s.ws w).obj) w = s2 at d1 d2 d3 dself ⊢
    have e1 : ∃ y : Option Nat, upd s2.ws w { s2.ws w with live := false } =
        upd s.ws w { s.ws w with live := false, obj := y } := by
      rcases d1 with d1 | d1
      · exact ⟨(s.ws w).obj, by rw [d1]; simp⟩
      · exact ⟨none, by rw [d1]; simp [upd_upd]⟩
    obtain ⟨y, e1⟩ := e1
    have h1 := h.lose w { s.ws w with live := false, obj := y } s2.reg hw (Or.inr (Or.inl rfl)) rfl
      (fun _ => hp) (by
        rw [d3]
        cases ho : (s.ws w).obj with
        | none => exact Or.inl ⟨rfl, Or.inl rfl⟩
        | some a => exact Or.inr ⟨a, rfl, by simp [unregister, hr]⟩) (Or.inr rfl)
    refine h1.same e1 rfl (by simpa using d2) ?_
    intro a o v ha hv
    obtain ⟨o', q1, q2⟩ := dself a o v ha hv
    exact ⟨o', by simpa using q1, q2⟩

theorem RegInv.init : RegInv init :=
  ⟨fun _ _ h => by simp [Lifetime.init] at h, fun _ _ h => by simp [Lifetime.init] at h,
   fun _ _ _ h => by simp [Lifetime.init] at h, fun _ _ _ h => by simp [Lifetime.init] at h,
   fun _ _ => rfl⟩

theorem RegInv.run {c s} (hr : c.registry = true) {es : List Ev} (h : RegInv s)
    (hal : ∀ a, Wrapped s a → s.heap a ≠ none) (hh : Handled GoodReg c s es) :
    RegInv (run c s es) ∧ ∀ a, Wrapped (run c s es) a → (run c s es).heap a ≠ none := by
  induction es generalizing s with
  | nil => exact ⟨h, hal⟩
  | cons e es ih => exact ih (h.step hr hal hh.1 hh.2.1) hh.2.1.1 hh.2.2

theorem init_unwrapped (a : Addr) : Wrapped init a → init.heap a ≠ none := by
  rintro ⟨w, hw, _⟩; simp [init] at hw

/-! ### C38 -/

/-- **C38.**  With the `std::map` registry, in every history that stays clear of the situations
listed in `GoodReg`, two live wrappers never hold the same C++ object. -/
theorem C38_one_wrapper_partial (c : Cls) (hr : c.registry = true) (es : List Ev)
    (h : Handled GoodReg c init es) (w v : Wid) (a : Addr)
    (hw : ((run c init es).ws w).live = true) (hv : ((run c init es).ws v).live = true)
    (how : ((run c init es).ws w).obj = some a) (hov : ((run c init es).ws v).obj = some a) :
    w = v :=
  (RegInv.init.run hr init_unwrapped h).1.uniq w v a hw hv how hov

/-- **C38.**  After such a history, returning an object that has a live wrapper gives Python that
same wrapper, and returning any object without copying gives a live wrapper of that object. -/
theorem C38_identity_partial (c : Cls) (hr : c.registry = true) (es : List Ev)
    (h : Handled GoodReg c init es) (o : RetOpts) (a b : Addr) (same : Option Wid)
    (hok : Ok c (run c init es) (.ret o a b same)) (hg : GoodReg c (run c init es) (.ret o a b same)) :
    let r := retObj c o (run c init es) a b same
    (∀ w, ((run c init es).ws w).live = true → ((run c init es).ws w).obj = some a → r.2 = w) ∧
    (copies c o = false → (r.1.ws r.2).live = true ∧ (r.1.ws r.2).obj = some a) := by
  have hi := RegInv.init.run hr init_unwrapped h
  have := hi.1.ret hr hi.2 hok hg
  exact ⟨this.2.1, fun e => this.2.2 (Or.inl e)⟩

/-! Checking concrete histories. -/

/-- No wrapper beyond the last one made is alive. -/
def Dead (s : World) : Prop := ∀ w, s.next ≤ w → (s.ws w).live = false

theorem Dead.same {s t : World} (h : Dead s) (hws : t.ws = s.ws) (hn : t.next = s.next) : Dead t := by
  intro w hw; rw [hws]; exact h w (hn ▸ hw)

theorem Dead.newWrapper {s : World} (h : Dead s) (p no) : Dead (newWrapper s p no) := by
  intro w hw
  simp only [Lifetime.newWrapper] at hw ⊢
  rw [upd_ne _ _ (by omega)]
  exact h w (by omega)

theorem Dead.set {s t : World} (h : Dead s) (w : Wid) (x : Wrapper)
    (hws : t.ws = upd s.ws w x) (hn : t.next = s.next)
    (hx : x.live = true → (s.ws w).live = true) : Dead t := by
  intro v hv
  rw [hws, upd_apply]
  split
  · next e =>
    subst e
    cases hl : x.live with
    | false => rfl
    | true => have := h v (hn ▸ hv); rw [hx hl] at this; cases this
  · exact h v (hn ▸ hv)

theorem Dead.createWrapper {c s} (h : Dead s) (o a b) : Dead (createWrapper c o s a b) := by
  unfold Lifetime.createWrapper
  simp only
  have n : ∀ (t : World), t.ws = s.ws → t.next = s.next → ∀ p no d w,
      Dead (register c (Lifetime.newWrapper t p no) d w) := by
    intro t h1 h2 p no d w
    exact ((h.same h1 h2).newWrapper p no).same (by simp) (by simp)
  split
  · exact n _ rfl rfl _ _ _ _
  · split
    · split
      · exact n _ rfl rfl _ _ _ _
      · split
        · exact n (alloc s b none) rfl rfl _ _ _ _
        · exact n _ rfl rfl _ _ _ _
    · split
      · exact n _ (by simp) (by simp) _ _ _ _
      · exact n _ rfl rfl _ _ _ _

theorem Dead.deleteCode {c s} (h : Dead s) (w) : Dead (deleteCode c s w) := by
  have ⟨d1, d2, _⟩ := deleteCode_any c s w
  rcases d1 with d1 | d1
  · exact h.same d1 d2
  · exact h.set w _ d1 d2 (fun e => e)

theorem Dead.step {c s} {e : Ev} (h : Dead s) : Dead (step c s e) := by
  cases e with
  | cppNew a => exact h.same rfl rfl
  | cppIncref a => exact h.same (by simp [Lifetime.step]) (by simp [Lifetime.step])
  | cppRelease a => exact h.same (by simp [Lifetime.step]) (by simp [Lifetime.step])
  | ret o a b same =>
    show Dead (retObj c o s a b same).1
    unfold retObj
    simp only
    have rel : ∀ (t : World) (p : Bool), Dead t → Dead (if p = true then Lifetime.release t a else t) := by
      intro t p ht
      split
      · exact ht.same (by simp) (by simp)
      · exact ht
    have h1 : Dead (if o.own || o.freeAfterCopy then Lifetime.cppLoses s a else s) := by
      split
      · exact h.same (by simp) (by simp)
      · exact h
    generalize (if o.own || o.freeAfterCopy then Lifetime.cppLoses s a else s) = s1 at h1 ⊢
    apply rel
    split
    · exact rel _ (o.own && decide (c.policy = .refcount)) (h1.set _ _ rfl rfl (fun e => e))
    · split
      · exact rel _ (o.own && decide (c.policy = .refcount)) h1
      · exact h1.createWrapper o a b
  | pyNew => exact h.newWrapper _ _
  | pyInit w a hh => exact h.set w _ rfl rfl (fun e => e)
  | pyCopy w b =>
    exact (Dead.newWrapper (s := alloc s b none) h (some b) false).same (by simp [Lifetime.step, pyCopy])
      (by simp [Lifetime.step, pyCopy])
  | transfer w =>
    show Dead (transfer c s w)
    unfold transfer
    split
    · exact h
    · split
      · simp only
        next a _ _ =>
        have h1 : Dead (setObj (unregister c s (some a)) w none) :=
          Dead.set (s := unregister c s (some a)) (h.same (by simp) (by simp)) w _ rfl rfl (fun e => e)
        split
        · exact h1
        · exact h1.same (by simp) (by simp)
      · exact h.same (by simp) (by simp)
  | clear w => exact h.deleteCode w
  | dealloc w =>
    show Dead (dealloc c s w)
    unfold dealloc
    simp only
    have h1 : Dead (Lifetime.deleteCode c (unregister c s (s.ws w).obj) w) :=
      Dead.deleteCode (h.same (by simp) (by simp)) w
    exact h1.set w _ rfl rfl (fun e => by cases e)

/-- Boolean version of `GoodReg`. -/
def goodRegB (c : Cls) (s : World) (e : Ev) : Bool :=
  (List.range (step c s e).next).all (fun w => !((step c s e).ws w).live ||
    ((step c s e).ws w).obj.all (fun a => ((step c s e).heap a).isSome)) &&
  match e with
  | .ret _ a _ same =>
      (List.range s.next).all (fun w => !((s.ws w).live && (s.ws w).obj == some a &&
        (s.ws w).viaInit) || (c.helper && same == some w)) &&
      (match same with
       | none => true
       | some w => !c.helper || (s.ws w).obj == some a)
  | .pyInit w _ _ => (s.ws w).obj == none
  | .clear w => (s.ws w).obj == none || (s.ws w).viaInit
  | _ => true

theorem goodReg_of_B {c s} {e : Ev} (hd : Dead s) (h : goodRegB c s e = true) : GoodReg c s e := by
  have lt : ∀ (t : World), Dead t → ∀ w, (t.ws w).live = true → w ∈ List.range t.next := by
    intro t ht w hw
    rw [List.mem_range]
    by_contra hn
    rw [ht w (by omega)] at hw; cases hw
  simp only [goodRegB, Bool.and_eq_true] at h
  refine ⟨?_, ?_⟩
  · rintro a ⟨w, hw, ho⟩ hn
    have := List.all_eq_true.1 h.1 w (lt _ hd.step w hw)
    rw [hw, ho] at this
    simp [hn] at this
  · have h2 := h.2
    cases e with
    | ret o a b same =>
      simp only [Bool.and_eq_true] at h2
      refine ⟨fun w hw ho hv => ?_, fun w hh hs => ?_⟩
      · have := List.all_eq_true.1 h2.1 w (lt _ hd w hw)
        rw [hw, ho, hv] at this
        simpa using this
      · subst hs
        have := h2.2
        simp only [hh, Bool.not_true, Bool.false_or, beq_iff_eq] at this
        exact Or.inl this
    | pyInit w a hh => simpa using h2
    | clear w =>
      simp only [Bool.or_eq_true, beq_iff_eq] at h2
      intro hn
      rcases h2 with e | e
      · exact absurd e hn
      · exact e
    | _ => trivial

theorem handledReg_of_B {c s} {es : List Ev} (hs : NoSelf s) (hd : Dead s)
    (h : handledB goodRegB c s es = true) : Handled GoodReg c s es := by
  induction es generalizing s with
  | nil => trivial
  | cons e es ih =>
    simp only [handledB, Bool.and_eq_true] at h
    exact ⟨ok_of_okB hs h.1.1, goodReg_of_B hd h.1.2, ih (hs.step h.1.1) hd.step h.2⟩

theorem Dead.init : Dead init := fun _ _ => rfl

/-- Objects kept by C++ are returned again and again, one is given away, one is constructed in
Python and given to C++, wrappers die. -/
def sampleHistory : List Ev :=
  [.cppNew 1, .ret referencing 1 9 none, .cppNew 2, .ret owning 2 9 none, .ret referencing 1 9 none,
   .ret managing 2 9 none, .pyCopy 1 3, .pyNew, .pyInit 3 4 false, .transfer 3, .dealloc 0,
   .ret referencing 1 9 none, .ret referencing 4 9 none]

example : Handled GoodReg plain init sampleHistory :=
  handledReg_of_B NoSelf.init Dead.init (by decide)

example (w v : Wid) (a : Addr) (hw : ((run plain init sampleHistory).ws w).live = true)
    (hv : ((run plain init sampleHistory).ws v).live = true)
    (how : ((run plain init sampleHistory).ws w).obj = some a)
    (hov : ((run plain init sampleHistory).ws v).obj = some a) : w = v :=
  C38_one_wrapper_partial plain rfl _ (handledReg_of_B NoSelf.init Dead.init (by decide)) w v a hw hv
    how hov

example : (retObj plain referencing (run plain init sampleHistory) 1 9 none).2 = 4 :=
  (C38_identity_partial plain rfl sampleHistory (handledReg_of_B NoSelf.init Dead.init (by decide))
    referencing 1 9 none
    ⟨rfl, ⟨⟨1, 1, none⟩, by decide, Or.inr rfl, by simp [referencing]⟩, by decide⟩
    (goodReg_of_B (by
      intro w hw
      have := (RegInv.init.run (c := plain) rfl init_unwrapped
        (handledReg_of_B NoSelf.init Dead.init (es := sampleHistory) (by decide))).1.dead w hw
      exact this) (by decide))).1 4 (by decide) (by decide)

/-! ### Where C38 fails -/

/-- **C38 is false for objects constructed in Python.**  `__init__` does not register the wrapper:
when C++ returns the object, a second wrapper is made. -/
theorem C38_constructor_counterexample :
    ∃ es, Legal counted init es ∧ ∃ w v a, w ≠ v ∧
      ((run counted init es).ws w).live = true ∧ ((run counted init es).ws v).live = true ∧
      ((run counted init es).ws w).obj = some a ∧ ((run counted init es).ws v).obj = some a :=
  ⟨[.pyNew, .pyInit 0 1 false, .transfer 0, .ret managing 1 9 none],
    legal_of_B NoSelf.init (by decide), 0, 1, 1, by decide, by decide, by decide, by decide, by decide⟩

/-- **C38: the death of one wrapper unregisters another.**  After the wrapper made by `__init__`
dies, the registered wrapper of the same object is forgotten and a third one is made. -/
theorem C38_unregister_counterexample :
    ∃ es, Legal counted init es ∧ ∃ w v a, w ≠ v ∧
      ((run counted init es).ws w).live = true ∧ ((run counted init es).ws v).live = true ∧
      ((run counted init es).ws w).obj = some a ∧ ((run counted init es).ws v).obj = some a ∧
      ((run counted init es).ws w).viaInit = false ∧ ((run counted init es).ws v).viaInit = false :=
  ⟨[.pyNew, .pyInit 0 1 false, .transfer 0, .ret managing 1 9 none, .dealloc 0, .ret managing 1 9 none],
    legal_of_B NoSelf.init (by decide), 1, 2, 1, by decide, by decide, by decide, by decide, by decide,
    by decide, by decide⟩

/-- **C38: a wrapper cleared by the garbage collector stays registered**, so that after its death
the registry gives out freed memory. -/
theorem C38_clear_counterexample :
    ∃ es, Legal counted init es ∧ ∃ a w, lookup counted (run counted init es) a = some w ∧
      ((run counted init es).ws w).live = false :=
  ⟨[.cppNew 1, .ret managing 1 9 none, .clear 0, .dealloc 0],
    legal_of_B NoSelf.init (by decide), 1, 0, by decide, by decide⟩

/-- **C38: an instance of a Python subclass returned as its base class** is not recognised as a
helper object of the declared class and gets a second wrapper. -/
theorem C38_base_pointer_counterexample :
    ∃ es, Legal virt init es ∧ ∃ w v a, w ≠ v ∧
      ((run virt init es).ws w).live = true ∧ ((run virt init es).ws v).live = true ∧
      ((run virt init es).ws w).obj = some a ∧ ((run virt init es).ws v).obj = some a :=
  ⟨[.pyNew, .pyInit 0 1 true, .ret referencing 1 9 none],
    ⟨trivial, ⟨rfl, rfl, fun _ => rfl⟩,
      ⟨rfl, ⟨_, rfl, Or.inr rfl, fun h => by rcases h with h | h <;> cases h⟩, rfl⟩, trivial⟩,
    0, 1, 1, by decide, by decide, by decide, by decide, by decide⟩

/-- **C38: without registry** (the default) every return makes a new wrapper. -/
theorem C38_null_registry_counterexample :
    ∃ es, Legal plainNull init es ∧ ∃ w v a, w ≠ v ∧
      ((run plainNull init es).ws w).live = true ∧ ((run plainNull init es).ws v).live = true ∧
      ((run plainNull init es).ws w).obj = some a ∧ ((run plainNull init es).ws v).obj = some a :=
  ⟨[.cppNew 1, .ret referencing 1 9 none, .ret referencing 1 9 none],
    legal_of_B NoSelf.init (by decide), 0, 1, 1, by decide, by decide, by decide, by decide, by decide⟩

end Verif.Lifetime
