import Verif.Runtime.Lifetime

/-!
# Ownership of C++ objects (C45)
-/
namespace Verif.Lifetime

/-! ### Counting owners -/

theorem countP_update (n : Nat) (p q : Nat → Bool) (w : Nat) (hw : w < n)
    (h : ∀ x, x ≠ w → p x = q x) :
    (List.range n).countP p + (q w).toNat = (List.range n).countP q + (p w).toNat := by
  induction n with
  | zero => omega
  | succ n ih =>
    rw [List.range_succ, List.countP_append, List.countP_append, List.countP_singleton,
      List.countP_singleton]
    by_cases hn : w = n
    · subst hn
      have : (List.range w).countP p = (List.range w).countP q := by
        apply List.countP_congr
        intro x hx
        rw [h x (by have := List.mem_range.1 hx; omega)]
      rw [this]
      cases p w <;> cases q w <;> simp
    · have := ih (by omega)
      rw [h n (Ne.symm hn)]
      omega

theorem countP_same (n : Nat) (p q : Nat → Bool) (h : ∀ x, x < n → p x = q x) :
    (List.range n).countP p = (List.range n).countP q := by
  apply List.countP_congr
  intro x hx
  rw [h x (List.mem_range.1 hx)]

/-- The accounting invariant.  Every reference to a live object is held either by C++ code or by
one owning wrapper, except that one reference to the object at `k`, if given, is in transit; no
owning wrapper points to a dead object. -/
structure Bal (c : Cls) (s : World) (k : Option Addr) : Prop where
  bad : s.bad = false
  dead : ∀ w, s.next ≤ w → (s.ws w).live = false
  refs : ∀ a o, s.heap a = some o →
    o.refs = o.cpp + owners s a + (if k = some a then 1 else 0) ∧ 0 < o.refs
  gone : ∀ a, s.heap a = none → owners s a = 0
  alive : ∀ a, k = some a → s.heap a ≠ none
  flag : c.policy ≠ .none → ∀ w, (s.ws w).live → (s.ws w).notOwned = false

theorem Bal.init (c : Cls) : Bal c init none :=
  ⟨rfl, fun _ _ => rfl, fun _ _ h => by simp [Lifetime.init] at h,
   fun _ _ => by simp [owners, Lifetime.init], by simp, fun _ _ h => by simp [Lifetime.init] at h⟩

/-! Effects of the primitives on the fields. -/

@[simp] theorem register_ws (c s a w) : (register c s a w).ws = s.ws := by
  unfold register; split <;> rfl
@[simp] theorem register_next (c s a w) : (register c s a w).next = s.next := by
  unfold register; split <;> rfl
@[simp] theorem register_heap (c s a w) : (register c s a w).heap = s.heap := by
  unfold register; split <;> rfl
@[simp] theorem register_bad (c s a w) : (register c s a w).bad = s.bad := by
  unfold register; split <;> rfl
@[simp] theorem unregister_ws (c s a) : (unregister c s a).ws = s.ws := by
  unfold unregister; split <;> [rfl; (split <;> rfl)]
@[simp] theorem unregister_next (c s a) : (unregister c s a).next = s.next := by
  unfold unregister; split <;> [rfl; (split <;> rfl)]
@[simp] theorem unregister_heap (c s a) : (unregister c s a).heap = s.heap := by
  unfold unregister; split <;> [rfl; (split <;> rfl)]
@[simp] theorem unregister_bad (c s a) : (unregister c s a).bad = s.bad := by
  unfold unregister; split <;> [rfl; (split <;> rfl)]
@[simp] theorem release_ws (s a) : (release s a).ws = s.ws := by
  unfold release; split <;> [rfl; (split <;> rfl)]
@[simp] theorem release_next (s a) : (release s a).next = s.next := by
  unfold release; split <;> [rfl; (split <;> rfl)]
@[simp] theorem release_reg (s a) : (release s a).reg = s.reg := by
  unfold release; split <;> [rfl; (split <;> rfl)]
@[simp] theorem incref_ws (s a) : (incref s a).ws = s.ws := by unfold incref; split <;> rfl
@[simp] theorem incref_next (s a) : (incref s a).next = s.next := by unfold incref; split <;> rfl
@[simp] theorem incref_reg (s a) : (incref s a).reg = s.reg := by unfold incref; split <;> rfl
@[simp] theorem cppGains_ws (s a d) : (cppGains s a d).ws = s.ws := by
  unfold cppGains; split <;> rfl
@[simp] theorem cppGains_next (s a d) : (cppGains s a d).next = s.next := by
  unfold cppGains; split <;> rfl
@[simp] theorem cppGains_reg (s a d) : (cppGains s a d).reg = s.reg := by
  unfold cppGains; split <;> rfl
@[simp] theorem cppGains_bad (s a d) : (cppGains s a d).bad = s.bad := by
  unfold cppGains; split <;> rfl
@[simp] theorem cppLoses_ws (s a) : (cppLoses s a).ws = s.ws := by unfold cppLoses; split <;> rfl
@[simp] theorem cppLoses_next (s a) : (cppLoses s a).next = s.next := by
  unfold cppLoses; split <;> rfl
@[simp] theorem cppLoses_reg (s a) : (cppLoses s a).reg = s.reg := by
  unfold cppLoses; split <;> rfl
@[simp] theorem cppLoses_bad (s a) : (cppLoses s a).bad = s.bad := by
  unfold cppLoses; split <;> rfl

theorem owners_congr {s t : World} (hn : s.next = t.next)
    (h : ∀ w, w < t.next → ∀ a, Owns s w a = Owns t w a) (a : Addr) : owners s a = owners t a := by
  unfold owners
  rw [hn]
  exact countP_same _ _ _ (fun x hx => h x hx a)

theorem owners_of_ws {s t : World} (hn : s.next = t.next) (h : s.ws = t.ws) (a : Addr) :
    owners s a = owners t a :=
  owners_congr hn (fun w _ a => by simp [Owns, h]) a

theorem owners_newWrapper {s : World} (p : Option Addr) (no : Bool) (a : Addr) :
    owners (newWrapper s p no) a = owners s a + (if p = some a ∧ no = false then 1 else 0) := by
  unfold owners
  show (List.range (s.next + 1)).countP _ = _
  rw [List.range_succ, List.countP_append, List.countP_singleton]
  congr 1
  · apply countP_same
    intro x hx
    simp only [Owns, newWrapper]
    rw [upd_ne _ _ (by omega)]
  · simp only [Owns, newWrapper, upd_same, Wrapper.owns]
    by_cases h : p = some a <;> cases no <;> simp [h]

/-- Changing one wrapper changes the count by at most that wrapper. -/
theorem owners_setWs {s : World} (w : Wid) (hw : w < s.next) (x : Wrapper) (a : Addr) :
    owners { s with ws := upd s.ws w x } a + (Owns s w a).toNat =
      owners s a + (Owns { s with ws := upd s.ws w x } w a).toNat := by
  unfold owners
  apply countP_update _ _ _ _ hw
  intro y hy
  simp [Owns, upd_ne _ _ hy]

theorem owners_pos {s : World} {w : Wid} {a : Addr} (hw : w < s.next) (h : Owns s w a = true) :
    0 < owners s a := by
  unfold owners
  exact List.countP_pos_iff.2 ⟨w, List.mem_range.2 hw, h⟩

theorem exists_owner {s : World} {a : Addr} (h : 0 < owners s a) :
    ∃ w, w < s.next ∧ Owns s w a = true := by
  obtain ⟨w, hw, h⟩ := List.countP_pos_iff.1 h
  exact ⟨w, List.mem_range.1 hw, h⟩

theorem Bal.lt {c s k} (h : Bal c s k) {w : Wid} (hw : (s.ws w).live = true) : w < s.next := by
  by_contra hn
  rw [h.dead w (by omega)] at hw; cases hw

/-- Only the heap changed, and only at `a`. -/
theorem Bal.heapAt {c s k} (h : Bal c s k) (a : Addr) (x : Option Obj) (t : World)
    (hws : t.ws = s.ws) (hnext : t.next = s.next) (hbad : t.bad = false)
    (hheap : t.heap = upd s.heap a x) (k' : Option Addr)
    (hk : ∀ b, b ≠ a → (k' = some b ↔ k = some b))
    (hx : ∀ o, x = some o → o.refs = o.cpp + owners s a + (if k' = some a then 1 else 0) ∧ 0 < o.refs)
    (hg : x = none → owners s a = 0 ∧ k' ≠ some a) : Bal c t k' := by
  have ho : ∀ b, owners t b = owners s b := owners_of_ws hnext hws
  refine ⟨hbad, ?_, ?_, ?_, ?_, ?_⟩
  · rw [hws, hnext]; exact h.dead
  · intro b o hb
    rw [hheap, upd_apply] at hb
    rw [ho]
    split at hb
    · next e => subst e; exact hx o hb
    · next e =>
      have := h.refs b o hb
      simpa only [hk b e] using this
  · intro b hb
    rw [hheap, upd_apply] at hb
    rw [ho]
    split at hb
    · next e => subst e; exact (hg hb).1
    · exact h.gone b hb
  · intro b hb
    rw [hheap, upd_apply]
    split
    · next e => subst e; intro hx0; exact (hg hx0).2 hb
    · next e => exact h.alive b ((hk b e).1 hb)
  · rw [hws]; exact h.flag

theorem Bal.release {c s a} (h : Bal c s (some a)) : Bal c (release s a) none := by
  unfold Lifetime.release
  cases ha : s.heap a with
  | none => exact absurd ha (h.alive a rfl)
  | some o =>
    have ⟨h1, h2⟩ := h.refs a o ha
    simp only [if_true] at h1
    simp only
    split
    · refine h.heapAt a none { s with heap := upd s.heap a none } rfl rfl h.bad rfl none (by simp; exact fun b hb e => hb e.symm) (by simp) (fun _ => ⟨by omega, by simp⟩)
    · refine h.heapAt a (some { o with refs := o.refs - 1 }) { s with heap := upd s.heap a (some { o with refs := o.refs - 1 }) } rfl rfl h.bad rfl none
        (by simp; exact fun b hb e => hb e.symm) ?_ (by simp)
      intro o' ho'
      cases ho'
      simp
      omega

theorem Bal.incref {c s a} (h : Bal c s none) (ha : s.heap a ≠ none) :
    Bal c (incref s a) (some a) := by
  unfold Lifetime.incref
  cases ho : s.heap a with
  | none => exact absurd ho ha
  | some o =>
    have ⟨h1, h2⟩ := h.refs a o ho
    refine h.heapAt a (some { o with refs := o.refs + 1 }) { s with heap := upd s.heap a (some { o with refs := o.refs + 1 }) } rfl rfl h.bad rfl (some a)
      (by simp; exact fun b hb e => hb e.symm) ?_ (by simp)
    intro o' ho'
    cases ho'
    simp at h1 ⊢
    omega

theorem Bal.cppGains {c s a} (h : Bal c s (some a)) : Bal c (cppGains s a 1) none := by
  unfold Lifetime.cppGains
  cases ho : s.heap a with
  | none => exact absurd ho (h.alive a rfl)
  | some o =>
    have ⟨h1, h2⟩ := h.refs a o ho
    refine h.heapAt a (some { o with cpp := o.cpp + 1 }) { s with heap := upd s.heap a (some { o with cpp := o.cpp + 1 }) } rfl rfl h.bad rfl none
      (by simp; exact fun b hb e => hb e.symm) ?_ (by simp)
    intro o' ho'
    cases ho'
    simp at h1 ⊢
    omega

theorem Bal.cppLoses {c s a o} (h : Bal c s none) (ho : s.heap a = some o) (hc : 0 < o.cpp) :
    Bal c (cppLoses s a) (some a) := by
  unfold Lifetime.cppLoses
  rw [ho]
  have ⟨h1, h2⟩ := h.refs a o ho
  refine h.heapAt a (some { o with cpp := o.cpp - 1 }) { s with heap := upd s.heap a (some { o with cpp := o.cpp - 1 }) } rfl rfl h.bad rfl (some a)
    (by simp; exact fun b hb e => hb e.symm) ?_ (by simp)
  intro o' ho'
  cases ho'
  simp at h1 ⊢
  omega

/-- A wrapper is created; `k'` is in transit afterwards. -/
theorem Bal.newWrapper {c s k} (h : Bal c s k) (p : Option Addr) (no : Bool) (k' : Option Addr)
    (hk : ∀ a, (if k = some a then 1 else 0) =
      (if p = some a ∧ no = false then 1 else 0) + (if k' = some a then 1 else 0))
    (hf : c.policy ≠ .none → no = false) : Bal c (newWrapper s p no) k' := by
  refine ⟨h.bad, ?_, ?_, ?_, ?_, ?_⟩
  · intro w hw
    simp only [Lifetime.newWrapper] at hw ⊢
    rw [upd_ne _ _ (by omega)]
    exact h.dead w (by omega)
  · intro a o ha
    have ⟨h1, h2⟩ := h.refs a o ha
    rw [owners_newWrapper]
    have := hk a
    omega
  · intro a ha
    rw [owners_newWrapper, h.gone a ha]
    have := hk a
    have h3 : k ≠ some a := fun e => h.alive a e ha
    rw [if_neg h3] at this
    omega
  · intro a ha
    have := hk a
    rw [if_pos ha] at this
    apply h.alive a
    by_contra hn
    rw [if_neg hn] at this
    omega
  · intro hp w hw
    simp only [Lifetime.newWrapper] at hw ⊢
    by_cases hwn : w = s.next
    · subst hwn; simp only [upd_same]; exact hf hp
    · rw [upd_ne _ _ hwn] at hw ⊢; exact h.flag hp w hw

theorem Bal.newOwner {c s a} (h : Bal c s (some a)) : Bal c (Lifetime.newWrapper s (some a) false) none :=
  h.newWrapper _ _ _ (by intro b; simp) (fun _ => rfl)

theorem Bal.newRef {c s k} (h : Bal c s k) (hp : c.policy = .none) (p : Option Addr) :
    Bal c (Lifetime.newWrapper s p true) k :=
  h.newWrapper _ _ _ (by intro b; simp) (fun h => absurd hp h)

theorem Bal.newNull {c s k} (h : Bal c s k) : Bal c (Lifetime.newWrapper s none false) k :=
  h.newWrapper _ _ _ (by intro b; simp) (fun _ => rfl)

theorem Bal.register {c s k} (h : Bal c s k) (a w) : Bal c (register c s a w) k :=
  ⟨by simpa using h.bad, by simpa using h.dead, by
    intro b o hb
    rw [owners_of_ws (register_next c s a w) (register_ws c s a w)]
    exact h.refs b o (by simpa using hb), by
    intro b hb
    rw [owners_of_ws (register_next c s a w) (register_ws c s a w)]
    exact h.gone b (by simpa using hb), by simpa using h.alive, by simpa using h.flag⟩

theorem Bal.unregister {c s k} (h : Bal c s k) (p) : Bal c (unregister c s p) k :=
  ⟨by simpa using h.bad, by simpa using h.dead, by
    intro b o hb
    rw [owners_of_ws (unregister_next c s p) (unregister_ws c s p)]
    exact h.refs b o (by simpa using hb), by
    intro b hb
    rw [owners_of_ws (unregister_next c s p) (unregister_ws c s p)]
    exact h.gone b (by simpa using hb), by simpa using h.alive, by simpa using h.flag⟩

/-- A new object held by a new wrapper. -/
theorem Bal.newBoth {c s k b} (h : Bal c s k) (hb : s.heap b = none) (q : Option Wid) :
    Bal c (Lifetime.newWrapper (alloc s b q) (some b) false) k := by
  have hkb : k ≠ some b := fun e => h.alive b e hb
  refine ⟨h.bad, ?_, ?_, ?_, ?_, ?_⟩
  · intro w hw
    simp only [Lifetime.newWrapper, alloc] at hw ⊢
    rw [upd_ne _ _ (by omega)]
    exact h.dead w (by omega)
  · intro a o ha
    rw [owners_newWrapper, owners_of_ws (s := alloc s b q) (t := s) rfl rfl]
    simp only [Lifetime.newWrapper, alloc, upd_apply] at ha
    split at ha
    · next e => subst e; cases ha; simp [hkb, h.gone a hb]
    · next e =>
      have := h.refs a o ha
      simp only [Option.some.injEq, Ne.symm e, false_and, if_false]
      omega
  · intro a ha
    rw [owners_newWrapper, owners_of_ws (s := alloc s b q) (t := s) rfl rfl]
    simp only [Lifetime.newWrapper, alloc, upd_apply] at ha
    split at ha
    · cases ha
    · next e =>
      simp only [Option.some.injEq, Ne.symm e, false_and, if_false]
      exact h.gone a ha
  · intro a ha
    simp only [Lifetime.newWrapper, alloc, upd_apply]
    split
    · simp
    · exact h.alive a ha
  · intro hp w hw
    simp only [Lifetime.newWrapper, alloc] at hw ⊢
    by_cases hwn : w = s.next
    · subst hwn; simp only [upd_same]
    · rw [upd_ne _ _ hwn] at hw ⊢; exact h.flag hp w hw

/-- A wrapper changes. -/
theorem Bal.setWs {c s k} (h : Bal c s k) (w : Wid) (hw : (s.ws w).live = true) (x : Wrapper)
    (k' : Option Addr)
    (hk : ∀ a, (if k = some a then 1 else 0) + ((s.ws w).owns a).toNat =
      (x.owns a).toNat + (if k' = some a then 1 else 0))
    (hf : c.policy ≠ .none → x.live → x.notOwned = false) :
    Bal c { s with ws := upd s.ws w x } k' := by
  have hlt := h.lt hw
  have key : ∀ a, owners { s with ws := upd s.ws w x } a + ((s.ws w).owns a).toNat =
      owners s a + (x.owns a).toNat := by
    intro a
    have := owners_setWs w hlt x a
    simpa [Owns] using this
  have own0 : ∀ a, ((s.ws w).owns a).toNat ≤ owners s a := by
    intro a
    cases ho : (s.ws w).owns a with
    | false => simp
    | true => have := owners_pos hlt (a := a) ho; simpa using Nat.succ_le_of_lt this
  refine ⟨h.bad, ?_, ?_, ?_, ?_, ?_⟩
  · intro v hv
    simp only at hv ⊢
    rw [upd_ne _ _ (by omega)]
    exact h.dead v hv
  · intro a o ha
    have ⟨h1, h2⟩ := h.refs a o ha
    have := key a; have := hk a
    omega
  · intro a ha
    have h0 := h.gone a ha
    have h3 : k ≠ some a := fun e => h.alive a e ha
    have := key a; have h5 := hk a; have := own0 a
    rw [if_neg h3] at h5
    omega
  · intro a ha hn
    have h0 := h.gone a hn
    have h3 : k ≠ some a := fun e => h.alive a e hn
    have h5 := hk a; have := own0 a
    rw [if_neg h3, if_pos ha] at h5
    omega
  · intro hp v hv
    simp only at hv ⊢
    by_cases e : v = w
    · subst e; rw [upd_same] at hv ⊢; exact hf hp hv
    · rw [upd_ne _ _ e] at hv ⊢; exact h.flag hp v hv

theorem owns_none {x : Wrapper} (h : x.obj = none) (a : Addr) : x.owns a = false := by
  simp [Wrapper.owns, h]

theorem owns_notOwned {x : Wrapper} (h : x.notOwned = true) (a : Addr) : x.owns a = false := by
  simp [Wrapper.owns, h]

theorem owns_dead {x : Wrapper} (h : x.live = false) (a : Addr) : x.owns a = false := by
  simp [Wrapper.owns, h]

theorem owns_some {x : Wrapper} {b : Addr} (hl : x.live = true) (ho : x.obj = some b)
    (hn : x.notOwned = false) (a : Addr) : (x.owns a).toNat = if some b = some a then 1 else 0 := by
  simp only [Wrapper.owns, hl, ho, hn, Bool.true_and, Bool.not_false, Bool.and_true]
  by_cases h : b = a <;> simp [h]

/-- The wrapper lets go of its object. -/
theorem Bal.drop {c s} (h : Bal c s none) {w : Wid} (hw : (s.ws w).live = true) {a : Addr}
    (ho : (s.ws w).obj = some a) (hn : (s.ws w).notOwned = false) :
    Bal c (setObj s w none) (some a) := by
  apply h.setWs w hw
  · intro b
    rw [owns_some hw ho hn, owns_none rfl]
    simp
  · intro hp _; exact h.flag hp w hw

theorem Bal.dropNothing {c s k} (h : Bal c s k) {w : Wid} (hw : (s.ws w).live = true)
    (hn : (s.ws w).notOwned = true ∨ (s.ws w).obj = none) :
    Bal c (setObj s w none) k := by
  apply h.setWs w hw
  · intro b
    have : (s.ws w).owns b = false := by
      rcases hn with hn | hn
      · exact owns_notOwned hn b
      · exact owns_none hn b
    rw [this, owns_none rfl]
    simp
  · intro hp _; exact h.flag hp w hw

/-- Which fields the delete code leaves alone, and that it clears `obj`. -/
theorem deleteCode_ws {c : Cls} (hf : Freeable c) (s : World) (w : Wid) :
    (deleteCode c s w).ws = upd s.ws w { s.ws w with obj := none } ∧
    (deleteCode c s w).next = s.next ∧ (deleteCode c s w).reg = s.reg := by
  have self : ∀ x : Wrapper, s.ws w = x → upd s.ws w x = s.ws := by
    intro x hx
    funext y
    rw [upd_apply]
    split
    · next e => rw [e, hx]
    · rfl
  have hs : ¬ c.singleton = true := by rw [hf.1]; simp
  unfold deleteCode
  rw [if_neg hs]
  cases hp : c.policy with
  | none =>
    simp only [hf.2 hp, if_true]
    split
    · exact ⟨rfl, rfl, rfl⟩
    · split <;> simp [setObj]
  | free =>
    simp only
    cases ho : (s.ws w).obj with
    | none =>
      refine ⟨(self _ ?_).symm, rfl, rfl⟩
      cases h : s.ws w; simp [h] at ho; simp [ho]
    | some a => simp [setObj]
  | refcount =>
    simp only
    cases ho : (s.ws w).obj with
    | none =>
      refine ⟨(self _ ?_).symm, rfl, rfl⟩
      cases h : s.ws w; simp [h] at ho; simp [ho]
    | some a => simp [setObj]

theorem Bal.deleteCode {c s} (hf : Freeable c) (h : Bal c s none) {w : Wid}
    (hw : (s.ws w).live = true) : Bal c (deleteCode c s w) none := by
  have hs : ¬ c.singleton = true := by rw [hf.1]; simp
  unfold Lifetime.deleteCode
  rw [if_neg hs]
  cases hp : c.policy with
  | none =>
    simp only [hf.2 hp, if_true]
    by_cases hn : (s.ws w).notOwned = true
    · rw [if_pos hn]; exact h.dropNothing hw (Or.inl hn)
    · rw [if_neg hn]
      cases ho : (s.ws w).obj with
      | none => exact h.dropNothing hw (Or.inr ho)
      | some a => exact (h.drop hw ho (by simpa using hn)).release
  | free =>
    have hn := h.flag (by rw [hp]; simp) w hw
    cases ho : (s.ws w).obj with
    | none => exact h
    | some a => exact (h.drop hw ho hn).release
  | refcount =>
    have hn := h.flag (by rw [hp]; simp) w hw
    cases ho : (s.ws w).obj with
    | none => exact h
    | some a => exact (h.drop hw ho hn).release

theorem Bal.kill {c s k} (h : Bal c s k) {w : Wid} (hw : (s.ws w).live = true)
    (ho : (s.ws w).obj = none) :
    Bal c { s with ws := upd s.ws w { s.ws w with live := false } } k := by
  apply h.setWs w hw
  · intro b; rw [owns_none ho, owns_dead rfl]; simp
  · intro _ hl; cases hl

theorem Bal.dealloc {c s} (hf : Freeable c) (h : Bal c s none) {w : Wid}
    (hw : (s.ws w).live = true) : Bal c (dealloc c s w) none := by
  have h1 : Bal c (Lifetime.unregister c s (s.ws w).obj) none := h.unregister _
  have hw1 : ((Lifetime.unregister c s (s.ws w).obj).ws w).live = true := by simpa using hw
  have h2 := h1.deleteCode hf hw1
  have e := (deleteCode_ws hf (Lifetime.unregister c s (s.ws w).obj) w).1
  apply h2.kill
  · rw [e, upd_same]; exact hw1
  · rw [e, upd_same]

theorem Bal.createWrapper {c s k} {o : RetOpts} {a b : Addr} (h : Bal c s k)
    (ha : s.heap a ≠ none) (hb : s.heap b = none)
    (hk : k = some a ↔ o.own = true ∨ o.freeAfterCopy = true) (hk' : k = some a ∨ k = none)
    (hx : ¬ (o.own = true ∧ o.freeAfterCopy = true))
    (hm : marksNotOwned c o = true → c.policy = .none)
    (hfa : o.freeAfterCopy = true → c.policy ≠ .refcount) :
    Bal c (createWrapper c o s a b) (if o.own then none else k) := by
  unfold Lifetime.createWrapper
  simp only
  by_cases ho : o.own = true
  · rw [if_pos ho, if_pos ho]
    rw [hk.2 (Or.inl ho)] at h
    exact h.newOwner.register _ _
  · rw [if_neg ho, if_neg ho]
    have ho' : o.own = false := by simpa using ho
    by_cases hp : c.policy = .refcount
    · rw [if_neg (by simp [hp])]
      by_cases hmr : o.manages = true
      · rw [if_pos hmr]
        have hkn : k = none := by
          rcases hk' with e | e
          · rcases hk.1 e with e | e
            · exact absurd e ho
            · exact absurd hp (hfa e)
          · exact e
        subst hkn
        exact (h.incref ha).newOwner.register _ _
      · have : c.policy = .none := hm (by simp [marksNotOwned, ho', hp, hmr])
        rw [hp] at this; cases this
    · rw [if_pos hp]
      by_cases hr : o.refExisting = true
      · rw [if_pos hr]
        exact (h.newRef (hm (by simp [marksNotOwned, ho', hp, hr])) _).register _ _
      · rw [if_neg hr]
        by_cases hmr : o.manages = true
        · rw [if_pos hmr]; exact (h.newBoth hb none).register _ _
        · rw [if_neg hmr]
          exact (h.newRef (hm (by simp [marksNotOwned, ho', hp, hr, hmr])) _).register _ _

theorem cppLoses_heap_ne (s : World) (a b : Addr) : (cppLoses s a).heap b ≠ none ↔ s.heap b ≠ none := by
  unfold cppLoses
  split
  · rfl
  · next o h =>
    simp only [upd_apply]
    split
    · next e => subst e; simp [h]
    · rfl

theorem setObj_same {s : World} {w : Wid} {p : Option Addr} (h : (s.ws w).obj = p) :
    setObj s w p = s := by
  unfold setObj
  have : upd s.ws w { s.ws w with obj := p } = s.ws := by
    funext y
    rw [upd_apply]
    split
    · next e => subst e; cases h2 : s.ws y; simp [h2] at h; simp [h]
    · rfl
  rw [this]

theorem Bal.ret {c s} {o : RetOpts} {a b : Addr} {same : Option Wid} (h : Bal c s none)
    (hok : Ok c s (.ret o a b same)) (hg : GoodMem c s (.ret o a b same)) :
    Bal c (retObj c o s a b same).1 none := by
  obtain ⟨hgen, ⟨x, hx, -, hcpp⟩, hb⟩ := hok
  obtain ⟨g1, g2, g3, g4⟩ := hg
  have hexcl : ¬ (o.own = true ∧ o.freeAfterCopy = true) := by
    rintro ⟨e1, e2⟩
    simp [generates, e1, e2] at hgen
  unfold retObj
  simp only
  -- the reference C++ gave away
  have hs1 : ∃ k, Bal c (if o.own || o.freeAfterCopy then Lifetime.cppLoses s a else s) k ∧
      (k = some a ↔ o.own = true ∨ o.freeAfterCopy = true) ∧ (k = some a ∨ k = none) := by
    by_cases hc : o.own = true ∨ o.freeAfterCopy = true
    · refine ⟨some a, ?_, by simp [hc], Or.inl rfl⟩
      rw [if_pos (by simpa using hc)]
      exact h.cppLoses hx (hcpp hc)
    · refine ⟨none, ?_, by simp [hc], Or.inr rfl⟩
      rw [if_neg (by simpa using hc)]
      exact h
  generalize hse : (if o.own || o.freeAfterCopy then Lifetime.cppLoses s a else s) = s1 at hs1
  obtain ⟨k, hk, hk1, hk2⟩ := hs1
  have hws : s1.ws = s.ws := by rw [← hse]; split <;> simp
  have hreg : s1.reg = s.reg := by rw [← hse]; split <;> simp
  have ha1 : s1.heap a ≠ none := by
    rw [← hse]; split
    · rw [cppLoses_heap_ne]; simp [hx]
    · simp [hx]
  have hb1 : s1.heap b = none := by
    by_contra hn
    apply (fun (hh : s.heap b ≠ none) => hh hb)
    rw [← hse] at hn; split at hn
    · rwa [← Ne, cppLoses_heap_ne] at hn
    · exact hn
  have hlook : lookup c s1 a = lookup c s a := by simp [lookup, hreg]
  -- an existing wrapper was found
  have found : (o.own = true → c.policy = .refcount) →
      Bal c (if o.freeAfterCopy then
        Lifetime.release (if o.own && c.policy = .refcount then Lifetime.release s1 a else s1) a
        else (if o.own && c.policy = .refcount then Lifetime.release s1 a else s1)) none := by
    intro hrc
    by_cases ho : o.own = true
    · have hk3 : k = some a := hk1.2 (Or.inl ho)
      rw [hk3] at hk
      rw [if_neg (fun e => hexcl ⟨ho, e⟩), if_pos (by simp [ho, hrc ho])]
      exact hk.release
    · have hno : ¬ ((o.own && decide (c.policy = .refcount)) = true) := by simp [ho]
      simp only [if_neg hno]
      by_cases hfa : o.freeAfterCopy = true
      · rw [if_pos hfa]
        rw [hk1.2 (Or.inr hfa)] at hk
        exact hk.release
      · rw [if_neg hfa]
        have : k = none := by
          rcases hk2 with e | e
          · rcases hk1.1 e with e | e
            · exact absurd e ho
            · exact absurd e hfa
          · exact e
        rwa [this] at hk
  cases hm : (if c.helper then same else none) with
  | some w =>
    have hh : c.helper = true ∧ same = some w := by
      cases hc : c.helper <;> simp [hc] at hm ⊢; exact hm
    have hsame : setObj s1 w (some a) = s1 := setObj_same (by rw [hws]; exact g2 w hh.2 hh.1)
    simp only [hsame]
    apply found
    intro ho
    by_contra hp
    rcases (g1 ho hp).1 with e | e
    · rw [e] at hh; cases hh.1
    · rw [e] at hh; cases hh.2
  | none =>
    simp only
    cases hl : lookup c s1 a with
    | some w =>
      simp only
      apply found
      intro ho
      by_contra hp
      have := (g1 ho hp).2
      rw [← hlook, hl] at this; cases this
    | none =>
      simp only
      have := hk.createWrapper (o := o) ha1 hb1 hk1 hk2 hexcl g3 g4
      by_cases ho : o.own = true
      · rw [if_pos ho] at this
        rw [if_neg (fun e => hexcl ⟨ho, e⟩)]
        exact this
      · rw [if_neg ho] at this
        by_cases hfa : o.freeAfterCopy = true
        · rw [if_pos hfa]
          rw [hk1.2 (Or.inr hfa)] at this
          exact this.release
        · rw [if_neg hfa]
          have e : k = none := by
            rcases hk2 with e | e
            · rcases hk1.1 e with e | e
              · exact absurd e ho
              · exact absurd e hfa
            · exact e
          rwa [e] at this

theorem Bal.step {c s} (hf : Freeable c) {e : Ev} (h : Bal c s none) (hok : Ok c s e)
    (hg : GoodMem c s e) : Bal c (step c s e) none := by
  cases e with
  | cppNew a =>
    refine h.heapAt a (some ⟨1, 1, none⟩) (Lifetime.step c s (.cppNew a)) rfl rfl h.bad rfl none (by simp) ?_ (by simp)
    intro o ho
    cases ho
    simp [h.gone a hok]
  | cppIncref a =>
    obtain ⟨_, o, ho, _⟩ := hok
    exact (h.incref (by simp [ho])).cppGains
  | cppRelease a =>
    obtain ⟨o, ho, hc⟩ := hok
    exact (h.cppLoses ho hc).release
  | ret o a b same => exact h.ret hok hg
  | pyNew => exact h.newNull
  | pyInit w a hh =>
    obtain ⟨hw, ha, _⟩ := hok
    have hg : (s.ws w).obj = none := hg
    show Bal c (pyInit s w a hh) none
    have h1 : Bal c (alloc s a (if hh then some w else none)) (some a) := by
      refine h.heapAt a (some ⟨1, 0, if hh then some w else none⟩) (alloc s a _) rfl rfl h.bad rfl (some a)
        (by simp; exact fun b hb e => hb e.symm) ?_ (by simp)
      intro o ho
      cases ho
      simp [h.gone a ha]
    refine h1.setWs w (by exact hw) _ none ?_ (fun _ _ => rfl)
    intro b
    have e1 : ((alloc s a (if hh then some w else none)).ws w).owns b = false := owns_none hg b
    rw [e1, owns_some (b := a) (by exact hw) rfl rfl]
    simp
  | pyCopy w b =>
    obtain ⟨_, _, hb, _⟩ := hok
    exact (h.newBoth hb none).register _ _
  | transfer w =>
    obtain ⟨hw, a, ho, ha⟩ := hok
    show Bal c (transfer c s w) none
    unfold transfer
    rw [ho]
    simp only
    by_cases hp : c.policy = .refcount
    · rw [if_neg (by simp [hp])]
      exact (h.incref ha).cppGains
    · rw [if_pos hp]
      have h1 : Bal c (Lifetime.unregister c s (some a)) none := h.unregister _
      have hw1 : ((Lifetime.unregister c s (some a)).ws w).live = true := by simpa using hw
      by_cases hn : (s.ws w).notOwned = true
      · rw [if_pos hn]
        exact h1.dropNothing hw1 (Or.inl (by simpa using hn))
      · rw [if_neg hn]
        exact (h1.drop hw1 (a := a) (by simpa using ho) (by simpa using hn)).cppGains
  | clear w => exact h.deleteCode hf hok
  | dealloc w => exact h.dealloc hf hok.1

theorem Bal.run {c s} (hf : Freeable c) {es : List Ev} (h : Bal c s none)
    (hh : Handled GoodMem c s es) : Bal c (run c s es) none := by
  induction es generalizing s with
  | nil => exact h
  | cons e es ih => exact ih (h.step hf hh.1 hh.2.1) hh.2.2

/-! ### C45 -/

/-- **C45.**  In every history that stays clear of the situations listed in `GoodMem`, no C++
object is ever freed or released once too often. -/
theorem C45_no_double_free_partial (c : Cls) (hf : Freeable c) (es : List Ev)
    (h : Handled GoodMem c init es) : (run c init es).bad = false :=
  ((Bal.init c).run hf h).bad

/-- **C45.**  In every such history, an object that C++ code no longer holds is still alive only
while some live wrapper owns it (nothing leaks), its reference count is the number of references
C++ code holds plus the number of owning wrappers, and an owning wrapper's object is alive. -/
theorem C45_accounting_partial (c : Cls) (hf : Freeable c) (es : List Ev)
    (h : Handled GoodMem c init es) :
    let s := run c init es
    (∀ a o, s.heap a = some o → o.cpp = 0 → ∃ w, Owns s w a = true) ∧
    (∀ a o, s.heap a = some o → o.refs = o.cpp + owners s a) ∧
    (∀ w a, Owns s w a = true → s.heap a ≠ none) := by
  have hb := (Bal.init c).run hf h
  refine ⟨?_, ?_, ?_⟩
  · intro a o ha hc
    have ⟨h1, h2⟩ := hb.refs a o ha
    simp only [reduceCtorEq, if_false] at h1
    obtain ⟨w, _, hw⟩ := exists_owner (s := Lifetime.run c Lifetime.init es) (a := a) (by omega)
    exact ⟨w, hw⟩
  · intro a o ha
    have ⟨h1, h2⟩ := hb.refs a o ha
    simpa using h1
  · intro w a hw hn
    have hl : ((Lifetime.run c Lifetime.init es).ws w).live = true := by
      simp only [Owns, Wrapper.owns, Bool.and_eq_true] at hw
      exact hw.1.1
    have := owners_pos (hb.lt hl) hw
    rw [hb.gone a hn] at this
    exact absurd this (by simp)

/-- A class without memory policy, with everything else usual. -/
def plain : Cls := ⟨.none, false, true, true, false, true⟩
/-- The same without wrapper registry (the default settings). -/
def plainNull : Cls := { plain with registry := false }
/-- A reference counted class. -/
def counted : Cls := { plain with policy := .refcount }
/-- A class with a free function. -/
def freeFn : Cls := { plain with policy := .free }
/-- A class that can be subclassed in Python. -/
def virt : Cls := { plain with helper := true }

def owning : RetOpts := ⟨true, false, true, false⟩
def referencing : RetOpts := ⟨false, true, true, false⟩
def managing : RetOpts := ⟨false, false, true, false⟩
def unmanaged : RetOpts := ⟨false, false, false, false⟩

/-! Decidable versions of the side conditions, to check concrete histories. -/

/-- Boolean version of `Ok` for classes without helper class. -/
def okB (c : Cls) (s : World) : Ev → Bool
  | .cppNew a => s.heap a == none
  | .cppIncref a => c.policy == .refcount && (s.heap a).any (fun o => 0 < o.cpp)
  | .cppRelease a => (s.heap a).any (fun o => 0 < o.cpp)
  | .ret o a b same => generates c o && same == none &&
      (s.heap a).any (fun x => !(o.own || o.freeAfterCopy) || 0 < x.cpp) && s.heap b == none
  | .pyNew => true
  | .pyInit w a h => (s.ws w).live && s.heap a == none && !h
  | .pyCopy w b => (s.ws w).live && c.hasCopy && s.heap b == none &&
      (s.ws w).obj.any (fun a => (s.heap a).isSome)
  | .transfer w => (s.ws w).live && (s.ws w).obj.any (fun a => (s.heap a).isSome)
  | .clear w => (s.ws w).live
  | .dealloc w => (s.ws w).live

/-- Boolean version of `GoodMem`. -/
def goodMemB (c : Cls) (s : World) : Ev → Bool
  | .ret o a _ same =>
      (!o.own || c.policy == .refcount || ((!c.helper || same == none) && lookup c s a == none)) &&
      (match same with | none => true | some w => !c.helper || (s.ws w).obj == some a) &&
      (!marksNotOwned c o || c.policy == .none) && (!o.freeAfterCopy || c.policy != .refcount)
  | .pyInit w _ _ => (s.ws w).obj == none
  | _ => true

/-- Boolean version of `Handled`. -/
def handledB (G : Cls → World → Ev → Bool) (c : Cls) : World → List Ev → Bool
  | _, [] => true
  | s, e :: es => okB c s e && G c s e && handledB G c (step c s e) es

/-- No live object is an instance of the helper class. -/
def NoSelf (s : World) : Prop := ∀ a o, s.heap a = some o → o.pyself = none

theorem NoSelf.upd {s : World} (h : NoSelf s) (a : Addr) (x : Option Obj)
    (hx : ∀ o, x = some o → o.pyself = none) (t : World) (ht : t.heap = Lifetime.upd s.heap a x) :
    NoSelf t := by
  intro b o hb
  rw [ht, upd_apply] at hb
  split at hb
  · exact hx o hb
  · exact h b o hb

theorem NoSelf.release {s} (h : NoSelf s) (a) : NoSelf (release s a) := by
  unfold Lifetime.release
  cases ha : s.heap a with
  | none => exact h
  | some o =>
    simp only
    split
    · exact h.upd a none (by simp) _ rfl
    · exact h.upd a (some { o with refs := o.refs - 1 })
        (fun o' e => by cases e; exact h a o ha) { s with heap := _ } rfl

theorem NoSelf.incref {s} (h : NoSelf s) (a) : NoSelf (incref s a) := by
  unfold Lifetime.incref
  cases ha : s.heap a with
  | none => exact h
  | some o =>
    exact h.upd a (some { o with refs := o.refs + 1 })
      (fun o' e => by cases e; exact h a o ha) { s with heap := _ } rfl

theorem NoSelf.cppGains {s} (h : NoSelf s) (a d) : NoSelf (cppGains s a d) := by
  unfold Lifetime.cppGains
  cases ha : s.heap a with
  | none => exact h
  | some o =>
    exact h.upd a (some { o with cpp := o.cpp + d })
      (fun o' e => by cases e; exact h a o ha) { s with heap := _ } rfl

theorem NoSelf.cppLoses {s} (h : NoSelf s) (a) : NoSelf (cppLoses s a) := by
  unfold Lifetime.cppLoses
  cases ha : s.heap a with
  | none => exact h
  | some o =>
    exact h.upd a (some { o with cpp := o.cpp - 1 })
      (fun o' e => by cases e; exact h a o ha) { s with heap := _ } rfl

theorem NoSelf.of_heap {s t : World} (h : NoSelf s) (e : t.heap = s.heap) : NoSelf t := by
  intro a o ha; rw [e] at ha; exact h a o ha

theorem NoSelf.deleteCode {c s} (h : NoSelf s) (w) : NoSelf (deleteCode c s w) := by
  unfold Lifetime.deleteCode
  split
  · exact h
  · have hs : NoSelf (setObj s w none) := h.of_heap rfl
    split
    · simp only
      split
      · split
        · exact hs
        · split
          · exact hs
          · exact hs.release _
      · exact hs
    · split
      · exact h
      · exact hs.release _
    · split
      · exact h
      · exact hs.release _

theorem NoSelf.newBoth {s : World} (h : NoSelf s) (b) :
    NoSelf (Lifetime.newWrapper (alloc s b none) (some b) false) :=
  h.upd b (some ⟨1, 0, none⟩) (fun o e => by cases e; rfl) _ rfl

theorem NoSelf.createWrapper {c s} (h : NoSelf s) (o a b) : NoSelf (createWrapper c o s a b) := by
  unfold Lifetime.createWrapper
  simp only
  split
  · exact h.of_heap (by simp [newWrapper])
  · split
    · split
      · exact h.of_heap (by simp [newWrapper])
      · split
        · exact (h.newBoth b).of_heap (by simp)
        · exact h.of_heap (by simp [newWrapper])
    · split
      · exact (h.incref a).of_heap (by simp [newWrapper])
      · exact h.of_heap (by simp [newWrapper])

theorem NoSelf.step {c s} {e : Ev} (h : NoSelf s) (hok : okB c s e = true) :
    NoSelf (step c s e) := by
  cases e with
  | cppNew a => exact h.upd a _ (fun o e => by cases e; rfl) _ rfl
  | cppIncref a => exact (h.incref a).cppGains a 1
  | cppRelease a => exact (h.cppLoses a).release a
  | ret o a b same =>
    have hsame : same = none := by
      simp only [okB, Bool.and_eq_true, beq_iff_eq] at hok
      exact hok.1.1.2
    subst hsame
    show NoSelf (retObj c o s a b none).1
    unfold retObj
    simp only [ite_self]
    have h1 : NoSelf (if o.own || o.freeAfterCopy then Lifetime.cppLoses s a else s) := by
      split
      · exact h.cppLoses a
      · exact h
    generalize (if o.own || o.freeAfterCopy then Lifetime.cppLoses s a else s) = s1 at h1 ⊢
    have h2 : NoSelf (match lookup c s1 a with
      | some w => (if o.own && c.policy = Policy.refcount then Lifetime.release s1 a else s1, w)
      | none => (Lifetime.createWrapper c o s1 a b, s1.next)).1 := by
      split
      · simp only
        split
        · exact h1.release a
        · exact h1
      · exact h1.createWrapper o a b
    split
    · exact h2.release a
    · exact h2
  | pyNew => exact h.of_heap rfl
  | pyInit w a hh =>
    have : hh = false := by
      simp only [okB, Bool.and_eq_true, Bool.not_eq_true'] at hok
      exact hok.2
    subst this
    exact h.upd a (some ⟨1, 0, none⟩) (fun o e => by cases e; rfl) _ rfl
  | pyCopy w b => exact (h.newBoth b).of_heap (by simp [Lifetime.step, pyCopy])
  | transfer w =>
    show NoSelf (transfer c s w)
    unfold transfer
    split
    · exact h
    · split
      · simp only
        split
        · exact h.of_heap (by simp [setObj])
        · exact NoSelf.cppGains (h.of_heap (by simp [setObj])) _ _
      · exact (h.incref _).cppGains _ _
  | clear w => exact h.deleteCode w
  | dealloc w =>
    show NoSelf (dealloc c s w)
    unfold dealloc
    simp only
    exact NoSelf.of_heap (NoSelf.deleteCode (s := Lifetime.unregister c s (s.ws w).obj)
      (h.of_heap (by simp)) w) rfl

theorem ok_of_okB {c s} {e : Ev} (h : NoSelf s) (hok : okB c s e = true) : Ok c s e := by
  have any : ∀ {α : Type} (x : Option α) (p : α → Bool), x.any p = true →
      ∃ y, x = some y ∧ p y = true := by
    intro α x p hx
    cases x with
    | none => simp at hx
    | some y => exact ⟨y, rfl, by simpa using hx⟩
  cases e with
  | cppNew a => simpa [okB, Ok] using hok
  | cppIncref a =>
    simp only [okB, Bool.and_eq_true, beq_iff_eq] at hok
    obtain ⟨y, h1, h2⟩ := any _ _ hok.2
    exact ⟨hok.1, y, h1, by simpa using h2⟩
  | cppRelease a =>
    obtain ⟨y, h1, h2⟩ := any _ _ hok
    exact ⟨y, h1, by simpa using h2⟩
  | ret o a b same =>
    simp only [okB, Bool.and_eq_true, beq_iff_eq] at hok
    obtain ⟨y, h1, h2⟩ := any _ _ hok.1.2
    refine ⟨hok.1.1.1, ⟨y, h1, Or.inr hok.1.1.2, fun hc => ?_⟩, hok.2⟩
    simp only [Bool.or_eq_true, Bool.not_eq_true', decide_eq_true_eq, Bool.or_eq_false_iff] at h2
    rcases h2 with h2 | h2
    · rcases hc with e | e
      · rw [h2.1] at e; cases e
      · rw [h2.2] at e; cases e
    · exact h2
  | pyNew => trivial
  | pyInit w a hh =>
    simp only [okB, Bool.and_eq_true, beq_iff_eq, Bool.not_eq_true'] at hok
    exact ⟨hok.1.1, hok.1.2, fun e => by rw [hok.2] at e; cases e⟩
  | pyCopy w b =>
    simp only [okB, Bool.and_eq_true, beq_iff_eq] at hok
    obtain ⟨y, h1, h2⟩ := any _ _ hok.2
    exact ⟨hok.1.1.1, hok.1.1.2, hok.1.2, y, h1, by
      intro hn; rw [hn] at h2; cases h2⟩
  | transfer w =>
    simp only [okB, Bool.and_eq_true] at hok
    obtain ⟨y, h1, h2⟩ := any _ _ hok.2
    exact ⟨hok.1, y, h1, by intro hn; rw [hn] at h2; cases h2⟩
  | clear w => exact hok
  | dealloc w => exact ⟨hok, fun a o ho e => by rw [h a o ho] at e; cases e⟩

theorem goodMem_of_B {c s} {e : Ev} (h : goodMemB c s e = true) : GoodMem c s e := by
  cases e with
  | ret o a b same =>
    simp only [goodMemB, Bool.and_eq_true, Bool.or_eq_true, Bool.not_eq_true', beq_iff_eq,
      bne_iff_ne] at h
    obtain ⟨⟨⟨h1, h2⟩, h3⟩, h4⟩ := h
    refine ⟨fun ho hp => ?_, fun w hw hh => ?_, fun hm => ?_, fun hf => ?_⟩
    · rcases h1 with (e | e) | e
      · rw [ho] at e; cases e
      · exact absurd e hp
      · exact e
    · subst hw
      simp only [Bool.or_eq_true, Bool.not_eq_true', beq_iff_eq] at h2
      rcases h2 with e | e
      · rw [hh] at e; cases e
      · exact e
    · rcases h3 with e | e
      · rw [hm] at e; cases e
      · exact e
    · rcases h4 with e | e
      · rw [hf] at e; cases e
      · exact e
  | pyInit w a hh => simpa [goodMemB, GoodMem] using h
  | _ => trivial

theorem handled_of_B {c s} {es : List Ev} (hs : NoSelf s)
    (h : handledB goodMemB c s es = true) : Handled GoodMem c s es := by
  induction es generalizing s with
  | nil => trivial
  | cons e es ih =>
    simp only [handledB, Bool.and_eq_true] at h
    exact ⟨ok_of_okB hs h.1.1, goodMem_of_B h.1.2, ih (hs.step h.1.1) h.2⟩

theorem legal_of_B {c s} {es : List Ev} (hs : NoSelf s)
    (h : handledB (fun _ _ _ => true) c s es = true) : Legal c s es := by
  induction es generalizing s with
  | nil => trivial
  | cons e es ih =>
    simp only [handledB, Bool.and_eq_true] at h
    exact ⟨ok_of_okB hs h.1.1, ih (hs.step h.1.1) h.2⟩

theorem NoSelf.init : NoSelf init := fun a o h => by simp [Lifetime.init] at h

/-- A wrapper for an object that C++ keeps, then ownership of a second object, a copy, and the
death of all wrappers: nothing is freed twice, the copy and the second object are gone. -/
example : (run plain init [.cppNew 1, .ret referencing 1 9 none, .cppNew 2, .ret owning 2 9 none,
    .pyCopy 1 3, .dealloc 0, .dealloc 1, .dealloc 2, .cppRelease 1]).bad = false :=
  C45_no_double_free_partial plain ⟨rfl, fun _ => rfl⟩ _ (handled_of_B NoSelf.init (by decide))

/-- A reference counted object returned three times, with no registry: three wrappers, four
references. -/
example : let s := run { counted with registry := false } init [.cppNew 1, .ret managing 1 9 none,
      .ret managing 1 9 none, .ret managing 1 9 none]
    ∀ o, s.heap 1 = some o → o.refs = o.cpp + owners s 1 := by
  have h := (C45_accounting_partial { counted with registry := false } ⟨rfl, fun h => by cases h⟩
    [.cppNew 1, .ret managing 1 9 none, .ret managing 1 9 none, .ret managing 1 9 none]
    (handled_of_B NoSelf.init (by decide))).2.1
  exact fun o => h 1 o

/-! #### One wrapper's death -/

/-- **C45.**  What a dying wrapper does to its C++ object, for every class and state: a singleton is
left alone; without memory policy the object is deleted exactly when the wrapper owns it and the
destructor is public; with a memory policy it is freed or unreferenced. -/
theorem C45_dealloc (c : Cls) (s : World) (w : Wid) :
    (dealloc c s w).heap =
      match (s.ws w).obj with
      | none => s.heap
      | some a =>
        if c.singleton = false ∧
           (c.policy = .none → c.dtorPublic = true ∧ (s.ws w).notOwned = false)
        then (release s a).heap else s.heap := by
  have rel : ∀ (t : World) (a : Addr), t.heap = s.heap → (release t a).heap = (release s a).heap := by
    intro t a ht
    unfold release
    rw [ht]
    cases s.heap a with
    | none => simpa using ht
    | some o => simp only; split <;> simp
  unfold dealloc deleteCode
  simp only
  cases hs : c.singleton with
  | true => cases (s.ws w).obj <;> simp
  | false =>
    cases hp : c.policy with
    | none =>
      cases hd : c.dtorPublic with
      | false => cases (s.ws w).obj <;> simp [setObj]
      | true =>
        cases hn : (s.ws w).notOwned with
        | true => cases (s.ws w).obj <;> simp [setObj, hn]
        | false =>
          cases ho : (s.ws w).obj with
          | none => simp [setObj, hn, ho]
          | some a => simp [hn, ho]; exact rel _ a (by simp [setObj])
    | free =>
      cases ho : (s.ws w).obj with
      | none => simp [ho]
      | some a => simp [ho]; exact rel _ a (by simp [setObj])
    | refcount =>
      cases ho : (s.ws w).obj with
      | none => simp [ho]
      | some a => simp [ho]; exact rel _ a (by simp [setObj])

/-- **C45.**  A wrapper made with `reference_existing_object` for a class without memory policy
never frees its object. -/
theorem C45_reference_existing (c : Cls) (hp : c.policy = .none) (s : World) (w : Wid)
    (h : (s.ws w).notOwned = true) : (dealloc c s w).heap = s.heap := by
  rw [C45_dealloc]
  split
  · rfl
  · rw [if_neg]
    rintro ⟨-, h2⟩
    rw [h] at h2
    exact absurd (h2 hp).2 (by simp)

example : (run plain init [.cppNew 1, .ret referencing 1 9 none, .dealloc 0]).heap 1 =
    some ⟨1, 1, none⟩ := by decide

/-! #### Where C45 fails -/

/-- **C45 is false for classes with a memory policy.**  The "not owned" flag set for
`reference_existing_object` is ignored by the policies' delete code: the wrapper frees an object
that C++ owns, and C++ frees it again. -/
theorem C45_policy_counterexample :
    ∃ es, Legal freeFn init es ∧ (run freeFn init es).bad = true :=
  ⟨[.cppNew 1, .ret referencing 1 9 none, .dealloc 0, .cppNew 1, .ret referencing 1 9 none,
    .cppRelease 1, .dealloc 1],
    legal_of_B NoSelf.init (by decide), by decide⟩

/-- **C45 is false for reference counting with `caller_manages_return=False`**: the wrapper takes
no reference but drops one when it dies. -/
theorem C45_unmanaged_counterexample :
    ∃ es, Legal counted init es ∧ (run counted init es).bad = false ∧
      (run counted init es).heap 1 = none ∧ es = [.cppNew 1, .ret unmanaged 1 9 none, .dealloc 0] :=
  ⟨_, legal_of_B NoSelf.init (by decide), by decide, by decide, rfl⟩

/-- **C45: an object given to Python leaks** when Python already has a non-owning wrapper for it:
the existing wrapper is found and stays non-owning. -/
theorem C45_leak_counterexample :
    ∃ es, Legal plain init es ∧ ∃ o, (run plain init es).heap 1 = some o ∧ o.cpp = 0 ∧
      ∀ w, ((run plain init es).ws w).live = false :=
  ⟨[.cppNew 1, .ret referencing 1 9 none, .ret owning 1 9 none, .dealloc 0],
    legal_of_B NoSelf.init (by decide), ⟨1, 0, none⟩, by decide, rfl, by
      intro w
      simp [run, step, retObj, referencing, owning, createWrapper, newWrapper, lookup, plain,
        register, cppLoses, upd_apply, init, dealloc, deleteCode, unregister, setObj]
      by_cases h : w = 0 <;> simp [h]⟩

/-- **C45: `__init__` called twice leaks** the first object. -/
theorem C45_reinit_counterexample :
    ∃ es, Legal plain init es ∧ ∃ o, (run plain init es).heap 1 = some o ∧ o.cpp = 0 ∧
      ∀ w, Owns (run plain init es) w 1 = false :=
  ⟨[.pyNew, .pyInit 0 1 false, .pyInit 0 2 false],
    legal_of_B NoSelf.init (by decide), ⟨1, 0, none⟩, by decide, rfl, by
      intro w
      simp only [Owns, run, step, pyInit, alloc, newWrapper, init, upd_apply, Wrapper.owns]
      by_cases h : w = 0 <;> simp [h]⟩

/-- **C45: `free_after_copy` of an object Python has a wrapper for** frees it under the wrapper:
no copy is made, the existing wrapper is found and its object deleted. -/
theorem C45_free_after_copy_counterexample :
    ∃ es, Legal plain init es ∧ ∃ w, ((run plain init es).ws w).live = true ∧
      ((run plain init es).ws w).obj = some 1 ∧ (run plain init es).heap 1 = none :=
  ⟨[.cppNew 1, .ret referencing 1 9 none, .ret ⟨false, false, true, true⟩ 1 9 none],
    legal_of_B NoSelf.init (by decide), 0, by decide, by decide, by decide⟩

/-- **C45: a Python subclass instance given to C++ and returned** is deleted by its wrapper although
C++ owns it: `transfer_ownership` clears `obj`, returning the object sets it again. -/
theorem C45_helper_counterexample :
    ∃ es, Legal virt init es ∧ (run virt init es).bad = false ∧
      (run virt init es).heap 1 = none ∧
      es = [.pyNew, .pyInit 0 1 true, .transfer 0, .ret referencing 1 9 (some 0), .clear 0] := by
  refine ⟨_, ?_, ?_, ?_, rfl⟩
  · exact ⟨trivial, ⟨rfl, rfl, fun _ => rfl⟩, ⟨rfl, 1, rfl, by decide⟩,
      ⟨rfl, ⟨_, rfl, Or.inl rfl, fun h => by rcases h with h | h <;> cases h⟩, rfl⟩, rfl, trivial⟩
  · decide
  · decide

end Verif.Lifetime
