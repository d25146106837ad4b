import Verif.Handlers.Callback

/-!
# C81: objects passed to Python overrides
-/
namespace Verif.Handlers
open Verif Verif.Lifetime

/-! ## Specification -/

/-- Nothing went wrong, and nothing changed but the new wrapper and what is at address `b`: every
C++ object that existed before the call (`b` was free) is as it was, and so is every Python
wrapper. -/
structure Untouched (s : World) (b : Addr) (m : M) : Prop where
  fault : m.fault = false
  bad : m.w.bad = s.bad
  heap : ∀ x, x ≠ b → m.w.heap x = s.heap x
  wrappers : ∀ q, q ≠ s.next → m.w.ws q = s.ws q

/-- The new wrapper and its copy of the object are gone. -/
def Gone (s : World) (b : Addr) (m : M) : Prop :=
  (m.w.ws s.next).live = false ∧ m.w.heap b = none

/-- Python has `n` references to a wrapper that owns a copy. -/
def OwnCopy (s : World) (b : Addr) (n : Nat) (m : M) : Prop :=
  (m.w.ws s.next).live = true ∧ (m.w.ws s.next).obj = some b ∧ (m.w.ws s.next).notOwned = false ∧
    m.rc s.next = n ∧ m.w.heap b = some ⟨1, 0, none⟩

/-! ## Proof -/

/-- The class frees objects when the wrapper dies: the condition of `C45_dealloc`. -/
theorem freeable_cond {c : Cls} (hf : Freeable c) {x : Wrapper} (hx : x.notOwned = false) :
    c.singleton = false ∧ (c.policy = .none → c.dtorPublic = true ∧ x.notOwned = false) :=
  ⟨hf.1, fun h => ⟨hf.2 h, hx⟩⟩

/-- What else the death of a wrapper changes. -/
theorem dealloc_rest (c : Cls) (s : World) (p : Wid) :
    (∀ q, q ≠ p → (dealloc c s p).ws q = s.ws q) ∧ ((dealloc c s p).ws p).live = false ∧
    (dealloc c s p).next = s.next := by
  have hrel : ∀ (t : World) (a : Addr), (release t a).ws = t.ws ∧ (release t a).next = t.next := by
    intro t a
    unfold release
    split
    · exact ⟨rfl, rfl⟩
    · split <;> exact ⟨rfl, rfl⟩
  have hun : ∀ (t : World) (o : Option Addr), (unregister c t o).ws = t.ws ∧
      (unregister c t o).next = t.next := by
    intro t o
    unfold unregister
    split
    · exact ⟨rfl, rfl⟩
    · split <;> exact ⟨rfl, rfl⟩
  have hdel : ∀ (t : World), (∀ q, q ≠ p → (deleteCode c t p).ws q = t.ws q) ∧
      (deleteCode c t p).next = t.next := by
    intro t
    have hset : ∀ o, (∀ q, q ≠ p → (setObj t p o).ws q = t.ws q) ∧ (setObj t p o).next = t.next :=
      fun o => ⟨fun q hq => upd_ne _ _ hq, rfl⟩
    unfold deleteCode
    split
    · exact ⟨fun _ _ => rfl, rfl⟩
    · split
      · dsimp only
        split
        · split
          · exact hset none
          · split
            · exact hset none
            · rw [(hrel _ _).1, (hrel _ _).2]; exact hset none
        · exact hset none
      all_goals
        split
        · exact ⟨fun _ _ => rfl, rfl⟩
        · rw [(hrel _ _).1, (hrel _ _).2]; exact hset none
  obtain ⟨h1, h2⟩ := hdel (unregister c s (s.ws p).obj)
  obtain ⟨h3, h4⟩ := hun s (s.ws p).obj
  refine ⟨fun q hq => ?_, ?_, ?_⟩
  · simp only [dealloc]
    rw [upd_ne _ _ hq, h1 q hq, h3]
  · simp [dealloc]
  · simp only [dealloc]
    rw [h2, h4]

theorem dealloc_bad (c : Cls) (s : World) (p : Wid) :
    (dealloc c s p).bad = match (s.ws p).obj with
      | none => s.bad
      | some a =>
        if c.singleton = false ∧
           (c.policy = .none → c.dtorPublic = true ∧ (s.ws p).notOwned = false)
        then (release s a).bad else s.bad := by
  have rel : ∀ (t : World) (a : Addr), t.heap = s.heap → t.bad = s.bad →
      (release t a).bad = (release s a).bad := by
    intro t a ht hb
    unfold release
    rw [ht]
    cases s.heap a with
    | none => rfl
    | some o => simp only; split <;> simpa using hb
  have hu : ∀ o, (unregister c s o).bad = s.bad ∧ (unregister c s o).heap = s.heap ∧
      (unregister c s o).ws = s.ws := by
    intro o
    unfold unregister
    split
    · exact ⟨rfl, rfl, rfl⟩
    · split <;> exact ⟨rfl, rfl, rfl⟩
  obtain ⟨u1, u2, u3⟩ := hu (s.ws p).obj
  unfold dealloc deleteCode
  simp only
  cases hs : c.singleton with
  | true => cases ho : (s.ws p).obj <;> simp [ho] at u1 ⊢ <;> exact u1
  | false =>
    cases hp : c.policy with
    | none =>
      cases hd : c.dtorPublic with
      | false => cases ho : (s.ws p).obj <;> simp [setObj, ho] at u1 ⊢ <;> exact u1
      | true =>
        cases hn : (s.ws p).notOwned with
        | true => cases ho : (s.ws p).obj <;> simp [setObj, hn, ho] at u1 ⊢ <;> exact u1
        | false =>
          cases ho : (s.ws p).obj with
          | none => simp [setObj, hn, ho] at u1 ⊢
          | some a =>
            rw [ho] at u1 u2 u3
            simp [u3, hn, ho]
            exact rel _ a (by simp [setObj, u2]) (by simp [setObj, u1])
    | free =>
      cases ho : (s.ws p).obj with
      | none => rw [ho] at u1 u2 u3; simp [u3, ho, u1]
      | some a =>
        rw [ho] at u1 u2 u3
        simp [u3, ho]
        exact rel _ a (by simp [setObj, u2]) (by simp [setObj, u1])
    | refcount =>
      cases ho : (s.ws p).obj with
      | none => rw [ho] at u1 u2 u3; simp [u3, ho, u1]
      | some a =>
        rw [ho] at u1 u2 u3
        simp [u3, ho]
        exact rel _ a (by simp [setObj, u2]) (by simp [setObj, u1])

/-- A wrapper that owns the only reference to its object takes it along. -/
theorem dealloc_owned {c : Cls} (hf : Freeable c) {s : World} {p : Wid} {b : Addr} {o : Obj}
    (h1 : (s.ws p).obj = some b) (h2 : (s.ws p).notOwned = false) (h3 : s.heap b = some o)
    (h4 : o.refs ≤ 1) :
    (dealloc c s p).heap = upd s.heap b none ∧ (dealloc c s p).bad = s.bad := by
  have hc := freeable_cond hf h2
  rw [C45_dealloc, dealloc_bad, h1]
  simp only
  rw [if_pos hc, if_pos hc]
  simp [release, h3, h4]

theorem dealloc_null {c : Cls} {s : World} {p : Wid} (h1 : (s.ws p).obj = none) :
    (dealloc c s p).heap = s.heap ∧ (dealloc c s p).bad = s.bad := by
  rw [C45_dealloc, dealloc_bad, h1]
  exact ⟨rfl, rfl⟩

/-- One of several references is dropped. -/
theorem decref_more {e : Env} {m : M} {p : Wid} {n : Nat} (hm : m.fault = false)
    (hp : m.py = some p) (hl : (m.w.ws p).live = true) (hr : m.rc p = n + 2) :
    I.decref.exec e m = { m with rc := upd m.rc p (n + 1) } := by
  simp [I.exec, hm, M.onPy, hp, hl, M.decrefPy, hr]

/-- The last reference is dropped. -/
theorem decref_last {e : Env} {m : M} {p : Wid} (hm : m.fault = false)
    (hp : m.py = some p) (hl : (m.w.ws p).live = true) (hr : m.rc p = 1) :
    I.decref.exec e m = { m with rc := upd m.rc p 0, w := dealloc e.c m.w p } := by
  simp [I.exec, hm, M.onPy, hp, hl, M.decrefPy, hr]

theorem upd_upd {β : Type} (f : Nat → β) (a : Nat) (x y : β) : upd (upd f a x) a y = upd f a y := by
  funext z
  simp only [upd]
  split <;> rfl

/-- Dropping all references. -/
theorem drop_all {e : Env} : ∀ (n : Nat) {m : M} {p : Wid}, m.fault = false → m.py = some p →
    (m.w.ws p).live = true → m.rc p = n + 1 →
    drop e (n + 1) m = { m with rc := upd m.rc p 0, w := dealloc e.c m.w p }
  | 0, m, p, hm, hp, hl, hr => by
    simp only [drop]
    rw [decref_last hm hp hl hr]
  | n + 1, m, p, hm, hp, hl, hr => by
    have := drop_all (e := e) n (m := { m with rc := upd m.rc p (n + 1) }) (p := p) hm hp hl (by simp)
    simp only [drop] at this ⊢
    rw [decref_more hm hp hl hr, this]
    simp [upd_upd]

/-- The state of a call right before the argument tuple is dropped, when the wrapper is new: it has
`n` references and holds `o`. -/
structure Holding (s : World) (b : Addr) (m : M) (n : Nat) (o : Option Addr) : Prop where
  fault : m.fault = false
  bad : m.w.bad = s.bad
  heap : ∀ x, x ≠ b → m.w.heap x = s.heap x
  wrappers : ∀ q, q ≠ s.next → m.w.ws q = s.ws q
  py : m.py = some s.next
  live : (m.w.ws s.next).live = true
  obj : (m.w.ws s.next).obj = o
  owned : (m.w.ws s.next).notOwned = false
  rc : m.rc s.next = n

theorem Holding.rcTo {s b m n o} (h : Holding s b m n o) (k : Nat) :
    Holding s b { m with rc := upd m.rc s.next k } k o :=
  ⟨h.fault, h.bad, h.heap, h.wrappers, h.py, h.live, h.obj, h.owned, by simp⟩

/-- Dropping one of several references keeps the rest. -/
theorem Holding.dec {s b m n o} {e : Env} (h : Holding s b m (n + 2) o) :
    Holding s b (I.decref.exec e m) (n + 1) o ∧
      (I.decref.exec e m).w.heap = m.w.heap := by
  rw [decref_more h.fault h.py h.live h.rc]
  exact ⟨h.rcTo _, rfl⟩

/-- Dropping all references to a wrapper with its own copy. -/
theorem Holding.dropCopy {s m n} {e : Env} (hf : Freeable e.c)
    (h : Holding s e.b m (n + 1) (some e.b)) (hb : m.w.heap e.b = some ⟨1, 0, none⟩) :
    Untouched s e.b (drop e (n + 1) m) ∧ Gone s e.b (drop e (n + 1) m) := by
  rw [drop_all n h.fault h.py h.live h.rc]
  obtain ⟨d1, d2⟩ := dealloc_owned hf h.obj h.owned hb (by decide)
  obtain ⟨d3, d4, -⟩ := dealloc_rest e.c m.w s.next
  refine ⟨⟨h.fault, by rw [d2]; exact h.bad, fun x hx => ?_, fun q hq => ?_⟩, d4, ?_⟩
  · rw [d1, upd_ne _ _ hx]; exact h.heap x hx
  · rw [d3 q hq]; exact h.wrappers q hq
  · rw [d1]; simp

/-- Dropping all references to an empty wrapper. -/
theorem Holding.dropNull {s b m n} {e : Env} (h : Holding s b m (n + 1) none) :
    Untouched s b (drop e (n + 1) m) ∧ (((drop e (n + 1) m).w.ws s.next).live = false) ∧
      (drop e (n + 1) m).w.heap = m.w.heap := by
  rw [drop_all n h.fault h.py h.live h.rc]
  obtain ⟨d1, d2⟩ := dealloc_null (c := e.c) h.obj
  obtain ⟨d3, d4, -⟩ := dealloc_rest e.c m.w s.next
  refine ⟨⟨h.fault, by rw [d2]; exact h.bad, fun x hx => ?_, fun q hq => ?_⟩, d4, d1⟩
  · rw [d1]; exact h.heap x hx
  · rw [d3 q hq]; exact h.wrappers q hq

/-- Allocating the wrapper. -/
theorem holding_alloc {s : World} {rc : Wid → Nat} {b : Addr} {e : Env} :
    Holding s b ((I.seq .alloc .flagsNone).exec e ⟨s, rc, none, false⟩) 1 none ∧
      ((I.seq .alloc .flagsNone).exec e ⟨s, rc, none, false⟩).w.heap = s.heap := by
  simp only [I.exec, Bool.false_eq_true, if_false, M.onPy, newWrapper, upd_same, if_true]
  refine ⟨⟨rfl, rfl, fun _ _ => rfl, fun q hq => ?_, rfl, ?_, ?_, ?_, ?_⟩, trivial⟩
  · simp only [upd_ne _ _ hq]
  all_goals simp

theorem Holding.exec_setObj {s b m n o} {e : Env} (h : Holding s b m n o) :
    I.setObj.exec e m = { m with w := Lifetime.setObj m.w s.next e.value } := by
  simp [I.exec, h.fault, M.onPy, h.py, h.live]

theorem Holding.exec_setNull {s b m n o} {e : Env} (h : Holding s b m n o) :
    I.setNull.exec e m = { m with w := Lifetime.setObj m.w s.next none } := by
  simp [I.exec, h.fault, M.onPy, h.py, h.live]

theorem Holding.exec_copy {s b m n o} {e : Env} {a : Addr} (h : Holding s b m n o)
    (hv : e.value = some a) :
    I.copy.exec e m = { m with w := Lifetime.setObj (Lifetime.alloc m.w e.b none) s.next (some e.b) } := by
  simp [I.exec, h.fault, M.onPy, h.py, h.live, M.copyInto, hv]

theorem Holding.exec_register {s b m n o} {e : Env} (h : Holding s b m n o) :
    I.register.exec e m = match o with
      | none => m
      | some a => { m with w := Lifetime.register e.c m.w a s.next } := by
  cases o <;> simp [I.exec, h.fault, M.onPy, h.py, h.live, h.obj]

theorem Holding.exec_increfObj {s b m n o} {e : Env} {a : Addr} (h : Holding s b m n o)
    (hv : e.value = some a) :
    I.increfObj.exec e m = { m with w := Lifetime.incref m.w a } := by
  simp [I.exec, h.fault, hv]

theorem Holding.exec_pack {s b m n o} (h : Holding s b m n o) :
    pack [.O] m = { m with rc := upd m.rc s.next (n + 1) } := by
  simp [pack, h.fault, M.onPy, h.py, h.live, M.increfPy, h.rc]

theorem Holding.exec_kept {s b m n o} (h : Holding s b m n o) (k : Nat) :
    m.kept k = { m with rc := upd m.rc s.next (n + k) } := by
  simp [M.kept, h.fault, h.py, h.rc]

/-- Making the copy. -/
theorem Holding.copy {s m n o} {e : Env} {a : Addr} (hv : e.value = some a)
    (h : Holding s e.b m n o) :
    Holding s e.b (I.copy.exec e m) n (some e.b) ∧
      (I.copy.exec e m).w.heap e.b = some ⟨1, 0, none⟩ := by
  rw [h.exec_copy hv]
  refine ⟨⟨h.fault, h.bad, fun x hx => ?_, fun q hq => ?_, h.py, ?_, ?_, ?_, h.rc⟩, ?_⟩
  · simp only [setObj, Lifetime.alloc]; rw [upd_ne _ _ hx]; exact h.heap x hx
  · simp only [setObj, Lifetime.alloc]; rw [upd_ne _ _ hq]; exact h.wrappers q hq
  · simp [setObj, Lifetime.alloc, h.live]
  · simp [setObj, Lifetime.alloc]
  · simp [setObj, Lifetime.alloc, h.owned]
  · simp [setObj, Lifetime.alloc]

/-- Registering the wrapper. -/
theorem Holding.register {s b m n o} {e : Env} (h : Holding s b m n o) :
    Holding s b (I.register.exec e m) n o ∧ (I.register.exec e m).w.heap = m.w.heap := by
  rw [h.exec_register]
  cases o with
  | none => exact ⟨h, rfl⟩
  | some a =>
    have : ∀ a, (Lifetime.register e.c m.w a s.next).heap = m.w.heap ∧
        (Lifetime.register e.c m.w a s.next).ws = m.w.ws ∧
        (Lifetime.register e.c m.w a s.next).bad = m.w.bad := by
      intro a
      unfold Lifetime.register
      split <;> exact ⟨rfl, rfl, rfl⟩
    obtain ⟨t1, t2, t3⟩ := this a
    refine ⟨⟨h.fault, by rw [t3]; exact h.bad, fun x hx => by rw [t1]; exact h.heap x hx,
      fun q hq => by rw [t2]; exact h.wrappers q hq, h.py, by rw [t2]; exact h.live,
      by rw [t2]; exact h.obj, by rw [t2]; exact h.owned, h.rc⟩, t1⟩

/-- Assigning a pointer to the `obj` field. -/
theorem Holding.set {s b m n o} (h : Holding s b m n o) (v : Option Addr) :
    Holding s b { m with w := Lifetime.setObj m.w s.next v } n v := by
  refine ⟨h.fault, h.bad, h.heap, fun q hq => ?_, h.py, ?_, ?_, ?_, h.rc⟩
  · simp only [setObj]; rw [upd_ne _ _ hq]; exact h.wrappers q hq
  · simp [setObj, h.live]
  · simp [setObj]
  · simp [setObj, h.owned]

theorem Holding.kept {s b m n o} (h : Holding s b m n o) (k : Nat) :
    Holding s b (m.kept k) (n + k) o ∧ (m.kept k).w.heap = m.w.heap := by
  rw [h.exec_kept]
  exact ⟨h.rcTo _, rfl⟩

/-- The end of a call in which the wrapper owns a copy and was given to the tuple. -/
theorem end_copy {s m} {e : Env} (hf : Freeable e.c)
    (h : Holding s e.b m 1 (some e.b)) (hc : m.w.heap e.b = some ⟨1, 0, none⟩) (k : Nat) :
    let r := I.decref.exec e (m.kept k)
    Untouched s e.b r ∧ (k = 0 → Gone s e.b r) ∧ (0 < k → OwnCopy s e.b k r) ∧
      Untouched s e.b (drop e k r) ∧ Gone s e.b (drop e k r) := by
  intro r
  obtain ⟨hk, hw⟩ := h.kept k
  have hc' : (m.kept k).w.heap e.b = some ⟨1, 0, none⟩ := by rw [hw]; exact hc
  cases k with
  | zero =>
    obtain ⟨d1, d2⟩ := Holding.dropCopy (n := 0) hf hk hc'
    exact ⟨d1, fun _ => d2, fun h => absurd h (by decide), d1, d2⟩
  | succ k =>
    have hk' : Holding s e.b (m.kept (k + 1)) (k + 2) (some e.b) := by
      have := hk; rw [show 1 + (k + 1) = k + 2 by omega] at this; exact this
    obtain ⟨h1, h2⟩ := hk'.dec (e := e)
    have hr : r.w.heap e.b = some ⟨1, 0, none⟩ := by rw [h2]; exact hc'
    obtain ⟨d1, d2⟩ := h1.dropCopy hf hr
    exact ⟨⟨h1.fault, h1.bad, h1.heap, h1.wrappers⟩, fun h => absurd h (by omega),
      fun _ => ⟨h1.live, h1.obj, h1.owned, h1.rc, hr⟩, d1, d2⟩

/-- **C81, by value and by (const) reference.**  Whatever references the Python method keeps and
whether it fails or not: the caller's object and every other object and wrapper are untouched; a
wrapper that is kept owns a copy of its own, and when it is not kept, or once it is dropped, the
wrapper and the copy are gone. -/
theorem C81_by_value (e : Env) (con : Bool) (k : Code)
    (hk : valueCode con = .ok k ∨ refCode e.c con .in_ = .ok k) (hf : Freeable e.c)
    (s : World) (rc : Wid → Nat) (a : Addr) (hv : e.value = some a) (hb : s.heap e.b = none)
    (x : Callee) :
    let m := k.run e x ⟨s, rc, none, false⟩
    Untouched s e.b m ∧ (x.keep = 0 → Gone s e.b m) ∧ (0 < x.keep → OwnCopy s e.b x.keep m) ∧
      Untouched s e.b (drop e x.keep m) ∧ Gone s e.b (drop e x.keep m) := by
  have hk' : k = { before := .seq .alloc (.seq .flagsNone (.seq .copy .register)), build := [.N] } := by
    rcases hk with hk | hk
    · unfold valueCode at hk
      split at hk
      · exact (Except.ok.inj hk).symm
      · cases hk
    · simp only [refCode] at hk
      split at hk
      · cases hk
      · split at hk
        · exact (Except.ok.inj hk).symm
        · cases hk
  subst hk'
  obtain ⟨h1, -⟩ := holding_alloc (s := s) (rc := rc) (b := e.b) (e := e)
  obtain ⟨h2, c2⟩ := h1.copy hv
  obtain ⟨h3, c3⟩ := h2.register (e := e)
  have hr := end_copy hf h3 (by rw [c3]; exact c2) x.keep
  have e1 : ∀ m : M, (Code.mk (.seq .alloc (.seq .flagsNone (.seq .copy .register))) .skip .skip [.N]).run e x m
      = I.decref.exec e ((I.register.exec e (I.copy.exec e ((I.seq .alloc .flagsNone).exec e m))).kept x.keep) := by
    intro m
    cases hx : x.fails <;> simp [Code.run, I.exec.eq_1, I.exec.eq_2, pack, unpack, hx]
  intro m
  have : m = _ := e1 _
  rw [this]
  exact hr

/-! ### References the method may change -/

/-- The state the method sees: the wrapper holds the caller's object itself, and has one reference
from the wrapper function and one from the argument tuple. -/
theorem ref_inout_start {s : World} {rc : Wid → Nat} {e : Env} (k : Nat) :
    let m := (pack [.O] ((I.seq .alloc (.seq .flagsNone .setObj)).exec e ⟨s, rc, none, false⟩)).kept k
    Holding s e.b m (2 + k) e.value ∧ m.w.heap = s.heap := by
  obtain ⟨h1, w1⟩ := holding_alloc (s := s) (rc := rc) (b := e.b) (e := e)
  have h2 : Holding s e.b (I.setObj.exec e ((I.seq .alloc .flagsNone).exec e ⟨s, rc, none, false⟩)) 1
      e.value ∧ (I.setObj.exec e ((I.seq .alloc .flagsNone).exec e ⟨s, rc, none, false⟩)).w.heap = s.heap := by
    generalize (I.seq .alloc .flagsNone).exec e ⟨s, rc, none, false⟩ = m1 at h1 w1
    rw [h1.exec_setObj]
    exact ⟨h1.set _, w1⟩
  obtain ⟨h2, w2⟩ := h2
  have h3 : Holding s e.b (pack [.O] (I.setObj.exec e ((I.seq .alloc .flagsNone).exec e ⟨s, rc, none, false⟩))) 2
      e.value ∧ (pack [.O] (I.setObj.exec e ((I.seq .alloc .flagsNone).exec e ⟨s, rc, none, false⟩))).w.heap = s.heap := by
    generalize I.setObj.exec e ((I.seq .alloc .flagsNone).exec e ⟨s, rc, none, false⟩) = m1 at h2 w2
    rw [h2.exec_pack]
    exact ⟨h2.rcTo 2, w2⟩
  obtain ⟨h4, w4⟩ := h3.1.kept k
  exact ⟨h4, w4.trans h3.2⟩

/-- `py->obj = NULL`. -/
theorem Holding.setNull {s b m n o} {e : Env} (h : Holding s b m n o) :
    Holding s b (I.setNull.exec e m) n none ∧ (I.setNull.exec e m).w.heap = m.w.heap := by
  rw [h.exec_setNull]
  exact ⟨h.set _, rfl⟩

theorem exec_ifRefcnt1 {s b m n o} {e : Env} {x y : I} (h : Holding s b m n o) :
    (I.ifRefcnt1 x y).exec e m = if n = 1 then x.exec e m else y.exec e m := by
  simp only [I.exec, h.fault, Bool.false_eq_true, if_false, M.onPy, h.py, h.live, if_true, h.rc]

/-- The code for `inout` and `out` references. -/
theorem refCode_inout {c : Cls} {con : Bool} {d : Dir} {k : Code} (hd : d ≠ .in_)
    (hk : refCode c con d = .ok k) :
    k = { before := .seq .alloc (.seq .flagsNone .setObj), build := [.O], cleanup := .decref
          after := if c.hasCopy then .ifRefcnt1 .setNull (.seq .copy .register) else .setNull } := by
  cases d with
  | in_ => exact absurd rfl hd
  | out | inout =>
    simp only [refCode] at hk
    split at hk
    · split at hk
      · rename_i h1 h2
        rw [← Except.ok.inj hk]; simp [h1]
      · cases hk
    · rename_i h1
      rw [← Except.ok.inj hk]; simp [h1]

/-- **C81, references the method may change.**  While the method runs the wrapper holds the
caller's own object (`C81_reference_seen`).  When the method succeeds, the caller's object and
everything else are untouched; when the method kept no reference, the wrapper is gone; when it did,
the wrapper owns a copy if the class can be copied and is empty otherwise; and once the references
are dropped the wrapper and the copy are gone.  What is missing: methods that fail
(`C81_reference_inout_failed_counterexample`). -/
theorem C81_reference_inout_partial (e : Env) (con : Bool) (d : Dir) (hd : d ≠ .in_) (k : Code)
    (hk : refCode e.c con d = .ok k) (hf : Freeable e.c) (s : World) (rc : Wid → Nat) (a : Addr)
    (hv : e.value = some a) (hb : s.heap e.b = none) (n : Nat) :
    let m := k.run e ⟨n, false⟩ ⟨s, rc, none, false⟩
    Untouched s e.b m ∧ (n = 0 → Gone s e.b m) ∧
      (0 < n → e.c.hasCopy = true → OwnCopy s e.b n m) ∧
      (0 < n → e.c.hasCopy = false → (m.w.ws s.next).live = true ∧ (m.w.ws s.next).obj = none ∧
        m.rc s.next = n ∧ m.w.heap e.b = none) ∧
      Untouched s e.b (drop e n m) ∧ Gone s e.b (drop e n m) := by
  rw [refCode_inout hd hk]
  obtain ⟨h1, w1⟩ := ref_inout_start (s := s) (rc := rc) (e := e) n
  dsimp only [Code.run]
  simp only [Bool.false_eq_true, if_false]
  generalize (pack [.O] ((I.seq .alloc (.seq .flagsNone .setObj)).exec e ⟨s, rc, none, false⟩)).kept n
    = m1 at h1 w1 ⊢
  have h2 : Holding s e.b (unpack e [.O] m1) (n + 1) e.value ∧ (unpack e [.O] m1).w.heap = s.heap := by
    rw [show 2 + n = n + 2 by omega] at h1
    obtain ⟨x, y⟩ := h1.dec (e := e)
    exact ⟨x, y.trans w1⟩
  obtain ⟨h2, w2⟩ := h2
  generalize unpack e [.O] m1 = m2 at h2 w2 ⊢
  -- the end when the wrapper holds nothing
  have hnull : ∀ m3, Holding s e.b m3 (n + 1) none → m3.w.heap = s.heap →
      let m := I.decref.exec e m3
      Untouched s e.b m ∧ (n = 0 → Gone s e.b m) ∧
      (0 < n → (m.w.ws s.next).live = true ∧ (m.w.ws s.next).obj = none ∧
        m.rc s.next = n ∧ m.w.heap e.b = none) ∧
      Untouched s e.b (drop e n m) ∧ Gone s e.b (drop e n m) := by
    intro m3 h3 w3
    obtain ⟨d1, d2, d3⟩ := h3.dropNull (e := e)
    have hg : Gone s e.b (drop e (n + 1) m3) := ⟨d2, by rw [d3, w3]; exact hb⟩
    refine ⟨?_, ?_, ?_, d1, hg⟩
    · cases n with
      | zero => exact d1
      | succ n =>
        obtain ⟨x, -⟩ := h3.dec (e := e)
        exact ⟨x.fault, x.bad, x.heap, x.wrappers⟩
    · intro h0; subst h0; exact hg
    · intro h0
      cases n with
      | zero => omega
      | succ n =>
        obtain ⟨x, y⟩ := h3.dec (e := e)
        exact ⟨x.live, x.obj, x.rc, by rw [y, w3]; exact hb⟩
  cases hc : e.c.hasCopy with
  | false =>
    simp only [Bool.false_eq_true, if_false]
    obtain ⟨h3, w3⟩ := h2.setNull (e := e)
    obtain ⟨r1, r2, r3, r4, r5⟩ := hnull _ h3 (w3.trans w2)
    exact ⟨r1, r2, fun _ h => by simp at h, fun h _ => r3 h, r4, r5⟩
  | true =>
    simp only [if_true]
    rw [exec_ifRefcnt1 h2]
    by_cases hn : n = 0
    · subst hn
      simp only [if_true, Nat.zero_add]
      obtain ⟨h3, w3⟩ := h2.setNull (e := e)
      obtain ⟨r1, r2, r3, r4, r5⟩ := hnull _ h3 (w3.trans w2)
      exact ⟨r1, fun _ => r2 rfl, fun h => absurd h (by decide), fun h => absurd h (by decide), r4, r5⟩
    · have hn1 : n + 1 ≠ 1 := by omega
      simp only [hn1, if_false]
      obtain ⟨h3, w3⟩ := h2.copy hv
      obtain ⟨h4, w4⟩ := h3.register (e := e)
      have w4' : (I.register.exec e (I.copy.exec e m2)).w.heap e.b = some ⟨1, 0, none⟩ := by
        rw [w4]; exact w3
      obtain ⟨d1, d2⟩ := h4.dropCopy hf w4'
      obtain ⟨n', rfl⟩ : ∃ n', n = n' + 1 := ⟨n - 1, by omega⟩
      obtain ⟨x, y⟩ := h4.dec (e := e)
      refine ⟨⟨x.fault, x.bad, x.heap, x.wrappers⟩, fun h => absurd h (by omega),
        fun _ _ => ⟨x.live, x.obj, x.owned, x.rc, by rw [show (I.seq .copy .register).exec e m2 = I.register.exec e (I.copy.exec e m2) from rfl, y]; exact w4'⟩,
        fun _ h => by simp at h, d1, d2⟩

/-- What the method sees: the caller's own object, not a copy. -/
theorem C81_reference_seen (e : Env) (con : Bool) (d : Dir) (hd : d ≠ .in_) (k : Code)
    (hk : refCode e.c con d = .ok k) (s : World) (rc : Wid → Nat) :
    let m := k.before.exec e ⟨s, rc, none, false⟩
    m.fault = false ∧ m.py = some s.next ∧ (m.w.ws s.next).obj = e.value ∧ m.w.heap = s.heap := by
  rw [refCode_inout hd hk]
  obtain ⟨h1, w1⟩ := holding_alloc (s := s) (rc := rc) (b := e.b) (e := e)
  intro m
  have hm : m = I.setObj.exec e ((I.seq .alloc .flagsNone).exec e ⟨s, rc, none, false⟩) := rfl
  rw [hm]
  generalize (I.seq .alloc .flagsNone).exec e ⟨s, rc, none, false⟩ = m1 at h1 w1 ⊢
  rw [h1.exec_setObj]
  have := h1.set e.value
  exact ⟨this.fault, this.py, this.obj, w1⟩

/-! ### Pointers -/

/-- The registry after the death of a wrapper. -/
theorem dealloc_reg (c : Cls) (s : World) (p : Wid) (a : Addr) (h : (s.ws p).obj = some a)
    (hr : c.registry = true) : (dealloc c s p).reg = upd s.reg a none := by
  have hrel : ∀ (t : World) (a : Addr), (release t a).reg = t.reg := by
    intro t a
    unfold release
    split
    · rfl
    · split <;> rfl
  simp only [dealloc, deleteCode, h, unregister, hr, if_true]
  cases c.singleton <;> cases c.policy <;> cases c.dtorPublic <;> cases (s.ws p).notOwned <;>
    simp [hrel, setObj]

/-- A wrapper of an object with more references gives up one of them. -/
theorem dealloc_shared {c : Cls} (hf : Freeable c) {s : World} {p : Wid} {b : Addr} {o : Obj}
    (h1 : (s.ws p).obj = some b) (h2 : (s.ws p).notOwned = false) (h3 : s.heap b = some o)
    (h4 : 2 ≤ o.refs) :
    (dealloc c s p).heap = upd s.heap b (some { o with refs := o.refs - 1 }) ∧
      (dealloc c s p).bad = s.bad := by
  have hc := freeable_cond hf h2
  have h5 : ¬ o.refs ≤ 1 := by omega
  rw [C45_dealloc, dealloc_bad, h1]
  simp only
  rw [if_pos hc, if_pos hc]
  simp [release, h3, h5]

/-- The end of a call with a new wrapper that was given to the tuple and holds `o`. -/
theorem end_new {s b m} {e : Env} {o : Option Addr} (h : Holding s b m 1 o) (k : Nat) :
    let r := I.decref.exec e (m.kept k)
    (k = 0 → r = { m with rc := upd m.rc s.next 0, w := dealloc e.c m.w s.next }) ∧
    (0 < k → Holding s b r k o ∧ r.w = m.w) ∧
    drop e k r = { m with rc := upd m.rc s.next 0, w := dealloc e.c m.w s.next } := by
  intro r
  obtain ⟨hk, hw⟩ := h.kept k
  have e0 : m.kept k = { m with rc := upd m.rc s.next (1 + k) } := h.exec_kept k
  have hd : drop e (k + 1) (m.kept k) = { m with rc := upd m.rc s.next 0, w := dealloc e.c m.w s.next } := by
    rw [drop_all k hk.fault hk.py hk.live (by rw [hk.rc]; omega), e0]
    simp [upd_upd]
  refine ⟨fun h0 => ?_, fun h0 => ?_, hd⟩
  · subst h0; exact hd
  · obtain ⟨k', rfl⟩ : ∃ k', k = k' + 1 := ⟨k - 1, by omega⟩
    rw [show 1 + (k' + 1) = k' + 2 by omega] at hk
    have : r = _ := decref_more (e := e) hk.fault hk.py hk.live hk.rc
    rw [this]
    refine ⟨hk.rcTo _, ?_⟩
    rw [e0]

/-- A pointer parameter without a wrapper for the object: the code that is executed. -/
theorem ptr_new {e : Env} {con : Bool} {tr : Bool} {k kc : Code} (hc : createPtr e.c con .in_ tr = .ok kc)
    (hk : ptrCode e.c con .in_ tr = .ok k) {a : Addr} (hv : e.value = some a)
    (hs : e.same = none) {s : World} (hl : Lifetime.lookup e.c s a = none) (rc : Wid → Nat) (x : Callee) :
    k.run e x ⟨s, rc, none, false⟩ =
      I.decref.exec e ((I.register.exec e (kc.before.exec e ⟨s, rc, none, false⟩)).kept x.keep) := by
  have hb : kc.build = [] ∧ kc.after = .skip ∧ kc.cleanup = .skip := by
    simp only [createPtr] at hc
    split at hc
    · rw [← Except.ok.inj hc]; exact ⟨rfl, rfl, rfl⟩
    · split at hc
      · split at hc
        · cases hc
        · split at hc
          · rw [← Except.ok.inj hc]; exact ⟨rfl, rfl, rfl⟩
          · cases hc
      · rw [← Except.ok.inj hc]; exact ⟨rfl, rfl, rfl⟩
  obtain ⟨b1, b2, b3⟩ := hb
  unfold ptrCode at hk
  rw [hc] at hk
  have hk := (Except.ok.inj hk).symm
  subst hk
  have run : ∀ i : I, (Code.mk i kc.after kc.cleanup (kc.build ++ [.N])).run e x ⟨s, rc, none, false⟩ =
      I.decref.exec e ((i.exec e ⟨s, rc, none, false⟩).kept x.keep) := by
    intro i
    rw [b1, b2, b3]
    cases hx : x.fails <;> simp [Code.run, I.exec.eq_1, pack, unpack, hx]
  have find : (if e.c.registry then I.seq .lookup (.ifNull (.seq kc.before .register)) else .seq kc.before .register).exec e ⟨s, rc, none, false⟩
      = I.register.exec e (kc.before.exec e ⟨s, rc, none, false⟩) := by
    cases hr : e.c.registry with
    | false => rfl
    | true => simp [I.exec, hv, hl]
  show (Code.mk _ _ _ _).run e x _ = _
  rw [run]
  cases hh : e.c.helper with
  | false => simp only [Bool.false_eq_true, if_false]; rw [find]
  | true =>
    simp only [if_true]
    rw [show (I.ifHelper .fromSelf (if e.c.registry then I.seq .lookup (.ifNull (.seq kc.before .register)) else .seq kc.before .register)).exec e ⟨s, rc, none, false⟩ =
      (if e.c.registry then I.seq .lookup (.ifNull (.seq kc.before .register)) else .seq kc.before .register).exec e ⟨s, rc, none, false⟩ from by
        simp [I.exec, hv, hs]]
    rw [find]

/-- **C81, pointers to objects of classes that are not reference counted.**  As by value: the
override gets a copy. -/
theorem C81_pointer_copy (e : Env) (con : Bool) (k : Code) (hp : e.c.policy ≠ .refcount)
    (hk : ptrCode e.c con .in_ false = .ok k) (hf : Freeable e.c)
    (s : World) (rc : Wid → Nat) (a : Addr) (hv : e.value = some a) (hs : e.same = none)
    (hl : Lifetime.lookup e.c s a = none) (hb : s.heap e.b = none) (x : Callee) :
    let m := k.run e x ⟨s, rc, none, false⟩
    Untouched s e.b m ∧ (x.keep = 0 → Gone s e.b m) ∧ (0 < x.keep → OwnCopy s e.b x.keep m) ∧
      Untouched s e.b (drop e x.keep m) ∧ Gone s e.b (drop e x.keep m) := by
  have hc : createPtr e.c con .in_ false = .ok { before := .seq (.seq .alloc .flagsNone) .copy } := by
    unfold ptrCode at hk
    simp only [createPtr, Bool.false_eq_true, if_false] at hk ⊢
    rw [if_pos hp] at hk ⊢
    cases h1 : e.c.hasCopy with
    | false => simp [h1] at hk
    | true =>
      cases h2 : con with
      | false => simp [h1, h2] at hk
      | true => simp
  rw [ptr_new hc hk hv hs hl]
  obtain ⟨h1, -⟩ := holding_alloc (s := s) (rc := rc) (b := e.b) (e := e)
  obtain ⟨h2, c2⟩ := h1.copy hv
  obtain ⟨h3, c3⟩ := h2.register (e := e)
  exact end_copy hf h3 (by rw [c3]; exact c2) x.keep

/-- **C81, pointers to reference counted objects.**  The override gets the object itself: the new
wrapper holds one more reference to it, and the next call will find this wrapper; when the wrapper
is not kept, or is dropped later, the reference count is what it was. -/
theorem C81_pointer_counted (e : Env) (con : Bool) (k : Code) (hp : e.c.policy = .refcount)
    (hk : ptrCode e.c con .in_ false = .ok k) (hf : Freeable e.c)
    (s : World) (rc : Wid → Nat) (a : Addr) (hv : e.value = some a) (hs : e.same = none)
    (hl : Lifetime.lookup e.c s a = none) (o : Obj) (ho : s.heap a = some o) (hr : 0 < o.refs)
    (x : Callee) :
    let m := k.run e x ⟨s, rc, none, false⟩
    Untouched s a m ∧
      (x.keep = 0 → m.w.heap a = some o ∧ (m.w.ws s.next).live = false) ∧
      (0 < x.keep → m.w.heap a = some { o with refs := o.refs + 1 } ∧
        (m.w.ws s.next).live = true ∧ (m.w.ws s.next).obj = some a ∧ m.rc s.next = x.keep ∧
        (e.c.registry = true → Lifetime.lookup e.c m.w a = some s.next)) ∧
      Untouched s a (drop e x.keep m) ∧ (drop e x.keep m).w.heap a = some o ∧
      ((drop e x.keep m).w.ws s.next).live = false ∧
      (e.c.registry = true → Lifetime.lookup e.c (drop e x.keep m).w a = none) := by
  have hc : createPtr e.c con .in_ false =
      .ok { before := .seq (.seq .alloc .flagsNone) (.seq .increfObj .setObj) } := by
    simp [createPtr, hp]
  rw [ptr_new hc hk hv hs hl]
  obtain ⟨h1, w1⟩ := holding_alloc (s := s) (rc := rc) (b := a) (e := e)
  rw [show ∀ m, (I.seq (.seq .alloc .flagsNone) (.seq .increfObj .setObj)).exec e m =
    (I.seq .increfObj .setObj).exec e ((I.seq .alloc .flagsNone).exec e m) from fun _ => rfl]
  generalize (I.seq .alloc .flagsNone).exec e ⟨s, rc, none, false⟩ = m1 at h1 w1 ⊢
  have hinc : Lifetime.incref m1.w a = { m1.w with heap := upd m1.w.heap a (some { o with refs := o.refs + 1 }) } := by
    unfold Lifetime.incref
    rw [w1, ho]
  have h2 : Holding s a ((I.seq .increfObj .setObj).exec e m1) 1 (some a) ∧
      ((I.seq .increfObj .setObj).exec e m1).w.heap a = some { o with refs := o.refs + 1 } := by
    have h1' : Holding s a { m1 with w := { m1.w with heap := upd m1.w.heap a (some { o with refs := o.refs + 1 }) } } 1 none :=
      ⟨h1.fault, h1.bad, fun y hy => by simp only; rw [upd_ne _ _ hy]; exact h1.heap y hy, h1.wrappers,
        h1.py, h1.live, h1.obj, h1.owned, h1.rc⟩
    show Holding s a (I.setObj.exec e (I.increfObj.exec e m1)) 1 (some a) ∧
      (I.setObj.exec e (I.increfObj.exec e m1)).w.heap a = _
    rw [h1.exec_increfObj hv, hinc, h1'.exec_setObj, hv]
    exact ⟨h1'.set (some a), by simp [setObj]⟩
  obtain ⟨h2, w2⟩ := h2
  generalize (I.seq .increfObj .setObj).exec e m1 = m2 at h2 w2 ⊢
  have hreg : (I.register.exec e m2).w.reg = (Lifetime.register e.c m2.w a s.next).reg := by
    rw [h2.exec_register]
  obtain ⟨h3, w3⟩ := h2.register (e := e)
  generalize I.register.exec e m2 = m3 at h3 w3 hreg ⊢
  have w3' : m3.w.heap a = some { o with refs := o.refs + 1 } := by rw [w3]; exact w2
  obtain ⟨d1, d2⟩ := dealloc_shared hf h3.obj h3.owned w3' (by simp only; omega)
  obtain ⟨d3, d4, -⟩ := dealloc_rest e.c m3.w s.next
  obtain ⟨z1, z2, z3⟩ := end_new (e := e) h3 x.keep
  have hdead : Untouched s a { m3 with rc := upd m3.rc s.next 0, w := dealloc e.c m3.w s.next } := by
    refine ⟨h3.fault, by rw [d2]; exact h3.bad, fun y hy => ?_, fun q hq => ?_⟩
    · rw [d1, upd_ne _ _ hy]; exact h3.heap y hy
    · rw [d3 q hq]; exact h3.wrappers q hq
  have hheap : (dealloc e.c m3.w s.next).heap a = some o := by rw [d1]; simp
  refine ⟨?_, ?_, ?_, ?_⟩
  · by_cases hx : x.keep = 0
    · rw [z1 hx]; exact hdead
    · obtain ⟨y, -⟩ := z2 (by omega)
      exact ⟨y.fault, y.bad, y.heap, y.wrappers⟩
  · intro hx; rw [z1 hx]; exact ⟨hheap, d4⟩
  · intro hx
    obtain ⟨y, yw⟩ := z2 hx
    refine ⟨by rw [yw]; exact w3', y.live, y.obj, y.rc, fun hreg' => ?_⟩
    rw [yw]
    simp [Lifetime.lookup, hreg', hreg, Lifetime.register]
  · rw [z3]
    refine ⟨hdead, hheap, d4, fun hreg' => ?_⟩
    simp only [Lifetime.lookup, hreg', if_true]
    rw [dealloc_reg _ _ _ _ h3.obj hreg']
    simp

/-- **C81, pointers whose ownership goes to Python.**  When there is no wrapper yet, the new
wrapper owns the object: it is deleted when the wrapper is not kept, or as soon as it is dropped,
and not before. -/
theorem C81_pointer_transfer (e : Env) (con : Bool) (k : Code)
    (hk : ptrCode e.c con .in_ true = .ok k) (hf : Freeable e.c)
    (s : World) (rc : Wid → Nat) (a : Addr) (hv : e.value = some a) (hs : e.same = none)
    (hl : Lifetime.lookup e.c s a = none) (o : Obj) (ho : s.heap a = some o) (hr : o.refs = 1)
    (x : Callee) :
    let m := k.run e x ⟨s, rc, none, false⟩
    Untouched s a m ∧
      (x.keep = 0 → Gone s a m) ∧
      (0 < x.keep → m.w.heap a = some o ∧ (m.w.ws s.next).live = true ∧
        (m.w.ws s.next).obj = some a ∧ (m.w.ws s.next).notOwned = false ∧ m.rc s.next = x.keep ∧
        (e.c.registry = true → Lifetime.lookup e.c m.w a = some s.next)) ∧
      Untouched s a (drop e x.keep m) ∧ Gone s a (drop e x.keep m) ∧
      (e.c.registry = true → Lifetime.lookup e.c (drop e x.keep m).w a = none) := by
  have hc : createPtr e.c con .in_ true = .ok { before := .seq (.seq .alloc .flagsNone) .setObj } := by
    simp [createPtr]
  rw [ptr_new hc hk hv hs hl]
  obtain ⟨h1, w1⟩ := holding_alloc (s := s) (rc := rc) (b := a) (e := e)
  rw [show ∀ m, (I.seq (.seq .alloc .flagsNone) .setObj).exec e m =
    I.setObj.exec e ((I.seq .alloc .flagsNone).exec e m) from fun _ => rfl]
  generalize (I.seq .alloc .flagsNone).exec e ⟨s, rc, none, false⟩ = m1 at h1 w1 ⊢
  have h2 : Holding s a (I.setObj.exec e m1) 1 (some a) ∧ (I.setObj.exec e m1).w.heap a = some o := by
    rw [h1.exec_setObj, hv]
    exact ⟨h1.set (some a), by simp only [setObj]; rw [w1]; exact ho⟩
  obtain ⟨h2, w2⟩ := h2
  generalize I.setObj.exec e m1 = m2 at h2 w2 ⊢
  have hreg : (I.register.exec e m2).w.reg = (Lifetime.register e.c m2.w a s.next).reg := by
    rw [h2.exec_register]
  obtain ⟨h3, w3⟩ := h2.register (e := e)
  generalize I.register.exec e m2 = m3 at h3 w3 hreg ⊢
  have w3' : m3.w.heap a = some o := by rw [w3]; exact w2
  obtain ⟨d1, d2⟩ := dealloc_owned hf h3.obj h3.owned w3' (by omega)
  obtain ⟨d3, d4, -⟩ := dealloc_rest e.c m3.w s.next
  obtain ⟨z1, z2, z3⟩ := end_new (e := e) h3 x.keep
  have hdead : Untouched s a { m3 with rc := upd m3.rc s.next 0, w := dealloc e.c m3.w s.next } := by
    refine ⟨h3.fault, by rw [d2]; exact h3.bad, fun y hy => ?_, fun q hq => ?_⟩
    · rw [d1, upd_ne _ _ hy]; exact h3.heap y hy
    · rw [d3 q hq]; exact h3.wrappers q hq
  have hheap : (dealloc e.c m3.w s.next).heap a = none := by rw [d1]; simp
  refine ⟨?_, ?_, ?_, ?_⟩
  · by_cases hx : x.keep = 0
    · rw [z1 hx]; exact hdead
    · obtain ⟨y, -⟩ := z2 (by omega)
      exact ⟨y.fault, y.bad, y.heap, y.wrappers⟩
  · intro hx; rw [z1 hx]; exact ⟨d4, hheap⟩
  · intro hx
    obtain ⟨y, yw⟩ := z2 hx
    refine ⟨by rw [yw]; exact w3', y.live, y.obj, y.owned, y.rc, fun hreg' => ?_⟩
    rw [yw]
    simp [Lifetime.lookup, hreg', hreg, Lifetime.register]
  · rw [z3]
    refine ⟨hdead, ⟨d4, hheap⟩, fun hreg' => ?_⟩
    simp only [Lifetime.lookup, hreg', if_true]
    rw [dealloc_reg _ _ _ _ h3.obj hreg']
    simp

/-- **C81, pointers to objects that have a wrapper.**  The override gets that wrapper, found in the
registry or, for an instance of a Python subclass, in the object itself; afterwards it has as many
more references as the override kept, and nothing else changed. -/
theorem C81_pointer_existing (e : Env) (con : Bool) (tr : Bool) (k : Code)
    (hk : ptrCode e.c con .in_ tr = .ok k) (s : World) (rc : Wid → Nat) (a : Addr)
    (hv : e.value = some a) (p : Wid)
    (hp : (e.c.helper = true ∧ e.same = some p) ∨
      ((e.c.helper = false ∨ e.same = none) ∧ Lifetime.lookup e.c s a = some p))
    (hlive : (s.ws p).live = true) (hobj : (s.ws p).obj = some a) (hrc : 0 < rc p) (x : Callee) :
    let m := k.run e x ⟨s, rc, none, false⟩
    m.fault = false ∧ m.w = s ∧ m.py = some p ∧ m.rc = upd rc p (rc p + x.keep) := by
  obtain ⟨kc, hc⟩ : ∃ kc, createPtr e.c con .in_ tr = .ok kc := by
    unfold ptrCode at hk
    cases h : createPtr e.c con .in_ tr with
    | ok kc => exact ⟨kc, rfl⟩
    | error _ => rw [h] at hk; cases hk
  have hb : kc.build = [] ∧ kc.after = .skip ∧ kc.cleanup = .skip := by
    simp only [createPtr] at hc
    split at hc
    · rw [← Except.ok.inj hc]; exact ⟨rfl, rfl, rfl⟩
    · split at hc
      · split at hc
        · cases hc
        · split at hc
          · rw [← Except.ok.inj hc]; exact ⟨rfl, rfl, rfl⟩
          · cases hc
      · rw [← Except.ok.inj hc]; exact ⟨rfl, rfl, rfl⟩
  obtain ⟨b1, b2, b3⟩ := hb
  unfold ptrCode at hk
  rw [hc] at hk
  have hk := (Except.ok.inj hk).symm
  subst hk
  have run : ∀ i : I, (Code.mk i kc.after kc.cleanup (kc.build ++ [.N])).run e x ⟨s, rc, none, false⟩ =
      I.decref.exec e ((i.exec e ⟨s, rc, none, false⟩).kept x.keep) := by
    intro i
    rw [b1, b2, b3]
    cases hx : x.fails <;> simp [Code.run, I.exec.eq_1, pack, unpack, hx]
  have hset : Lifetime.setObj s p (some a) = s := setObj_same hobj
  have hfin : I.decref.exec e ((⟨s, upd rc p (rc p + 1), some p, false⟩ : M).kept x.keep) =
      ⟨s, upd rc p (rc p + x.keep), some p, false⟩ := by
    obtain ⟨r, hr⟩ : ∃ r, rc p + x.keep = r + 1 := ⟨rc p + x.keep - 1, by omega⟩
    have hm : (⟨s, upd rc p (rc p + 1), some p, false⟩ : M).kept x.keep =
        ⟨s, upd rc p (r + 2), some p, false⟩ := by
      simp only [M.kept, Bool.false_eq_true, if_false, upd_same, upd_upd, M.mk.injEq, true_and, and_true]
      rw [show rc p + 1 + x.keep = r + 2 by omega]
    rw [hm, decref_more (n := r) (p := p) rfl rfl hlive (by simp)]
    simp [upd_upd, hr]
  have hpre : (if e.c.helper then I.ifHelper .fromSelf (if e.c.registry then I.seq .lookup (.ifNull (.seq kc.before .register)) else .seq kc.before .register)
      else (if e.c.registry then I.seq .lookup (.ifNull (.seq kc.before .register)) else .seq kc.before .register)).exec e ⟨s, rc, none, false⟩
      = ⟨s, upd rc p (rc p + 1), some p, false⟩ := by
    rcases hp with ⟨h1, h2⟩ | ⟨h1, h2⟩
    · simp [h1, I.exec, hv, h2, M.increfPy, hset]
    · have hreg : e.c.registry = true := by
        unfold Lifetime.lookup at h2
        split at h2
        · assumption
        · cases h2
      rcases h1 with h1 | h1
      · simp [h1, hreg, I.exec, hv, h2, M.increfPy]
      · cases hh : e.c.helper <;> simp [h1, hreg, I.exec, hv, h2, M.increfPy]
  intro m
  have hm : m = I.decref.exec e ((I.exec e _ ⟨s, rc, none, false⟩).kept x.keep) := run _
  rw [hm, hpre, hfin]
  exact ⟨rfl, rfl, rfl, rfl⟩

/-! ### Counterexamples -/

/-- One object, at address 7, owned by C++; no wrappers. -/
def oneObj : World := { Lifetime.init with heap := upd (fun _ => none) 7 (some ⟨1, 1, none⟩) }

/-- An `inout` reference whose override fails (raises, or returns a value of the wrong type): the
error exit is before the code that takes the object out of the temporary wrapper, so that the
wrapper deletes the caller's object. -/
theorem C81_reference_inout_failed_counterexample :
    ∃ (e : Env) (k : Code), refCode e.c true .inout = .ok k ∧ e.value = some 7 ∧
      (oneObj.heap 7).isSome ∧
      ((k.run e ⟨0, true⟩ ⟨oneObj, fun _ => 0, none, false⟩).w.heap 7) = none :=
  ⟨⟨plain, some 7, 8, none⟩, _, rfl, rfl, rfl, rfl⟩

/-- An `inout` pointer: the wrapper is put into the argument tuple twice, once with the reference
the cleanup will drop, so the wrapper is freed too early, and the `after_call` code uses freed
memory — even when the override succeeds and keeps nothing. -/
theorem C81_pointer_inout_counterexample :
    ∃ (e : Env) (k : Code), ptrCode e.c true .inout false = .ok k ∧ k.build = [.O, .N] ∧
      e.value = some 7 ∧
      (k.run e ⟨0, false⟩ ⟨oneObj, fun _ => 0, none, false⟩).fault = true ∧
      ((k.run e ⟨0, false⟩ ⟨oneObj, fun _ => 0, none, false⟩).w.heap 7) = none :=
  ⟨⟨plain, some 7, 8, none⟩, _, rfl, rfl, rfl, rfl, rfl⟩

/-- A null pointer is dereferenced, for each way of passing pointers but the transfer of ownership,
where the override gets a wrapper without an object (and not `None`). -/
theorem C81_null_pointer_counterexample :
    (∃ (k : Code), ptrCode plain true .in_ false = .ok k ∧
      (k.run ⟨plain, none, 8, none⟩ ⟨0, false⟩ ⟨oneObj, fun _ => 0, none, false⟩).fault = true) ∧
    (∃ (k : Code), ptrCode counted true .in_ false = .ok k ∧
      (k.run ⟨counted, none, 8, none⟩ ⟨0, false⟩ ⟨oneObj, fun _ => 0, none, false⟩).fault = true) ∧
    (∃ (k : Code), ptrCode virt true .in_ true = .ok k ∧
      (k.run ⟨virt, none, 8, none⟩ ⟨0, false⟩ ⟨oneObj, fun _ => 0, none, false⟩).fault = true) ∧
    (∃ (k : Code), ptrCode plain true .in_ true = .ok k ∧
      (k.run ⟨plain, none, 8, none⟩ ⟨1, false⟩ ⟨oneObj, fun _ => 0, none, false⟩).fault = false ∧
      ((k.run ⟨plain, none, 8, none⟩ ⟨1, false⟩ ⟨oneObj, fun _ => 0, none, false⟩).w.ws 0).live = true ∧
      ((k.run ⟨plain, none, 8, none⟩ ⟨1, false⟩ ⟨oneObj, fun _ => 0, none, false⟩).w.ws 0).obj = none) :=
  ⟨⟨_, rfl, rfl⟩, ⟨_, rfl, rfl⟩, ⟨_, rfl, rfl⟩, ⟨_, rfl, rfl, rfl, rfl⟩⟩

/-- One reference counted object with a wrapper, which holds one of its two references; the other
one is about to be given to Python. -/
def wrappedObj : World :=
  { Lifetime.init with
    heap := upd (fun _ => none) 7 (some ⟨2, 1, none⟩), next := 1
    ws := upd Lifetime.init.ws 0 ⟨true, some 7, false, false⟩, reg := upd (fun _ => none) 7 (some 0) }

/-- A reference given to Python (`transfer_ownership`) when the object has a wrapper already is
never dropped: the object outlives its last wrapper. -/
theorem C81_transfer_existing_counterexample :
    ∃ (k : Code), ptrCode counted true .in_ true = .ok k ∧
      (drop ⟨counted, some 7, 8, none⟩ 1
        (k.run ⟨counted, some 7, 8, none⟩ ⟨0, false⟩ ⟨wrappedObj, fun _ => 1, none, false⟩)).w.heap 7 =
        some ⟨1, 1, none⟩ ∧
      ((drop ⟨counted, some 7, 8, none⟩ 1
        (k.run ⟨counted, some 7, 8, none⟩ ⟨0, false⟩ ⟨wrappedObj, fun _ => 1, none, false⟩)).w.ws 0).live =
        false :=
  ⟨_, rfl, rfl, rfl⟩

/-! ### The hypotheses can be met -/

example : Freeable plain := ⟨rfl, fun _ => rfl⟩
example : Freeable counted := ⟨rfl, fun h => by simp [counted] at h⟩

/-- By value, kept twice. -/
example : OwnCopy oneObj 8 2
    ((Code.mk (.seq .alloc (.seq .flagsNone (.seq .copy .register))) .skip .skip [.N]).run
      ⟨plain, some 7, 8, none⟩ ⟨2, true⟩ ⟨oneObj, fun _ => 0, none, false⟩) :=
  (C81_by_value ⟨plain, some 7, 8, none⟩ true _ (Or.inl rfl) ⟨rfl, fun _ => rfl⟩ oneObj (fun _ => 0) 7
    rfl rfl ⟨2, true⟩).2.2.1 (by decide)

example : ∃ k, refCode plain true .inout = .ok k ∧ OwnCopy oneObj 8 3
    (k.run ⟨plain, some 7, 8, none⟩ ⟨3, false⟩ ⟨oneObj, fun _ => 0, none, false⟩) :=
  ⟨_, rfl, (C81_reference_inout_partial ⟨plain, some 7, 8, none⟩ true .inout (by decide) _ rfl
    ⟨rfl, fun _ => rfl⟩ oneObj (fun _ => 0) 7 rfl rfl 3).2.2.1 (by decide) rfl⟩

example : ∃ k, ptrCode counted true .in_ false = .ok k ∧
    (k.run ⟨counted, some 7, 8, none⟩ ⟨2, false⟩ ⟨oneObj, fun _ => 0, none, false⟩).w.heap 7 =
      some ⟨2, 1, none⟩ :=
  ⟨_, rfl, ((C81_pointer_counted ⟨counted, some 7, 8, none⟩ true _ rfl rfl
    ⟨rfl, fun h => by simp [counted] at h⟩ oneObj (fun _ => 0) 7 rfl rfl rfl ⟨1, 1, none⟩ rfl
    (by decide) ⟨2, false⟩).2.2.1 (by decide)).1⟩

example : ∃ k, ptrCode plain true .in_ true = .ok k ∧
    Gone oneObj 7 (k.run ⟨plain, some 7, 8, none⟩ ⟨0, true⟩ ⟨oneObj, fun _ => 0, none, false⟩) :=
  ⟨_, rfl, (C81_pointer_transfer ⟨plain, some 7, 8, none⟩ true _ rfl ⟨rfl, fun _ => rfl⟩ oneObj
    (fun _ => 0) 7 rfl rfl rfl ⟨1, 1, none⟩ rfl rfl ⟨0, true⟩).2.1 rfl⟩

example : ∃ k, ptrCode plain true .in_ false = .ok k ∧
    OwnCopy oneObj 8 1 (k.run ⟨plain, some 7, 8, none⟩ ⟨1, true⟩ ⟨oneObj, fun _ => 0, none, false⟩) :=
  ⟨_, rfl, (C81_pointer_copy ⟨plain, some 7, 8, none⟩ true _ (by decide) rfl ⟨rfl, fun _ => rfl⟩ oneObj
    (fun _ => 0) 7 rfl rfl rfl rfl ⟨1, true⟩).2.2.1 (by decide)⟩

example : ∃ k, ptrCode counted true .in_ false = .ok k ∧
    (k.run ⟨counted, some 7, 8, none⟩ ⟨4, false⟩ ⟨wrappedObj, fun _ => 1, none, false⟩).rc 0 = 5 :=
  ⟨_, rfl, by
    have := (C81_pointer_existing ⟨counted, some 7, 8, none⟩ true false _ rfl wrappedObj (fun _ => 1) 7
      rfl 0 (Or.inr ⟨Or.inl rfl, rfl⟩) rfl rfl (by decide) ⟨4, false⟩).2.2.2
    rw [this]; rfl⟩

end Verif.Handlers
