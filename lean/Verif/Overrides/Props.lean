import Verif.Overrides.Model

/-!
# C115: objects returned by Python overrides
-/
namespace Verif.Replies
open Verif Verif.Flow Verif.Params Verif.Wrap
open Verif.Returns (RCls Pol copyValue createInstance)
open Verif.Lifetime (World Cls upd upd_same Bal Owns owners)

/-! ### Generation -/

/-- The class handlers follow the rule of C108 for handlers of return values, so what the proxy takes is given
back on every path also for methods returning objects. -/
theorem C115_rule (f : Form) (c : RCls) : OpsIn RevLate (f.convert c) := by
  intro w w' h
  unfold Form.convert at h
  obtain ⟨_, -, h⟩ := bind_ok.mp h
  obtain ⟨⟨w1, v⟩, h1, h⟩ := bind_ok.mp h
  obtain ⟨code, -, h⟩ := bind_ok.mp h
  rw [← Except.ok.inj h]
  have h2 : OpsTo RevLate w (w1.addParse ⟨"O!".toList, ['&' :: c.pytype, '&' :: v], none, false⟩ false) := by
    obtain ⟨l, hl, hp⟩ : OpsTo RevLate w w1 := OpsTo.declare h1
    exact ⟨l, hl, hp⟩
  exact OpsTo.writes 1 (fun _ => trivial) _ h2

/-- Code is generated for every class and every declaration except references to non-constant objects (and
references taken for values). -/
theorem C115_generated (f : Form) (c : RCls) :
    (∃ code, f.code c = .ok code) ↔ f ≠ .value true ∧ f ≠ .ref false := by
  cases f with
  | value r => cases r <;> simp [Form.code]
  | ref k => cases k <;> simp [Form.code]
  | shared => simp [Form.code]
  | ptr own k =>
    simp only [ne_eq, reduceCtorEq, not_false_eq_true, and_self, iff_true]
    unfold Form.code copyValue createInstance
    cases own <;> cases c.policy.counted <;> cases c.hasCopy <;> cases c.constructible <;> cases c.incomplete <;>
      simp

/-- What is refused is refused with `NotSupportedError`. -/
theorem C115_not_supported (f : Form) (c : RCls) (e : PyErr) (h : f.code c = .error e) : e = .notSupportedError := by
  cases f with
  | value r => cases r <;> simp_all [Form.code]
  | ref k => cases k <;> simp_all [Form.code]
  | shared => simp [Form.code] at h
  | ptr own k =>
    obtain ⟨code, hc⟩ := (C115_generated (.ptr own k) c).mpr ⟨by simp, by simp⟩
    rw [hc] at h; cases h

/-- The object can be copied. -/
def Copyable (c : RCls) : Prop := c.hasCopy = true ∧ c.constructible = true ∧ c.incomplete = false

theorem copyValue_ok {c : RCls} (h : Copyable c) : ∃ l, copyValue c = .ok l := by
  obtain ⟨h1, h2, h3⟩ := h
  exact ⟨[.create], by simp [copyValue, createInstance, h1, h2, h3]⟩

theorem copyValue_error {c : RCls} (h : ¬ Copyable c) : copyValue c = .error .codeGenerationError := by
  unfold Copyable at h
  unfold copyValue createInstance
  cases h1 : c.hasCopy <;> cases h2 : c.constructible <;> cases h3 : c.incomplete <;> simp_all

/-! ### One call -/

theorem deref_some {m : M} {w a : Nat} {k : Nat → M} (h1 : (m.world.ws w).obj = some a) (h2 : m.world.heap a ≠ none) :
    m.deref w k = k a := by
  unfold M.deref
  rw [h1]
  exact if_neg h2

theorem execAll_one (c : RCls) (e : Env) (m : M) (s : Stmt) (h : m.null = false) :
    execAll c e m [s] = s.exec c e m := by
  unfold execAll
  rw [if_neg (by simp [h])]
  rfl

theorem execAll_two (c : RCls) (e : Env) (m : M) (s t : Stmt) (h : m.null = false) (h' : (s.exec c e m).null = false) :
    execAll c e m [s, t] = t.exec c e (s.exec c e m) := by
  unfold execAll
  rw [if_neg (by simp [h])]
  exact execAll_one c e _ t h'

theorem execAll_post (c : RCls) (e : Env) (m : M) : execAll c e m (postStmts c) = m := by
  unfold postStmts
  split
  · unfold execAll
    split <;> rfl
  · rfl

/-- **C115, by value.**  The caller gets a copy of the object, of the declared class; nothing else changes. -/
theorem C115_value_partial (c : RCls) (code : List Stmt) (isa : Nat → Bool) (fresh stat : Nat) (m : M) (w a : Nat)
    (hc : Form.code (.value false) c = .ok code) (hi : isa w = true) (hn : m.null = false)
    (ho : (m.world.ws w).obj = some a) (ha : m.world.heap a ≠ none) :
    let r := convertResult (.value false) c code isa fresh stat m (.inst w)
    r.2 = .value (m.val a) stat ∧ r.1.world = m.world ∧ r.1.val = m.val ∧ r.1.dyn = m.dyn ∧ r.1.null = false := by
  cases hc
  simp only [convertResult, hi, if_true]
  rw [execAll_one _ _ _ _ (by exact hn)]
  unfold Stmt.exec
  dsimp only
  rw [deref_some (m := { m with ptr := none, loc := none }) ho ha]
  exact ⟨rfl, rfl, rfl, rfl, hn⟩

/-- **C115, by owned pointer, copied.**  If the class has no reference counts and can be copied, the caller
gets a new object with the contents of the one the override returned, of the declared class, and holds its only
reference; no other object, no Python object and no registration is touched. -/
theorem C115_owned_copy_partial (c : RCls) (k : Bool) (code : List Stmt) (isa : Nat → Bool) (fresh stat : Nat) (m : M)
    (w a : Nat) (hc : Form.code (.ptr true k) c = .ok code) (hp : c.policy.counted = false) (hcp : Copyable c)
    (hi : isa w = true) (hn : m.null = false)
    (ho : (m.world.ws w).obj = some a) (ha : m.world.heap a ≠ none) :
    let r := convertResult (.ptr true k) c code isa fresh stat m (.inst w)
    r.2 = .pointer (some fresh) ∧ r.1.val fresh = m.val a ∧ r.1.dyn fresh = stat ∧
    r.1.world.heap fresh = some ⟨1, 1, none⟩ ∧ (∀ b, b ≠ fresh → r.1.world.heap b = m.world.heap b ∧
      r.1.val b = m.val b ∧ r.1.dyn b = m.dyn b) ∧
    r.1.world.ws = m.world.ws ∧ r.1.world.reg = m.world.reg ∧ r.1.world.next = m.world.next ∧
    r.1.world.bad = m.world.bad ∧ r.1.null = false := by
  obtain ⟨l, hl⟩ := copyValue_ok hcp
  simp only [Form.code, hp, hl, Bool.not_false, if_true] at hc
  cases hc
  simp only [convertResult, hi, if_true, execAll, hn, Bool.false_eq_true, if_false]
  unfold Stmt.exec
  dsimp only
  rw [deref_some (m := { m with ptr := none, loc := none, null := false }) ho ha, execAll_post]
  simp only [Form.hand, Form.gives, if_true, Form.result, Lifetime.cppGains, Lifetime.alloc, upd_same]
  refine ⟨trivial, trivial, trivial, trivial, fun b hb => ⟨?_, Lifetime.upd_ne _ _ hb, Lifetime.upd_ne _ _ hb⟩, trivial, trivial, trivial, trivial, trivial⟩
  rw [Lifetime.upd_ne _ _ hb, Lifetime.upd_ne _ _ hb]

/-- **C115, by owned pointer, counted.**  For a reference counted class the caller gets the very object the
override returned, with one more reference, which the caller holds. -/
theorem C115_owned_counted (c : RCls) (k : Bool) (code : List Stmt) (isa : Nat → Bool) (fresh stat : Nat) (m : M)
    (w a : Nat) (o : Lifetime.Obj) (hc : Form.code (.ptr true k) c = .ok code) (hp : c.policy.counted = true)
    (hi : isa w = true) (hn : m.null = false)
    (ho : (m.world.ws w).obj = some a) (ha : m.world.heap a = some o) :
    let r := convertResult (.ptr true k) c code isa fresh stat m (.inst w)
    r.2 = .pointer (some a) ∧ r.1.val = m.val ∧ r.1.dyn = m.dyn ∧
    r.1.world.heap a = some ⟨o.refs + 1, o.cpp + 1, o.pyself⟩ ∧
    (∀ b, b ≠ a → r.1.world.heap b = m.world.heap b) ∧
    r.1.world.ws = m.world.ws ∧ r.1.world.reg = m.world.reg ∧ r.1.world.next = m.world.next ∧
    r.1.world.bad = m.world.bad ∧ r.1.null = false := by
  have hns : c.policy.isSmart = false := by
    cases hq : c.policy <;> simp_all [Pol.counted, Pol.isSmart]
  have hd : (Stmt.incref).exec c ⟨w, fresh, stat⟩ { m with ptr := none, loc := none } =
      { m with world := Lifetime.incref m.world a, ptr := none, loc := none } := by
    unfold Stmt.exec
    dsimp only
    rw [deref_some (m := { m with ptr := none, loc := none }) ho (by simp [ha])]
  have hw : Lifetime.incref m.world a = { m.world with heap := upd m.world.heap a (some { o with refs := o.refs + 1 }) } := by
    unfold Lifetime.incref
    rw [ha]
  simp only [Form.code, hp, Bool.not_true, Bool.false_eq_true, if_false, if_true] at hc
  cases hc
  simp only [convertResult, hi, if_true]
  rw [execAll_two _ _ _ _ _ (by exact hn) (by rw [hd]; exact hn), hd]
  have he : (if k then Stmt.takeConst else Stmt.take).exec c ⟨w, fresh, stat⟩
      { m with world := Lifetime.incref m.world a, ptr := none, loc := none } =
      { m with world := Lifetime.incref m.world a, ptr := some a, loc := none } := by
    cases k <;> simp [Stmt.exec, hns, ho]
  rw [he]
  simp only [Form.hand, Form.gives, if_true, Form.result, hw, Lifetime.cppGains, upd_same]
  refine ⟨trivial, trivial, trivial, trivial, fun b hb => ?_, trivial, trivial, trivial, trivial, hn⟩
  rw [Lifetime.upd_ne _ _ hb, Lifetime.upd_ne _ _ hb]

/-- **C115, by smart pointer.**  The same for smart pointers. -/
theorem C115_shared_ptr (c : RCls) (code : List Stmt) (isa : Nat → Bool) (fresh stat : Nat) (m : M)
    (w a : Nat) (o : Lifetime.Obj) (hc : Form.code .shared c = .ok code) (hp : c.policy.isSmart = true)
    (hi : isa w = true) (hn : m.null = false)
    (ho : (m.world.ws w).obj = some a) (ha : m.world.heap a = some o) :
    let r := convertResult .shared c code isa fresh stat m (.inst w)
    r.2 = .pointer (some a) ∧ r.1.val = m.val ∧ r.1.dyn = m.dyn ∧
    r.1.world.heap a = some ⟨o.refs + 1, o.cpp + 1, o.pyself⟩ ∧
    (∀ b, b ≠ a → r.1.world.heap b = m.world.heap b) ∧
    r.1.world.ws = m.world.ws ∧ r.1.world.reg = m.world.reg ∧ r.1.world.next = m.world.next ∧
    r.1.world.bad = m.world.bad ∧ r.1.null = false := by
  have hw : Lifetime.incref m.world a = { m.world with heap := upd m.world.heap a (some { o with refs := o.refs + 1 }) } := by
    unfold Lifetime.incref
    rw [ha]
  cases hc
  simp only [convertResult, hi, if_true]
  rw [execAll_one _ _ _ _ (by exact hn)]
  simp only [Stmt.exec, hp, if_true, ho]
  simp only [Form.hand, Form.gives, if_true, Form.result, hw, Lifetime.cppGains, upd_same]
  refine ⟨trivial, trivial, trivial, trivial, fun b hb => ?_, trivial, trivial, trivial, trivial, hn⟩
  rw [Lifetime.upd_ne _ _ hb, Lifetime.upd_ne _ _ hb]

/-- **C115, by owned pointer, taken.**  If the class has no reference counts and cannot be copied, the caller
gets the object itself and the Python object loses it. -/
theorem C115_owned_taken_partial (c : RCls) (k : Bool) (code : List Stmt) (isa : Nat → Bool) (fresh stat : Nat) (m : M)
    (w a : Nat) (o : Lifetime.Obj) (hc : Form.code (.ptr true k) c = .ok code) (hp : c.policy.counted = false)
    (hs : c.policy.isSmart = false) (hcp : ¬ Copyable c) (hi : isa w = true) (hn : m.null = false)
    (ho : (m.world.ws w).obj = some a) (ha : m.world.heap a = some o) :
    let r := convertResult (.ptr true k) c code isa fresh stat m (.inst w)
    r.2 = .pointer (some a) ∧ r.1.val = m.val ∧ r.1.dyn = m.dyn ∧
    r.1.world.heap a = some ⟨o.refs, o.cpp + 1, o.pyself⟩ ∧
    (∀ b, b ≠ a → r.1.world.heap b = m.world.heap b) ∧ (r.1.world.ws w).obj = none ∧
    (∀ v, v ≠ w → r.1.world.ws v = m.world.ws v) ∧ r.1.world.reg = m.world.reg ∧ r.1.world.next = m.world.next ∧
    r.1.world.bad = m.world.bad ∧ r.1.null = false := by
  have hl := copyValue_error hcp
  simp only [Form.code, hp, hl, Bool.not_false, if_true] at hc
  cases hc
  simp only [convertResult, hi, if_true]
  have hd : (Stmt.take).exec c ⟨w, fresh, stat⟩ { m with ptr := none, loc := none } =
      { m with ptr := some a, loc := none } := by
    simp [Stmt.exec, hs, ho]
  rw [execAll_two _ _ _ _ _ (by exact hn) (by rw [hd]; exact hn), hd]
  simp only [Stmt.exec, Form.hand, Form.gives, if_true, Form.result, Lifetime.cppGains, Lifetime.setObj, ha, upd_same]
  refine ⟨trivial, trivial, trivial, trivial, fun b hb => Lifetime.upd_ne _ _ hb, trivial, fun v hv => Lifetime.upd_ne _ _ hv,
    trivial, trivial, trivial, hn⟩

/-- **C115, by plain pointer.**  The caller gets the object the override returned, and nothing changes. -/
theorem C115_plain_partial (c : RCls) (k : Bool) (code : List Stmt) (isa : Nat → Bool) (fresh stat : Nat) (m : M)
    (w : Nat) (hc : Form.code (.ptr false k) c = .ok code) (hi : isa w = true) (hn : m.null = false) :
    let r := convertResult (.ptr false k) c code isa fresh stat m (.inst w)
    r.2 = .pointer (m.world.ws w).obj ∧ r.1.val = m.val ∧ r.1.dyn = m.dyn ∧ r.1.world = m.world ∧ r.1.null = false := by
  cases hc
  simp only [convertResult, hi, if_true]
  rw [execAll_one _ _ _ _ (by exact hn)]
  exact ⟨rfl, rfl, rfl, rfl, hn⟩

/-- **C115, refusal.**  Exactly the instances of the declared class and its subclasses are accepted, whatever
the handler; everything else, `None` included, is refused and changes nothing. -/
theorem C115_refused (f : Form) (c : RCls) (code : List Stmt) (isa : Nat → Bool) (fresh stat : Nat) (m : M) (r : PyVal)
    (h : ∀ w, r = .inst w → isa w = false) :
    convertResult f c code isa fresh stat m r = (m, .refused) := by
  cases r with
  | none => rfl
  | other => rfl
  | inst w => simp [convertResult, h w rfl]

/-! ### Histories -/

theorem cls_policy_counted {c : RCls} {sing dtor : Bool} (h : c.policy.counted = true) :
    (cls c sing dtor).policy = .refcount := by
  unfold cls RCls.cls
  simp [h]

theorem bal_of_ws {c : Cls} {s t : World} {k : Option Nat} (h : Bal c s k) (h1 : t.ws = s.ws) (h2 : t.next = s.next)
    (h3 : t.heap = s.heap) (h4 : t.bad = s.bad) : Bal c t k := by
  obtain ⟨a, b, e, d, f, g⟩ := h
  have ho : ∀ x, owners t x = owners s x := fun x => by unfold owners; rw [h2]; unfold Owns; rw [h1]
  refine ⟨by rw [h4]; exact a, by rw [h1, h2]; exact b, ?_, ?_, by rw [h3]; exact f, by rw [h1]; exact g⟩
  · intro x o hx
    rw [h3] at hx
    rw [ho]; exact e x o hx
  · intro x hx
    rw [h3] at hx
    rw [ho]; exact d x hx

/-- The state stays in balance, and no null pointer is followed. -/
theorem bal_step {c : RCls} {sing dtor : Bool} (hf : Lifetime.Freeable (cls c sing dtor)) {m : M} {x : Act}
    (hb : Bal (cls c sing dtor) m.world none) (hn : m.null = false) (hg : Good c sing dtor m x) :
    Bal (cls c sing dtor) (step c sing dtor m x).world none ∧ (step c sing dtor m x).null = false := by
  cases x with
  | ev e v d => exact ⟨Bal.step hf hb hg.1 hg.2, hn⟩
  | over f w fresh stat =>
    obtain ⟨⟨code, hc⟩, ⟨hl, a, ho, ha⟩, hfr, hsm, hown⟩ := hg
    obtain ⟨o, ha'⟩ := Option.ne_none_iff_exists'.mp ha
    unfold step
    simp only [hc]
    cases f with
    | value r =>
      cases r with
      | true => cases hc
      | false =>
        obtain ⟨-, h2, -, -, h5⟩ := C115_value_partial c code (fun _ => true) fresh stat m w a hc rfl hn ho ha
        rw [h2]; exact ⟨hb, h5⟩
    | ref k =>
      cases k with
      | false => cases hc
      | true =>
        cases hc
        simp only [convertResult, if_true]
        rw [execAll_one _ _ _ _ (by exact hn)]
        unfold Stmt.exec
        dsimp only
        rw [deref_some (m := { m with ptr := none, loc := none }) ho ha]
        exact ⟨hb, hn⟩
    | shared =>
      have hs : c.policy.isSmart = true := hsm.mp rfl
      obtain ⟨-, -, -, h4, h5, h6, -, h8, h9, h10⟩ :=
        C115_shared_ptr c code (fun _ => true) fresh stat m w a o hc hs rfl hn ho ha'
      refine ⟨?_, h10⟩
      refine bal_of_ws (Bal.cppGains (Bal.incref hb ha)) (h6.trans (by simp)) (h8.trans (by simp)) ?_ ?_
      · funext b
        by_cases hba : b = a
        · subst hba
          rw [h4]; simp [Lifetime.incref, Lifetime.cppGains, ha']
        · rw [h5 b hba]; simp [Lifetime.incref, Lifetime.cppGains, ha', Lifetime.upd_ne _ _ hba]
      · rw [h9]; simp [Lifetime.incref, ha']
    | ptr own k =>
      have hs : c.policy.isSmart = false := by
        cases h : c.policy.isSmart with
        | false => rfl
        | true => exact absurd (hsm.mpr h) (by simp)
      cases own with
      | false =>
        obtain ⟨-, -, -, h2, h5⟩ := C115_plain_partial c k code (fun _ => true) fresh stat m w hc rfl hn
        rw [h2]; exact ⟨hb, h5⟩
      | true =>
        cases hp : c.policy.counted with
        | true =>
          obtain ⟨-, -, -, h4, h5, h6, -, h8, h9, h10⟩ :=
            C115_owned_counted c k code (fun _ => true) fresh stat m w a o hc hp rfl hn ho ha'
          refine ⟨?_, h10⟩
          refine bal_of_ws (Bal.cppGains (Bal.incref hb ha)) (h6.trans (by simp)) (h8.trans (by simp)) ?_ ?_
          · funext b
            by_cases hba : b = a
            · subst hba
              rw [h4]; simp [Lifetime.incref, Lifetime.cppGains, ha']
            · rw [h5 b hba]; simp [Lifetime.incref, Lifetime.cppGains, ha', Lifetime.upd_ne _ _ hba]
          · rw [h9]; simp [Lifetime.incref, ha']
        | false =>
          by_cases hcp : Copyable c
          · obtain ⟨-, -, -, h4, h5, h6, h7, h8, h9, h10⟩ :=
              C115_owned_copy_partial c k code (fun _ => true) fresh stat m w a hc hp hcp rfl hn ho ha
            refine ⟨?_, h10⟩
            have hne : Bal (cls c sing dtor) (Lifetime.step (cls c sing dtor) m.world (.cppNew fresh)) none :=
              Bal.step hf hb hfr trivial
            refine bal_of_ws hne h6 h8 ?_ h9
            funext b
            by_cases hbf : b = fresh
            · subst hbf
              rw [h4]; simp [Lifetime.step]
            · rw [(h5 b hbf).1]; simp [Lifetime.step, Lifetime.upd_ne _ _ hbf]
          · have hno := hown rfl hs hp (copyValue_error hcp)
            obtain ⟨-, -, -, h4, h5, h6, h7, -, h8, h9, h10⟩ :=
              C115_owned_taken_partial c k code (fun _ => true) fresh stat m w a o hc hp hs hcp rfl hn ho ha'
            refine ⟨?_, h10⟩
            have hl' := copyValue_error hcp
            simp only [Form.code, hp, hl', Bool.not_false, if_true] at hc
            cases hc
            simp only [convertResult, if_true]
            have hd : (Stmt.take).exec c ⟨w, fresh, stat⟩ { m with ptr := none, loc := none } =
                { m with ptr := some a, loc := none } := by
              simp [Stmt.exec, hs, ho]
            rw [execAll_two _ _ _ _ _ (by exact hn) (by rw [hd]; exact hn), hd]
            exact (Bal.drop hb hl ho hno).cppGains

theorem bal_run {c : RCls} {sing dtor : Bool} (hf : Lifetime.Freeable (cls c sing dtor)) :
    ∀ (xs : List Act) (m : M), Bal (cls c sing dtor) m.world none → m.null = false → GoodAll c sing dtor m xs →
      Bal (cls c sing dtor) (run c sing dtor m xs).world none ∧ (run c sing dtor m xs).null = false
  | [], _, hb, hn, _ => ⟨hb, hn⟩
  | _ :: xs, _, hb, hn, hg =>
    bal_run hf xs _ (bal_step hf hb hn hg.1).1 (bal_step hf hb hn hg.1).2 hg.2

/-- **C115, histories.**  In every history of ordinary events and of overrides returning objects to C++ —
by value, by plain or owned pointer, by smart pointer — no null pointer is followed, no object is freed twice
or released once too often, an object whose references C++ has all given up is alive only while a Python
object owns it, and reference counts are the references held. -/
theorem C115_accounting_partial (c : RCls) (sing dtor : Bool) (hf : Lifetime.Freeable (cls c sing dtor)) (xs : List Act)
    (h : GoodAll c sing dtor start xs) :
    let m := run c sing dtor start xs
    m.null = false ∧ m.world.bad = false ∧
    (∀ a o, m.world.heap a = some o → o.cpp = 0 → ∃ w, Owns m.world w a = true) ∧
    (∀ a o, m.world.heap a = some o → o.refs = o.cpp + owners m.world a) ∧
    (∀ w a, Owns m.world w a = true → m.world.heap a ≠ none) := by
  obtain ⟨hb, hn⟩ := bal_run hf xs start (Bal.init _) rfl h
  refine ⟨hn, hb.bad, ?_, ?_, ?_⟩
  · intro a o ha hc
    have ⟨h1, h2⟩ := hb.refs a o ha
    simp only [reduceCtorEq, if_false] at h1
    obtain ⟨w, _, hw⟩ := Lifetime.exists_owner (s := (run c sing dtor start xs).world) (a := a) (by omega)
    exact ⟨w, hw⟩
  · intro a o ha
    have ⟨h1, h2⟩ := hb.refs a o ha
    simpa using h1
  · intro w a hw hn
    have hl : ((run c sing dtor start xs).world.ws w).live = true := by
      simp only [Owns, Lifetime.Wrapper.owns, Bool.and_eq_true] at hw
      exact hw.1.1
    have := Lifetime.owners_pos (hb.lt hl) hw
    rw [hb.gone a hn] at this
    exact absurd this (by simp)

end Verif.Replies
