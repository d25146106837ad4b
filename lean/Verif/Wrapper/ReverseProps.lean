import Verif.Wrapper.Reverse
import Verif.Wrapper.ForwardFlow

/-!
# C43: reverse wrappers hold the GIL
-/
namespace Verif.Flow

/-- Operations of which the body of a reverse wrapper consists; `R` holds of the texts it returns
with. -/
def Tidy (R : Str → Prop) : Op → Prop
  | .write _ _ => True
  | .check _ _ _ => True
  | .branch _ _ _ post r => post = [] ∧ R r
  | .add _ _ => True
  | .setErr _ s => R s
  | _ => False

/-- The actions of an exit: texts, cleanups other than the first one, the first one, `return`. -/
def ExitOk (R : Str → Prop) (rel : Str) (b : List Act) : Prop :=
  ∃ m r, b = m ++ [.clean 0 1 rel, .ret r] ∧ R r ∧
    ∀ a ∈ m, (∃ s, a = .code s) ∨ ∃ i k s, a = .clean i k s ∧ (i, k) ≠ (0, 1)

def StmtOk (R : Str → Prop) (rel : Str) : Stmt → Prop
  | .act (.code _) => True
  | .act _ => False
  | .acq i k _ => (i, k) ≠ (0, 1)
  | .exit _ b => ExitOk R rel b

/-- State of the generator after the first cleanup `rel` was registered in block 0. -/
structure GInv (R : Str → Prop) (rel : Str) (first : Str) (g : Gen) : Prop where
  due : ∃ l, (g 0).due = l ++ [(1, rel)] ∧ ∀ p ∈ l, p.1 ≠ 1
  count : 1 ≤ (g 0).count
  er : ∀ i, R (g i).er
  blk0 : ∃ l, (g 0).stmts = .act (.code first) :: .acq 0 1 rel :: l ∧ ∀ s ∈ l, StmtOk R rel s
  blk : ∀ i, i ≠ 0 → ∀ s ∈ (g i).stmts, StmtOk R rel s

theorem cleanup_shape {R : Str → Prop} {rel first : Str} {g : Gen} (h : GInv R rel first g) :
    ∀ i, ∃ m, g.cleanup i = m ++ [.clean 0 1 rel] ∧
      ∀ a ∈ m, ∃ j k s, a = .clean j k s ∧ (j, k) ≠ (0, 1)
  | 0 => by
    obtain ⟨l, hl, hn⟩ := h.due
    refine ⟨l.map (fun p => .clean 0 p.1 p.2), by simp [Gen.cleanup, hl], ?_⟩
    intro a ha
    obtain ⟨p, hp, rfl⟩ := List.mem_map.mp ha
    exact ⟨0, p.1, p.2, rfl, fun e => hn p hp (congrArg Prod.snd e)⟩
  | i + 1 => by
    obtain ⟨m, hm, hn⟩ := cleanup_shape h i
    refine ⟨(g (i + 1)).due.map (fun p => .clean (i + 1) p.1 p.2) ++ m, by simp [Gen.cleanup, hm], ?_⟩
    intro a ha
    rcases List.mem_append.mp ha with ha | ha
    · obtain ⟨p, hp, rfl⟩ := List.mem_map.mp ha
      exact ⟨i + 1, p.1, p.2, rfl, fun e => by cases e⟩
    · exact hn a ha

theorem gInv_emit {R : Str → Prop} {rel first : Str} {g : Gen} (h : GInv R rel first g) (i : Nat)
    (x : Stmt) (hx : StmtOk R rel x) : GInv R rel first (g.emit i [x]) := by
  have hcount : ∀ j, ((g.emit i [x]) j).count = (g j).count := by
    intro j; unfold Gen.emit
    by_cases e : j = i
    · subst e; rw [upd_self]
    · rw [upd_ne _ _ e]
  have her : ∀ j, ((g.emit i [x]) j).er = (g j).er := by
    intro j; unfold Gen.emit
    by_cases e : j = i
    · subst e; rw [upd_self]
    · rw [upd_ne _ _ e]
  refine ⟨?_, ?_, ?_, ?_, ?_⟩
  · rw [due_emit]; exact h.due
  · rw [hcount]; exact h.count
  · intro j; rw [her]; exact h.er j
  · obtain ⟨l, hl, hs⟩ := h.blk0
    rw [stmts_emit]
    split
    · rename_i e; subst e
      refine ⟨l ++ [x], by rw [hl]; simp, ?_⟩
      intro s hs'
      rcases List.mem_append.mp hs' with hs' | hs'
      · exact hs s hs'
      · rw [List.mem_singleton] at hs'; subst hs'; exact hx
    · exact ⟨l, hl, hs⟩
  · intro j hj s hs
    rw [stmts_emit] at hs
    split at hs
    · rename_i e; subst e
      rcases List.mem_append.mp hs with hs | hs
      · exact h.blk j hj s hs
      · rw [List.mem_singleton] at hs; subst hs; exact hx
    · exact h.blk j hj s hs

theorem gInv_step {R : Str → Prop} {rel first : Str} {g : Gen} (h : GInv R rel first g) (op : Op)
    (ht : Tidy R op) : GInv R rel first (g.step op) := by
  cases op with
  | write i s => exact gInv_emit h i _ trivial
  | check i cond extra =>
    refine gInv_emit h i _ ?_
    obtain ⟨m, hm, hn⟩ := cleanup_shape h i
    refine ⟨extra.toList.map .code ++ m, (g i).er, by simp [hm], h.er i, ?_⟩
    intro a ha
    rcases List.mem_append.mp ha with ha | ha
    · obtain ⟨s, -, rfl⟩ := List.mem_map.mp ha; exact Or.inl ⟨s, rfl⟩
    · exact Or.inr (hn a ha)
  | branch i cond pre post r =>
    obtain ⟨rfl, hr⟩ := ht
    refine gInv_emit h i _ ?_
    obtain ⟨m, hm, hn⟩ := cleanup_shape h i
    refine ⟨pre.map .code ++ m, r, by simp [hm], hr, ?_⟩
    intro a ha
    rcases List.mem_append.mp ha with ha | ha
    · obtain ⟨s, -, rfl⟩ := List.mem_map.mp ha; exact Or.inl ⟨s, rfl⟩
    · exact Or.inr (hn a ha)
  | bare => cases ht
  | cleanup => cases ht
  | ret => cases ht
  | setErr i s =>
    refine ⟨?_, ?_, ?_, ?_, ?_⟩
    · simp only [Gen.step]
      by_cases e : 0 = i
      · subst e; rw [upd_self]; exact h.due
      · rw [upd_ne _ _ e]; exact h.due
    · simp only [Gen.step]
      by_cases e : 0 = i
      · subst e; rw [upd_self]; exact h.count
      · rw [upd_ne _ _ e]; exact h.count
    · intro j
      simp only [Gen.step]
      by_cases e : j = i
      · subst e; rw [upd_self]; exact ht
      · rw [upd_ne _ _ e]; exact h.er j
    · simp only [Gen.step]
      by_cases e : 0 = i
      · subst e; rw [upd_self]; exact h.blk0
      · rw [upd_ne _ _ e]; exact h.blk0
    · intro j hj
      simp only [Gen.step]
      by_cases e : j = i
      · subst e; rw [upd_self]; exact h.blk j hj
      · rw [upd_ne _ _ e]; exact h.blk j hj
  | add i s =>
    have hc := h.count
    refine ⟨?_, ?_, ?_, ?_, ?_⟩
    · simp only [Gen.step]
      obtain ⟨l, hl, hn⟩ := h.due
      by_cases e : 0 = i
      · subst e; rw [upd_self]
        refine ⟨((g 0).count + 1, s) :: l, by simp [hl], ?_⟩
        intro p hp
        rcases List.mem_cons.mp hp with rfl | hp
        · simp; omega
        · exact hn p hp
      · rw [upd_ne _ _ e]; exact ⟨l, hl, hn⟩
    · simp only [Gen.step]
      by_cases e : 0 = i
      · subst e; rw [upd_self]; simp
      · rw [upd_ne _ _ e]; exact hc
    · intro j
      simp only [Gen.step]
      by_cases e : j = i
      · subst e; rw [upd_self]; exact h.er j
      · rw [upd_ne _ _ e]; exact h.er j
    · simp only [Gen.step]
      obtain ⟨l, hl, hs⟩ := h.blk0
      by_cases e : 0 = i
      · subst e; rw [upd_self]
        refine ⟨l ++ [.acq 0 ((g 0).count + 1) s], by simp [hl], ?_⟩
        intro x hx
        rcases List.mem_append.mp hx with hx | hx
        · exact hs x hx
        · rw [List.mem_singleton] at hx; subst hx
          simp only [StmtOk, ne_eq, Prod.mk.injEq, true_and]; omega
      · rw [upd_ne _ _ e]; exact ⟨l, hl, hs⟩
    · intro j hj x hx
      simp only [Gen.step] at hx
      by_cases e : j = i
      · subst e; rw [upd_self] at hx
        rcases List.mem_append.mp hx with hx | hx
        · exact h.blk j hj x hx
        · rw [List.mem_singleton] at hx; subst hx
          simp only [StmtOk, ne_eq, Prod.mk.injEq, not_and]; intro e0; exact absurd e0 hj
      · rw [upd_ne _ _ e] at hx; exact h.blk j hj x hx

theorem gInv_run {R : Str → Prop} {rel first : Str} : ∀ (ops : List Op) {g : Gen},
    GInv R rel first g → (∀ op ∈ ops, Tidy R op) → GInv R rel first (g.run ops)
  | [], _, h, _ => h
  | op :: ops, _, h, ht => gInv_run ops (gInv_step h op (ht op List.mem_cons_self))
      (fun o ho => ht o (List.mem_cons_of_mem _ ho))

/-- The first resource is neither released nor the function left in `t`. -/
def Busy (t : List Ev) : Prop :=
  ∀ e ∈ t, (∀ s, e ≠ .did (.clean 0 1 s)) ∧ (∀ r, e ≠ .did (.ret r)) ∧ ∀ s, e ≠ .took 0 1 s

theorem busy_append {a b : List Ev} : Busy (a ++ b) ↔ Busy a ∧ Busy b := by
  simp only [Busy, List.mem_append]
  exact ⟨fun h => ⟨fun e he => h e (Or.inl he), fun e he => h e (Or.inr he)⟩,
    fun h e he => he.elim (h.1 e) (h.2 e)⟩

theorem busy_one {e : Ev} (h : (∀ s, e ≠ .did (.clean 0 1 s)) ∧ (∀ r, e ≠ .did (.ret r)) ∧
    ∀ s, e ≠ .took 0 1 s) : Busy [e] := by
  intro x hx; rw [List.mem_singleton] at hx; subst hx; exact h

theorem busy_acts {m : List Act}
    (hn : ∀ a ∈ m, (∃ s, a = .code s) ∨ ∃ i k s, a = .clean i k s ∧ (i, k) ≠ (0, 1)) :
    Busy (m.map .did) := by
  intro e he
  obtain ⟨a, ha, rfl⟩ := List.mem_map.mp he
  rcases hn a ha with ⟨s, rfl⟩ | ⟨i, k, s, rfl, hik⟩
  · exact ⟨by simp, by simp, by simp⟩
  · refine ⟨fun s' e' => ?_, by simp, by simp⟩
    simp only [Ev.did.injEq, Act.clean.injEq] at e'
    exact hik (by rw [e'.1, e'.2.1])

/-- Executions of such statements followed by a final cleanup and return. -/
theorem path_gil {R : Str → Prop} {rel : Str} {S : List Stmt} {cl : List Act} {r : Str} {t : List Ev}
    (hS : ∀ s ∈ S, StmtOk R rel s) (hr : R r)
    (hcl : ∀ a ∈ cl, ∃ i k s, a = .clean i k s ∧ (i, k) ≠ (0, 1))
    (hp : Path (S ++ (cl.map .act ++ [.act (.clean 0 1 rel), .act (.ret r)])) t) :
    ∃ mid r', t = mid ++ [.did (.clean 0 1 rel), .did (.ret r')] ∧ Busy mid ∧ R r' := by
  induction S generalizing t with
  | nil =>
    obtain ⟨t2, rfl, h2⟩ := path_cleans (fun a ha => by
      obtain ⟨i, k, s, rfl, -⟩ := hcl a ha; exact ⟨i, k, s, rfl⟩) hp
    cases h2 with
    | clean h3 =>
      cases h3
      exact ⟨_, r, rfl, busy_acts (fun a ha => Or.inr (hcl a ha)), hr⟩
  | cons s S ih =>
    have hS' : ∀ s ∈ S, StmtOk R rel s := fun s hs => hS s (List.mem_cons_of_mem _ hs)
    have hs := hS s List.mem_cons_self
    have key : ∀ (e : Ev) (t' : List Ev),
        Path (S ++ (cl.map .act ++ [.act (.clean 0 1 rel), .act (.ret r)])) t' → Busy [e] →
        ∃ mid r', e :: t' = mid ++ [.did (.clean 0 1 rel), .did (.ret r')] ∧ Busy mid ∧ R r' := by
      intro e t' ht he
      obtain ⟨mid, r', rfl, h1, h2⟩ := ih hS' ht
      exact ⟨e :: mid, r', rfl, busy_append (a := [e]).mpr ⟨he, h1⟩, h2⟩
    cases hp with
    | code h => exact key _ _ h (busy_one ⟨by simp, by simp, by simp⟩)
    | clean h => exact absurd hs (by simp [StmtOk])
    | ret => exact absurd hs (by simp [StmtOk])
    | @acq i k x _ _ h =>
      refine key _ _ h (busy_one ⟨by simp, by simp, ?_⟩)
      intro y e
      simp only [Ev.took.injEq] at e
      exact hs (by rw [e.1, e.2.1])
    | pass h => exact key _ _ h (busy_one ⟨by simp, by simp, by simp⟩)
    | @leave c b _ =>
      obtain ⟨m, r', rfl, hR, hm⟩ := hs
      exact ⟨.left c :: m.map .did, r', by simp,
        busy_append (a := [.left c]).mpr ⟨busy_one ⟨by simp, by simp, by simp⟩, busy_acts hm⟩, hR⟩

/-- **First acquired, last released.**  A function whose generation starts with the text `first` and
the registration of `rel`, goes on with tidy operations on two blocks and ends with the final
cleanup and return. -/
theorem gil_every_path {R : Str → Prop} (er : Nat → Str) (her : ∀ i, R (er i)) (first rel r : Str)
    (hr : R r) (ops : List Op) (ht : ∀ op ∈ ops, Tidy R op) (t : List Ev)
    (hp : Path (((Gen.fresh er).run (.write 0 first :: .add 0 rel :: (ops ++ [.cleanup 1, .ret 1 r]))).body 2) t) :
    ∃ mid r', t = .did (.code first) :: .took 0 1 rel :: (mid ++ [.did (.clean 0 1 rel), .did (.ret r')]) ∧
      Busy mid ∧ R r' := by
  have h0 : GInv R rel first (((Gen.fresh er).step (.write 0 first)).step (.add 0 rel)) := by
    refine ⟨⟨[], ?_, by simp⟩, ?_, ?_, ⟨[], ?_, by simp⟩, ?_⟩
    · simp [Gen.step, Gen.emit, Gen.upd, Gen.fresh]
    · simp [Gen.step, Gen.emit, Gen.upd, Gen.fresh]
    · intro i
      by_cases e : i = 0 <;> simp [Gen.step, Gen.emit, Gen.upd, Gen.fresh, e, her]
    · simp [Gen.step, Gen.emit, Gen.upd, Gen.fresh]
    · intro i hi s hs
      simp [Gen.step, Gen.emit, Gen.upd, Gen.fresh, hi] at hs
  have h1 := gInv_run ops h0 ht
  change Path (((((Gen.fresh er).step (.write 0 first)).step (.add 0 rel)).run
    (ops ++ [.cleanup 1, .ret 1 r])).body 2) t at hp
  rw [run_append] at hp
  generalize (((Gen.fresh er).step (.write 0 first)).step (.add 0 rel)).run ops = g at h1 hp
  obtain ⟨l, hl, hs⟩ := h1.blk0
  obtain ⟨m, hm, hn⟩ := cleanup_shape h1 1
  have hb : (g.run [.cleanup 1, .ret 1 r]).body 2 = .act (.code first) :: .acq 0 1 rel ::
      ((l ++ (g 1).stmts) ++ (m.map .act ++ [.act (.clean 0 1 rel), .act (.ret r)])) := by
    simp only [Gen.run, List.foldl_cons, List.foldl_nil, Gen.step, Gen.body, stmts_emit, hl, hm]
    simp
  rw [hb] at hp
  cases hp with
  | code hp =>
  cases hp with
  | acq hp =>
  obtain ⟨mid, r', rfl, h2, h3⟩ := path_gil (S := l ++ (g 1).stmts) (fun s hs' => by
    rcases List.mem_append.mp hs' with hs' | hs'
    · exact hs s hs'
    · exact h1.blk 1 (by decide) s hs') hr hn hp
  exact ⟨mid, r', rfl, h2, h3⟩

end Verif.Flow

namespace Verif.Wrap
open Verif Verif.Flow Verif.Params Verif.DeclScope

/-- `w'` arises from `w` by operations satisfying `P`. -/
def OpsTo (P : Op → Prop) (w w' : W) : Prop := ∃ l, w'.ops = w.ops ++ l ∧ ∀ op ∈ l, P op

theorem OpsTo.refl {P : Op → Prop} (w : W) : OpsTo P w w := ⟨[], by simp, by simp⟩

theorem OpsTo.trans {P : Op → Prop} {a b c : W} (h1 : OpsTo P a b) (h2 : OpsTo P b c) : OpsTo P a c := by
  obtain ⟨l1, e1, p1⟩ := h1
  obtain ⟨l2, e2, p2⟩ := h2
  refine ⟨l1 ++ l2, by rw [e2, e1, List.append_assoc], ?_⟩
  intro op hop
  rcases List.mem_append.mp hop with hop | hop
  · exact p1 op hop
  · exact p2 op hop

theorem OpsTo.op {P : Op → Prop} {a b : W} (h : OpsTo P a b) {o : Op} (ho : P o) : OpsTo P a (b.op o) :=
  h.trans ⟨[o], rfl, by simpa using ho⟩

theorem OpsTo.declare {P : Op → Prop} {w w' : W} {t n v : Str} {x a : Option Str}
    (h : w.declare t n x a = .ok (w', v)) : OpsTo P w w' := ⟨[], by simp [declare_ops h], by simp⟩

theorem opsIn_runAll {P : Op → Prop} : ∀ {ps : List Gen1}, (∀ p ∈ ps, OpsIn P p) → OpsIn P (runAll ps)
  | [], _ => opsIn_ok P
  | p :: ps, h => by
    intro w w' hw
    simp only [runAll] at hw
    obtain ⟨w1, h1, h2⟩ := bind_ok.mp hw
    obtain ⟨l1, e1, p1⟩ := h p List.mem_cons_self w w1 h1
    obtain ⟨l2, e2, p2⟩ := opsIn_runAll (fun q hq => h q (List.mem_cons_of_mem _ hq)) w1 w' h2
    refine ⟨l1 ++ l2, by rw [e2, e1, List.append_assoc], ?_⟩
    intro op hop
    rcases List.mem_append.mp hop with hop | hop
    · exact p1 op hop
    · exact p2 op hop

/-- Sequential composition. -/
theorem opsIn_bind {P : Op → Prop} {f g : Gen1} (hf : OpsIn P f) (hg : OpsIn P g) :
    OpsIn P (fun w => do g (← f w)) := by
  intro w w' hw
  obtain ⟨w1, h1, h2⟩ := bind_ok.mp hw
  obtain ⟨l1, e1, p1⟩ := hf w w1 h1
  obtain ⟨l2, e2, p2⟩ := hg w1 w' h2
  refine ⟨l1 ++ l2, by rw [e2, e1, List.append_assoc], ?_⟩
  intro op hop
  rcases List.mem_append.mp hop with hop | hop
  · exact p1 op hop
  · exact p2 op hop

theorem opsIn_declRetval (P : Op → Prop) : OpsIn P declRetval := by
  intro w w' h
  unfold declRetval at h
  obtain ⟨⟨w1, v⟩, h1, h⟩ := bind_ok.mp h
  dsimp only at h
  split at h
  · cases h; exact ⟨[], by simp [declare_ops h1], by simp⟩
  · cases h

theorem opsIn_declCRetval (P : Op → Prop) (t : Option Str) : OpsIn P (declCRetval t) := by
  intro w w' h
  unfold declCRetval at h
  split at h
  · obtain ⟨⟨w1, v⟩, h1, h⟩ := bind_ok.mp h
    cases h; exact ⟨[], by simp [declare_ops h1], by simp⟩
  · cases h; exact ⟨[], by simp, by simp⟩

theorem opsIn_revParse (R : Str → Prop) : OpsIn (Tidy R) revParse := by
  intro w w' h
  unfold revParse at h
  obtain ⟨ps, -, h⟩ := bind_ok.mp h
  dsimp only at h
  split at h
  · cases h; exact ⟨[_], rfl, by simp [Tidy]⟩
  · cases h; exact ⟨[_, _], List.append_assoc .., by simp [Tidy]⟩

/-- The operations of a reverse wrapper. -/
theorem reverse_ops {c : RConfig} {w0 w : W} (h : reverseGenerate c w0 = .ok w) (hg : c.noGil = false)
    {R : Str → Prop} (hpro : OpsIn (Tidy R) c.prologue) (hparams : ∀ p ∈ c.params, OpsIn (Tidy R) p)
    (hpy : OpsIn (Tidy R) c.pycall) (hret : OpsIn (Tidy R) c.ret) :
    ∃ v l, w.ops = w0.ops ++ .write 0 (ensureText v) :: .add 0 (releaseText v) ::
      (l ++ [.cleanup 1, .ret 1 (if c.isVoid then "return;".toList else "return retval;".toList)]) ∧
      ∀ op ∈ l, Tidy R op := by
  unfold reverseGenerate at h
  obtain ⟨w1, h1, h⟩ := bind_ok.mp h
  obtain ⟨w2, h2, h⟩ := bind_ok.mp h
  obtain ⟨w3, h3, h⟩ := bind_ok.mp h
  obtain ⟨w4, h4, h⟩ := bind_ok.mp h
  obtain ⟨w5, h5, h⟩ := bind_ok.mp h
  obtain ⟨w6, h6, h⟩ := bind_ok.mp h
  obtain ⟨w7, h7, h⟩ := bind_ok.mp h
  obtain ⟨w8, h8, h⟩ := bind_ok.mp h
  cases h
  unfold gilCode at h1
  rw [hg] at h1
  simp only [Bool.false_eq_true, if_false] at h1
  obtain ⟨⟨wv, v⟩, hv, h1⟩ := bind_ok.mp h1
  cases h1
  obtain ⟨l2, e2, p2⟩ := hpro _ _ h2
  obtain ⟨l3, e3, p3⟩ := opsIn_declRetval (Tidy R) _ _ h3
  obtain ⟨l4, e4, p4⟩ := opsIn_declCRetval (Tidy R) _ _ _ h4
  obtain ⟨l5, e5, p5⟩ := opsIn_runAll hparams _ _ h5
  obtain ⟨l6, e6, p6⟩ := hpy _ _ h6
  obtain ⟨l7, e7, p7⟩ := hret _ _ h7
  obtain ⟨l8, e8, p8⟩ := opsIn_revParse R _ _ h8
  refine ⟨v, l2 ++ l3 ++ l4 ++ l5 ++ l6 ++ l7 ++ l8, ?_, ?_⟩
  · simp only [revFinish, W.op] at *
    rw [e8, e7, e6, e5, e4, e3, e2, declare_ops hv]
    simp only [List.append_assoc, List.cons_append, List.nil_append]
  · intro op hop
    simp only [List.mem_append] at hop
    rcases hop with (((((hop | hop) | hop) | hop) | hop) | hop) | hop
    · exact p2 op hop
    · exact p3 op hop
    · exact p4 op hop
    · exact p5 op hop
    · exact p6 op hop
    · exact p7 op hop
    · exact p8 op hop

/-- **C43, general form.**  Whatever the parameters, the Python call and the return value handler
write (as long as they leave only through error checks and cleanup branches), every execution of
the generated function
* first acquires the GIL,
* releases it exactly once, as the last thing before it returns,
* and in between neither releases it nor returns. -/
theorem C43_general_partial (c : RConfig) (w0 w : W) (h0 : w0.ops = [])
    (h : reverseGenerate c w0 = .ok w) (hg : c.noGil = false) {R : Str → Prop}
    (hpro : OpsIn (Tidy R) c.prologue) (hparams : ∀ p ∈ c.params, OpsIn (Tidy R) p)
    (hpy : OpsIn (Tidy R) c.pycall) (hret : OpsIn (Tidy R) c.ret)
    (hR : R "return;".toList ∧ R "return retval;".toList) (er : Nat → Str) (her : ∀ i, R (er i)) :
    ∃ v, ∀ t, Path (((Gen.fresh er).run w.ops).body 2) t →
      ∃ mid r, t = .did (.code (ensureText v)) :: .took 0 1 (releaseText v) ::
        (mid ++ [.did (.clean 0 1 (releaseText v)), .did (.ret r)]) ∧ Busy mid ∧ R r := by
  obtain ⟨v, l, hops, hl⟩ := reverse_ops h hg hpro hparams hpy hret
  refine ⟨v, fun t ht => ?_⟩
  rw [hops, h0] at ht
  refine gil_every_path er her _ _ _ ?_ l hl t ht
  split
  · exact hR.1
  · exact hR.2

/-! ## Virtual method proxies -/

/-- A return statement. -/
def IsReturn (s : Str) : Prop := ∃ rest, s = "return".toList ++ rest

/-- The method has a parent implementation to fall back on, or nothing to return, or a value to
make up. -/
def Proxy.Safe (p : Proxy) : Prop := p.isVoid = true ∨ p.noParent = false ∨ p.trivialRet = true

theorem newError_return {p : Proxy} (hs : p.Safe) (e : Str) (h : p.newError = some e) : IsReturn e := by
  unfold Proxy.newError at h
  split at h
  · cases h
  · split at h
    · split at h
      · cases h
      · rename_i h1 h2 h3
        rcases hs with hs | hs | hs
        · exact absurd hs h1
        · rw [hs] at h2; cases h2
        · exact absurd hs h3
    · cases h
      exact ⟨' ' :: p.parentCall, rfl⟩

theorem opsIn_prologue {R : Str → Prop} (p : Proxy)
    (hn : ∀ e, p.newError = some e → R e) (hv : p.isVoid = true → R "return;".toList)
    (he : p.isVoid = false → p.newError = none → R p.errorReturn) : OpsIn (Tidy R) p.prologue := by
  intro w w' h
  unfold Proxy.prologue at h
  obtain ⟨⟨w1, m⟩, h1, h⟩ := bind_ok.mp h
  obtain ⟨⟨w2, o⟩, h2, h⟩ := bind_ok.mp h
  cases h
  have hr : R (if p.isVoid then "return;".toList else p.newError.getD p.errorReturn) := by
    split
    · rename_i hvd; exact hv hvd
    · rename_i hvd
      cases hne : p.newError with
      | none => exact he (by simpa using hvd) hne
      | some e => exact hn e hne
  have s1 : OpsTo (Tidy R) w w1 := OpsTo.declare h1
  have s2 : OpsTo (Tidy R) w1 w2 := by
    refine OpsTo.trans ?_ (OpsTo.declare h2)
    refine OpsTo.op ?_ ⟨rfl, hr⟩
    cases hne : p.newError with
    | none => exact OpsTo.op (OpsTo.op (OpsTo.refl _) trivial) trivial
    | some e =>
      have := hn e hne
      exact OpsTo.op (OpsTo.op (OpsTo.op (OpsTo.op (OpsTo.refl _) trivial) trivial) this) this
  refine OpsTo.op ?_ trivial
  refine OpsTo.op ?_ trivial
  refine OpsTo.op ?_ trivial
  exact s1.trans s2

theorem opsIn_pycall (R : Str → Prop) (p : Proxy) : OpsIn (Tidy R) p.pycall := by
  intro w w' h
  unfold Proxy.pycall at h
  cases h
  exact OpsTo.op (OpsTo.op (OpsTo.op (OpsTo.refl _) trivial) trivial) trivial

/-- **C43 for virtual method proxies.**  For every virtual method that is void, or has a callable
parent implementation, or returns a class with a trivial constructor, with parameters and return
handlers of any kind: every execution of the proxy takes the GIL first, releases it exactly once,
and the only thing done after the release is a `return` statement. -/
theorem C43_proxy_partial (p : Proxy) (hs : p.Safe) (retDecl : Option Str) (params : List Gen1)
    (ret : Gen1) (hparams : ∀ q ∈ params, OpsIn (Tidy IsReturn) q) (hret : OpsIn (Tidy IsReturn) ret)
    (her : IsReturn p.errorReturn) (w0 w : W) (h0 : w0.ops = [])
    (h : reverseGenerate (p.config retDecl params ret) w0 = .ok w) :
    ∃ v, ∀ t, Path (((Gen.fresh (fun _ => p.errorReturn)).run w.ops).body 2) t →
      ∃ mid r, t = .did (.code (ensureText v)) :: .took 0 1 (releaseText v) ::
        (mid ++ [.did (.clean 0 1 (releaseText v)), .did (.ret r)]) ∧ Busy mid ∧ IsReturn r :=
  C43_general_partial (p.config retDecl params ret) w0 w h0 h rfl
    (opsIn_prologue p (newError_return hs) (fun _ => ⟨_, rfl⟩) (fun _ _ => her)) hparams
    (opsIn_pycall _ p) hret ⟨⟨_, rfl⟩, ⟨_, rfl⟩⟩ _ (fun _ => her)

/-! The modelled handlers obey the contract. -/

theorem opsIn_rscalar (R : Str → Prop) (s : RScalar) : OpsIn (Tidy R) s.convert := by
  intro w w' h
  unfold RScalar.convert at h
  cases h
  refine ⟨[], ?_, by simp⟩
  split <;> split <;> simp [W.addBuild, W.addParse]

theorem opsIn_rBool (R : Str → Prop) (name lhs : Str) (i o : Bool) : OpsIn (Tidy R) (rBool name lhs i o) := by
  intro w w' h
  unfold rBool at h
  dsimp only at h
  have e0 : (if i = true then
      w.addBuild ⟨"N".toList, ["PyBool_FromLong(".toList ++ lhs ++ ")".toList], none⟩ false else w).ops = w.ops := by
    split <;> simp [W.addBuild]
  generalize (if i = true then
      w.addBuild ⟨"N".toList, ["PyBool_FromLong(".toList ++ lhs ++ ")".toList], none⟩ false else w) = w1 at h e0
  unfold whenG at h
  split at h
  · obtain ⟨⟨w2, v⟩, h2, h⟩ := bind_ok.mp h
    cases h
    exact ⟨[_], by simp only [W.op, W.addParse]; rw [declare_ops h2, e0], by simp [Tidy]⟩
  · cases h; exact ⟨[], by simp [e0], by simp⟩

theorem opsIn_rReturn (R : Str → Prop) (f : Str) : OpsIn (Tidy R) (rReturn f) := by
  intro w w' h; cases h; exact ⟨[], by simp [W.addParse], by simp⟩

theorem opsIn_rReturnVia (R : Str → Prop) (t b f : Str) (chk : Option (Str → Str)) (conv : Str → Str) :
    OpsIn (Tidy R) (rReturnVia t b f chk conv) := by
  intro w w' h
  unfold rReturnVia at h
  obtain ⟨⟨w1, v⟩, h1, h⟩ := bind_ok.mp h
  cases h
  cases chk with
  | none => exact ⟨[_], by simp only [W.op, W.addParse]; rw [declare_ops h1], by simp [Tidy]⟩
  | some g =>
    exact ⟨[_, _], by simp only [W.op, W.addParse, List.append_assoc]; rw [declare_ops h1]; rfl, by
      simp only [List.forall_mem_cons, Tidy]; simp⟩

/-- Non-vacuity: `virtual int8_t f(int a)` with a parent implementation. -/
def proxyExample : Proxy :=
  { cls := "Foo".toList, pystruct := "PyFoo".toList, method := "f".toList, params := ["a".toList]
    isVoid := false, noParent := false, errorReturn := "return 0;".toList }

example : (reverseGenerate (proxyExample.config (some "int8_t".toList)
    [RScalar.convert { name := "a".toList, fmt := "i".toList, source := "a".toList }]
    (rReturnVia "int".toList "tmp".toList "i".toList (some (fun v => v ++ " > 128 || ".toList ++ v ++ " < -127".toList))
      (fun v => v))) {}).toOption.map (fun w => w.ops.length) = some 19 := by
  decide +kernel

/-- For a pure virtual method with a result the property fails: after the GIL is released the
generated code still calls `PyErr_Print` and `Py_FatalError`. -/
theorem C43_pure_virtual_counterexample :
    let p : Proxy := { proxyExample with noParent := true }
    ∃ ops, (reverseGenerate (p.config (some "int".toList) [] (rReturn "i".toList)) {}).toOption.map
        (fun w => w.ops) = some ops ∧
    ∃ t, Path (((Gen.fresh (fun _ => p.errorReturn)).run ops).body 2) t ∧
      ∃ t1, t = t1 ++ [.did (.clean 0 1 (releaseText "__py_gil_state".toList)), .did (.ret fatalText)] := by
  intro p
  refine ⟨[.write 0 (ensureText "__py_gil_state".toList), .add 0 (releaseText "__py_gil_state".toList),
    .write 0 "py_method = PyObject_GetAttrString(m_pyself, (char *) \"f\"); PyErr_Clear();".toList,
    .add 0 "Py_XDECREF(py_method);".toList, .setErr 0 fatalText, .setErr 1 fatalText,
    .branch 0 "if (py_method == NULL || Py_TYPE(py_method) == &PyCFunction_Type)".toList [] [] fatalText,
    .write 0 "self_obj_before = reinterpret_cast< PyFoo* >(m_pyself)->obj;".toList,
    .write 0 "reinterpret_cast< PyFoo* >(m_pyself)->obj = (Foo*) this;".toList,
    .add 0 "reinterpret_cast< PyFoo* >(m_pyself)->obj = self_obj_before;".toList,
    .write 0 "py_retval = PyObject_CallMethod(m_pyself, (char *) \"f\", (char *) \"\");".toList,
    .check 0 "py_retval == NULL".toList (some "PyErr_Print();".toList),
    .add 0 "Py_DECREF(py_retval);".toList,
    .write 0 "py_retval = Py_BuildValue((char*) \"(N)\", py_retval);".toList,
    .check 0 "!PyArg_ParseTuple(py_retval, (char *) \"i\", &retval)".toList (some "PyErr_Print();".toList),
    .cleanup 1, .ret 1 "return retval;".toList], by decide +kernel, _,
    .code (.acq (.code (.acq .leave))), ?_⟩
  exact ⟨[.did (.code (ensureText "__py_gil_state".toList)), .took 0 1 (releaseText "__py_gil_state".toList),
    .did (.code "py_method = PyObject_GetAttrString(m_pyself, (char *) \"f\"); PyErr_Clear();".toList),
    .took 0 2 "Py_XDECREF(py_method);".toList,
    .left "if (py_method == NULL || Py_TYPE(py_method) == &PyCFunction_Type)".toList,
    .did (.clean 0 2 "Py_XDECREF(py_method);".toList)], rfl⟩

end Verif.Wrap
