import Verif.Wrapper.FlowProps

/-!
# Which texts an execution can run

Tools for properties about particular statements (giving up and taking back the GIL): if every
text handed to the code blocks satisfies `Q`, so does every text an execution runs.
-/
namespace Verif.Flow

/-- The text of an action other than `return`. -/
def Act.text : Act → Option Str
  | .code s => some s
  | .clean _ _ s => some s
  | .ret _ => none

def Ev.text : Ev → Option Str
  | .did a => a.text
  | _ => none

/-- Every text run satisfies `Q`. -/
def EvQ (Q : Str → Prop) (t : List Ev) : Prop := ∀ e ∈ t, ∀ s, e.text = some s → Q s

def StmtQ (Q : Str → Prop) : Stmt → Prop
  | .act a => ∀ s, a.text = some s → Q s
  | .acq _ _ _ => True
  | .exit _ b => ∀ a ∈ b, ∀ s, a.text = some s → Q s

/-- Every text handed over satisfies `Q`. -/
def OpQ (Q : Str → Prop) : Op → Prop
  | .write _ s => Q s
  | .check _ _ x => ∀ s, x = some s → Q s
  | .branch _ _ pre post _ => (∀ s ∈ pre, Q s) ∧ ∀ s ∈ post, Q s
  | .bare _ _ pre _ => ∀ s ∈ pre, Q s
  | .add _ s => Q s
  | _ => True

/-- The block an operation works on. -/
def Op.block : Op → Nat
  | .write i _ => i
  | .check i _ _ => i
  | .branch i _ _ _ _ => i
  | .bare i _ _ _ => i
  | .add i _ => i
  | .setErr i _ => i
  | .cleanup i => i
  | .ret i _ => i

def DueQ (Q : Str → Prop) (g : Gen) : Prop := ∀ i, ∀ p ∈ (g i).due, Q p.2

theorem evQ_append {Q : Str → Prop} {a b : List Ev} : EvQ Q (a ++ b) ↔ EvQ Q a ∧ EvQ Q b := by
  simp only [EvQ, List.mem_append]
  exact ⟨fun h => ⟨fun e he => h e (Or.inl he), fun e he => h e (Or.inr he)⟩,
    fun h e he => he.elim (h.1 e) (h.2 e)⟩

theorem evQ_did {Q : Str → Prop} {b : List Act} (h : ∀ a ∈ b, ∀ s, a.text = some s → Q s) :
    EvQ Q (b.map .did) := by
  intro e he s hs
  obtain ⟨a, ha, rfl⟩ := List.mem_map.mp he
  exact h a ha s hs

theorem cleanup_q {Q : Str → Prop} {g : Gen} (h : DueQ Q g) :
    ∀ i, ∀ a ∈ g.cleanup i, ∀ s, a.text = some s → Q s
  | 0, a, ha, s, hs => by
    simp only [Gen.cleanup, List.mem_map] at ha
    obtain ⟨p, hp, rfl⟩ := ha
    cases hs; exact h 0 p hp
  | i + 1, a, ha, s, hs => by
    simp only [Gen.cleanup] at ha
    rcases List.mem_append.mp ha with ha | ha
    · obtain ⟨p, hp, rfl⟩ := List.mem_map.mp ha
      cases hs; exact h (i + 1) p hp
    · exact cleanup_q h i a ha s hs

theorem step_other (g : Gen) (op : Op) (j : Nat) (h : op.block ≠ j) : (g.step op) j = g j := by
  cases op <;> simp only [Gen.step, Gen.emit, Op.block] at h ⊢ <;>
    exact upd_ne _ _ (fun e => h e.symm)

/-- What one operation adds to a block. -/
theorem step_ext {Q : Str → Prop} {g : Gen} (hd : DueQ Q g) (op : Op) (hq : OpQ Q op) :
    DueQ Q (g.step op) ∧
      ∀ j, ∃ l, ((g.step op) j).stmts = (g j).stmts ++ l ∧ (∀ s ∈ l, StmtQ Q s) ∧
        (op.block ≠ j → l = []) := by
  have emit : ∀ (i : Nat) (l : List Stmt), g.step op = g.emit i l → op.block = i →
      (∀ s ∈ l, StmtQ Q s) → DueQ Q (g.step op) ∧
      ∀ j, ∃ l, ((g.step op) j).stmts = (g j).stmts ++ l ∧ (∀ s ∈ l, StmtQ Q s) ∧
        (op.block ≠ j → l = []) := by
    intro i l he hb hl
    refine ⟨fun j p hp => ?_, fun j => ?_⟩
    · rw [he, due_emit] at hp; exact hd j p hp
    · rw [he, stmts_emit]
      split
      · rename_i e; subst e; exact ⟨l, rfl, hl, fun h => absurd hb h⟩
      · exact ⟨[], by simp, by simp, fun _ => rfl⟩
  have hc := cleanup_q hd
  cases op with
  | write i s =>
    refine emit i _ rfl rfl ?_
    intro x hx; rw [List.mem_singleton] at hx; subst hx
    intro y hy; cases hy; exact hq
  | check i cond extra =>
    refine emit i _ rfl rfl ?_
    intro x hx; rw [List.mem_singleton] at hx; subst hx
    intro a ha s hs
    simp only [List.mem_append, List.mem_map, List.mem_singleton, Option.mem_toList] at ha
    rcases ha with (⟨y, hy, rfl⟩ | ha) | rfl
    · cases hs; exact hq _ hy
    · exact hc i a ha s hs
    · cases hs
  | branch i cond pre post r =>
    refine emit i _ rfl rfl ?_
    intro x hx; rw [List.mem_singleton] at hx; subst hx
    intro a ha s hs
    simp only [List.mem_append, List.mem_map, List.mem_singleton] at ha
    rcases ha with ((⟨y, hy, rfl⟩ | ha) | ⟨y, hy, rfl⟩) | rfl
    · cases hs; exact hq.1 _ hy
    · exact hc i a ha s hs
    · cases hs; exact hq.2 _ hy
    · cases hs
  | bare i cond pre r =>
    refine emit i _ rfl rfl ?_
    intro x hx; rw [List.mem_singleton] at hx; subst hx
    intro a ha s hs
    simp only [List.mem_append, List.mem_map, List.mem_singleton] at ha
    rcases ha with ⟨y, hy, rfl⟩ | rfl
    · cases hs; exact hq _ hy
    · cases hs
  | cleanup i =>
    refine emit i _ rfl rfl ?_
    intro x hx
    obtain ⟨a, ha, rfl⟩ := List.mem_map.mp hx
    exact hc i a ha
  | ret i r =>
    refine emit i _ rfl rfl ?_
    intro x hx; rw [List.mem_singleton] at hx; subst hx
    intro y hy; cases hy
  | setErr i s =>
    refine ⟨fun j p hp => ?_, fun j => ⟨[], ?_, by simp, fun _ => rfl⟩⟩
    · simp only [Gen.step] at hp
      by_cases h : j = i
      · subst h; rw [upd_self] at hp; exact hd j p hp
      · rw [upd_ne _ _ h] at hp; exact hd j p hp
    · simp only [Gen.step]
      by_cases h : j = i
      · subst h; rw [upd_self]; simp
      · rw [upd_ne _ _ h]; simp
  | add i s =>
    refine ⟨fun j p hp => ?_, fun j => ?_⟩
    · simp only [Gen.step] at hp
      by_cases h : j = i
      · subst h; rw [upd_self] at hp
        rcases List.mem_cons.mp hp with rfl | hp
        · exact hq
        · exact hd j p hp
      · rw [upd_ne _ _ h] at hp; exact hd j p hp
    · simp only [Gen.step]
      by_cases h : j = i
      · subst h; rw [upd_self]
        refine ⟨[.acq j ((g j).count + 1) s], rfl, ?_, fun h => absurd rfl h⟩
        intro x hx; rw [List.mem_singleton] at hx; subst hx; trivial
      · rw [upd_ne _ _ h]; exact ⟨[], by simp, by simp, fun _ => rfl⟩

theorem run_ext {Q : Str → Prop} : ∀ (ops : List Op) {g : Gen}, DueQ Q g → (∀ op ∈ ops, OpQ Q op) →
    DueQ Q (g.run ops) ∧
      ∀ j, ∃ l, ((g.run ops) j).stmts = (g j).stmts ++ l ∧ (∀ s ∈ l, StmtQ Q s) ∧
        ((∀ op ∈ ops, op.block ≠ j) → l = [])
  | [], g, hd, _ => ⟨hd, fun j => ⟨[], by simp [Gen.run], by simp, fun _ => rfl⟩⟩
  | op :: ops, g, hd, hq => by
    obtain ⟨h1, h2⟩ := step_ext hd op (hq op List.mem_cons_self)
    obtain ⟨h3, h4⟩ := run_ext ops h1 (fun o ho => hq o (List.mem_cons_of_mem _ ho))
    refine ⟨h3, fun j => ?_⟩
    obtain ⟨l1, e1, p1, n1⟩ := h2 j
    obtain ⟨l2, e2, p2, n2⟩ := h4 j
    refine ⟨l1 ++ l2, ?_, ?_, ?_⟩
    · change (((g.step op).run ops) j).stmts = _
      rw [e2, e1, List.append_assoc]
    · intro s hs
      rcases List.mem_append.mp hs with hs | hs
      · exact p1 s hs
      · exact p2 s hs
    · intro h
      rw [n1 (h op List.mem_cons_self), n2 (fun o ho => h o (List.mem_cons_of_mem _ ho))]; rfl

theorem dueQ_fresh (Q : Str → Prop) (er : Nat → Str) : DueQ Q (Gen.fresh er) := by
  intro i p hp; simp [Gen.fresh] at hp

/-- An execution of `A ++ B`, where the texts in `A` satisfy `Q`, ends within `A` or goes on in
`B`. -/
theorem path_q {Q : Str → Prop} {A B : List Stmt} {t : List Ev} (hA : ∀ s ∈ A, StmtQ Q s)
    (hp : Path (A ++ B) t) :
    EvQ Q t ∨ ∃ t1 t2, t = t1 ++ t2 ∧ EvQ Q t1 ∧ Path B t2 := by
  induction A generalizing t with
  | nil => exact Or.inr ⟨[], t, rfl, by intro e he; simp at he, hp⟩
  | cons s A ih =>
    have hA' : ∀ s ∈ A, StmtQ Q s := fun s hs => hA s (List.mem_cons_of_mem _ hs)
    have hs := hA s List.mem_cons_self
    have key : ∀ (e : Ev) (t' : List Ev), Path (A ++ B) t' → (∀ x, e.text = some x → Q x) →
        EvQ Q (e :: t') ∨ ∃ t1 t2, e :: t' = t1 ++ t2 ∧ EvQ Q t1 ∧ Path B t2 := by
      intro e t' ht he
      have h1 : EvQ Q [e] := by
        intro x hx; rw [List.mem_singleton] at hx; subst hx; exact he
      rcases ih hA' ht with h | ⟨t1, t2, rfl, h2, h3⟩
      · exact Or.inl (evQ_append (a := [e]).mpr ⟨h1, h⟩)
      · exact Or.inr ⟨e :: t1, t2, rfl, evQ_append (a := [e]).mpr ⟨h1, h2⟩, h3⟩
    cases hp with
    | code h => exact key _ _ h hs
    | clean h => exact key _ _ h hs
    | ret =>
      left
      intro e he x hx; rw [List.mem_singleton] at he; subst he; cases hx
    | acq h => exact key _ _ h (by intro x hx; cases hx)
    | pass h => exact key _ _ h (by intro x hx; cases hx)
    | @leave c b rest =>
      left
      refine evQ_append (a := [.left c]).mpr ⟨?_, evQ_did hs⟩
      intro e he x hx; rw [List.mem_singleton] at he; subst he; cases hx

theorem path_q_all {Q : Str → Prop} {A : List Stmt} {t : List Ev} (hA : ∀ s ∈ A, StmtQ Q s)
    (hp : Path A t) : EvQ Q t := by
  rcases path_q (B := []) hA (by simpa using hp) with h | ⟨t1, t2, rfl, h1, h2⟩
  · exact h
  · cases h2; simpa using h1

end Verif.Flow
