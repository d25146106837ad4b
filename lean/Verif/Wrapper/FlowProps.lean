import Verif.Wrapper.Flow

/-!
# C42: what a generated wrapper acquires it releases, on every path
-/
namespace Verif.Flow

abbrev Res := Nat × Nat × Str

/-- Cleanups in an action list. -/
def cleans (l : List Act) : List Res :=
  l.filterMap (fun | .clean i k s => some (i, k, s) | _ => none)

/-- Acquisition points in a statement list. -/
def acqs (l : List Stmt) : List Res :=
  l.filterMap (fun | .acq i k s => some (i, k, s) | _ => none)

theorem cleans_append (a b : List Act) : cleans (a ++ b) = cleans a ++ cleans b := by
  simp [cleans, List.filterMap_append]

theorem acqs_append (a b : List Stmt) : acqs (a ++ b) = acqs a ++ acqs b := by
  simp [acqs, List.filterMap_append]

theorem cleans_code (l : List Str) : cleans (l.map .code) = [] := by
  simp [cleans, List.filterMap_map]

/-- The block an operation may leave the function from after running the cleanups due. -/
def Op.exits : Op → Option Nat
  | .check i _ _ => some i
  | .branch i _ _ _ _ => some i
  | _ => none

/-- The rule type handlers have to follow: nothing is acquired in a block after an exit was already
written to a later block of the chain (that exit could not know of it). -/
def Disciplined (ops : List Op) : Prop :=
  ∀ a b j s, ops = a ++ .add j s :: b → ∀ op ∈ a, ∀ i, op.exits = some i → i ≤ j

/-- A checker for `Disciplined`; `seen` holds the blocks exits were written to so far. -/
def discB (seen : List Nat) : List Op → Bool
  | [] => true
  | op :: ops => (match op with | .add j _ => seen.all (fun i => decide (i ≤ j)) | _ => true) &&
      discB (op.exits.toList ++ seen) ops

theorem discB_sound : ∀ (ops : List Op) (seen : List Nat), discB seen ops = true →
    ∀ a b j s, ops = a ++ .add j s :: b →
      (∀ i ∈ seen, i ≤ j) ∧ ∀ op ∈ a, ∀ i, op.exits = some i → i ≤ j
  | [], _, _, a, b, j, s, h => by simp at h
  | op :: ops, seen, hb, a, b, j, s, h => by
    simp only [discB, Bool.and_eq_true] at hb
    obtain ⟨h1, h2⟩ := hb
    cases a with
    | nil =>
      simp only [List.nil_append, List.cons.injEq] at h
      obtain ⟨rfl, -⟩ := h
      exact ⟨by simpa using h1, by simp⟩
    | cons x a =>
      simp only [List.cons_append, List.cons.injEq] at h
      obtain ⟨rfl, h⟩ := h
      obtain ⟨h3, h4⟩ := discB_sound ops _ h2 a b j s h
      refine ⟨fun i hi => h3 i (List.mem_append_right _ hi), ?_⟩
      intro o ho i hi
      rcases List.mem_cons.mp ho with rfl | ho
      · exact h3 i (List.mem_append_left _ (by simp [hi]))
      · exact h4 o ho i hi

theorem disciplined_of_check {ops : List Op} (h : discB [] ops = true) : Disciplined ops :=
  fun a b j s he => (discB_sound ops [] h a b j s he).2

/-- Operations of which the main part of a wrapper consists: no return statement outside the
known forms and no cleanup run twice. -/
def Op.plain : Op → Bool
  | .write _ _ => true
  | .check _ _ _ => true
  | .branch _ _ _ _ _ => true
  | .add _ _ => true
  | .setErr _ _ => true
  | _ => false

/-- Cleanups due for the blocks before block `i`. -/
def low (g : Gen) : Nat → List Res
  | 0 => []
  | i + 1 => cleans (g.cleanup i)

theorem cleans_cleanup (g : Gen) (i : Nat) :
    cleans (g.cleanup i) = (g i).due.map (fun p => (i, p.1, p.2)) ++ low g i := by
  cases i with
  | zero => simp [Gen.cleanup, cleans, low, List.filterMap_map, Function.comp_def]
  | succ i =>
    simp [Gen.cleanup, cleans, low, List.filterMap_append, List.filterMap_map, Function.comp_def]

/-- Is the statement one that a plain operation emits? -/
def Stmt.quiet : Stmt → Prop
  | .act (.code _) => True
  | .act _ => False
  | _ => True

structure Inv (g : Gen) : Prop where
  due : ∀ i, (g i).due.map (fun p => (i, p.1, p.2)) = (acqs (g i).stmts).reverse
  exit : ∀ i a c b rest, (g i).stmts = a ++ .exit c b :: rest →
    cleans b = (acqs a).reverse ++ low g i
  quiet : ∀ i, ∀ s ∈ (g i).stmts, s.quiet
  hasExit : True

theorem low_congr {g g' : Gen} : ∀ i, (∀ j, j < i → (g' j).due = (g j).due) → low g' i = low g i
  | 0, _ => rfl
  | i + 1, h => by
    have ih := low_congr (g := g) (g' := g') i (fun j hj => h j (by omega))
    simp only [low]
    rw [cleans_cleanup, cleans_cleanup, ih, h i (by omega)]

theorem append_eq_snoc_exit {l a rest : List Stmt} {x y : Stmt}
    (h : l ++ [x] = a ++ y :: rest) :
    (∃ r, l = a ++ y :: r ∧ rest = r ++ [x]) ∨ (a = l ∧ y = x ∧ rest = []) := by
  rcases List.eq_nil_or_concat rest with rfl | ⟨r, z, rfl⟩
  · right
    have := List.append_inj' h (by simp)
    simp at this
    exact ⟨this.1.symm, this.2.symm, rfl⟩
  · left
    have h' : l ++ [x] = (a ++ y :: r) ++ [z] := by simp [h]
    have := List.append_inj' h' (by simp)
    simp at this
    exact ⟨r, this.1, by simp [this.2]⟩

theorem upd_self (g : Gen) (i : Nat) (b : Blk) : (g.upd i b) i = b := by simp [Gen.upd]
theorem upd_ne (g : Gen) {i j : Nat} (b : Blk) (h : j ≠ i) : (g.upd i b) j = g j := by
  simp [Gen.upd, h]

theorem due_emit (g : Gen) (i : Nat) (l : List Stmt) (j : Nat) :
    ((g.emit i l) j).due = (g j).due := by
  unfold Gen.emit
  by_cases h : j = i
  · subst h; rw [upd_self]
  · rw [upd_ne _ _ h]

theorem low_emit (g : Gen) (i : Nat) (l : List Stmt) (j : Nat) : low (g.emit i l) j = low g j :=
  low_congr j (fun k _ => due_emit g i l k)

theorem stmts_emit (g : Gen) (i : Nat) (l : List Stmt) (j : Nat) :
    ((g.emit i l) j).stmts = if j = i then (g i).stmts ++ l else (g j).stmts := by
  unfold Gen.emit
  by_cases h : j = i
  · subst h; rw [upd_self]; simp
  · rw [upd_ne _ _ h]; simp [h]

/-- Emitting one statement that is no acquisition. -/
theorem inv_emit {g : Gen} (hi : Inv g) (i : Nat) (x : Stmt) (hq : x.quiet) (ha : acqs [x] = [])
    (hx : ∀ c b, x = .exit c b → cleans b = cleans (g.cleanup i)) : Inv (g.emit i [x]) := by
  refine ⟨fun j => ?_, fun j a c b rest h => ?_, fun j s hs => ?_, trivial⟩
  · rw [due_emit, stmts_emit]
    split
    · rename_i e; subst e; rw [acqs_append, ha]; simpa using hi.due j
    · exact hi.due j
  · rw [stmts_emit] at h
    rw [low_emit]
    split at h
    · rename_i e; subst e
      rcases append_eq_snoc_exit h with ⟨r, hl, -⟩ | ⟨rfl, hy, -⟩
      · exact hi.exit j a c b r hl
      · rw [hx c b hy.symm, cleans_cleanup, hi.due]
    · exact hi.exit j a c b rest h
  · rw [stmts_emit] at hs
    split at hs
    · rename_i e; subst e
      rcases List.mem_append.mp hs with hs | hs
      · exact hi.quiet j s hs
      · rw [List.mem_singleton] at hs; subst hs; exact hq
    · exact hi.quiet j s hs

/-- The blocks that have exits. -/
def HasExit (g : Gen) (i : Nat) : Prop := ∃ a c b rest, (g i).stmts = a ++ .exit c b :: rest

theorem inv_step {g : Gen} (hi : Inv g) (op : Op) (hp : op.plain = true)
    (hd : ∀ j s, op = .add j s → ∀ i, HasExit g i → i ≤ j) : Inv (g.step op) := by
  cases op with
  | write i s => exact inv_emit hi i _ trivial rfl (by intro c b h; cases h)
  | check i cond extra =>
    refine inv_emit hi i _ trivial rfl ?_
    intro c b h
    cases h
    simp only [cleans_append, cleans_code]
    simp [cleans]
  | branch i cond pre post r =>
    refine inv_emit hi i _ trivial rfl ?_
    intro c b h
    cases h
    simp only [cleans_append, cleans_code]
    simp [cleans]
  | bare i cond pre r => cases hp
  | cleanup i => cases hp
  | ret i r => cases hp
  | setErr i s =>
    have hs : ∀ j, ((g.step (.setErr i s)) j).stmts = (g j).stmts := by
      intro j; simp only [Gen.step]
      by_cases h : j = i
      · subst h; rw [upd_self]
      · rw [upd_ne _ _ h]
    have hdue : ∀ j, ((g.step (.setErr i s)) j).due = (g j).due := by
      intro j; simp only [Gen.step]
      by_cases h : j = i
      · subst h; rw [upd_self]
      · rw [upd_ne _ _ h]
    refine ⟨fun j => ?_, fun j a c b rest h => ?_, fun j x hx => ?_, trivial⟩
    · rw [hs, hdue]; exact hi.due j
    · rw [hs] at h; rw [low_congr j (fun k _ => hdue k)]; exact hi.exit j a c b rest h
    · rw [hs] at hx; exact hi.quiet j x hx
  | add i s =>
    have hs : ∀ j, ((g.step (.add i s)) j).stmts
        = if j = i then (g i).stmts ++ [.acq i ((g i).count + 1) s] else (g j).stmts := by
      intro j; simp only [Gen.step]
      by_cases h : j = i
      · subst h; rw [upd_self]; simp
      · rw [upd_ne _ _ h]; simp [h]
    have hdue : ∀ j, ((g.step (.add i s)) j).due
        = if j = i then ((g i).count + 1, s) :: (g i).due else (g j).due := by
      intro j; simp only [Gen.step]
      by_cases h : j = i
      · subst h; rw [upd_self]; simp
      · rw [upd_ne _ _ h]; simp [h]
    refine ⟨fun j => ?_, fun j a c b rest h => ?_, fun j x hx => ?_, trivial⟩
    · rw [hs, hdue]
      split
      · rename_i e; subst e
        rw [acqs_append, List.reverse_append, List.map_cons, hi.due j]; rfl
      · exact hi.due j
    · have hlow : low (g.step (.add i s)) j = low g j := by
        refine low_congr j (fun k hk => ?_)
        rw [hdue]
        split
        · rename_i e; subst e
          exfalso
          have hex : HasExit g j := by
            rw [hs, if_neg (by omega)] at h
            exact ⟨a, c, b, rest, h⟩
          have := hd k s rfl j hex
          omega
        · rfl
      rw [hlow]
      rw [hs] at h
      split at h
      · rename_i e; subst e
        rcases append_eq_snoc_exit h with ⟨r, hl, -⟩ | ⟨-, hy, -⟩
        · exact hi.exit j a c b r hl
        · cases hy
      · exact hi.exit j a c b rest h
    · rw [hs] at hx
      split at hx
      · rename_i e; subst e
        rcases List.mem_append.mp hx with hx | hx
        · exact hi.quiet j x hx
        · rw [List.mem_singleton] at hx; subst hx; trivial
      · exact hi.quiet j x hx

theorem inv_fresh (er : Nat → Str) : Inv (Gen.fresh er) := by
  refine ⟨fun i => rfl, fun i a c b rest h => ?_, fun i s hs => ?_, trivial⟩
  · simp [Gen.fresh] at h
  · simp [Gen.fresh] at hs

theorem hasExit_step {g : Gen} {op : Op} {i : Nat} (hp : op.plain = true)
    (h : HasExit (g.step op) i) : HasExit g i ∨ op.exits = some i := by
  obtain ⟨a, c, b, rest, h⟩ := h
  have em : ∀ (k : Nat) (x : Stmt), g.step op = g.emit k [x] →
      ((∃ c b, x = .exit c b) → op.exits = some k) → HasExit g i ∨ op.exits = some i := by
    intro k x he hx
    rw [he, stmts_emit] at h
    split at h
    · rename_i e; subst e
      rcases append_eq_snoc_exit h with ⟨r, hl, -⟩ | ⟨-, hy, -⟩
      · exact Or.inl ⟨a, c, b, r, hl⟩
      · exact Or.inr (hx ⟨c, b, hy.symm⟩)
    · exact Or.inl ⟨a, c, b, rest, h⟩
  cases op with
  | write k s => exact em k _ rfl (by rintro ⟨c, b, h⟩; cases h)
  | check k cond extra => exact em k _ rfl (fun _ => rfl)
  | branch k cond pre post r => exact em k _ rfl (fun _ => rfl)
  | bare => cases hp
  | cleanup => cases hp
  | ret => cases hp
  | setErr k s =>
    left
    simp only [Gen.step] at h
    by_cases e : i = k
    · subst e; rw [upd_self] at h; exact ⟨a, c, b, rest, h⟩
    · rw [upd_ne _ _ e] at h; exact ⟨a, c, b, rest, h⟩
  | add k s =>
    left
    simp only [Gen.step] at h
    by_cases e : i = k
    · subst e; rw [upd_self] at h
      rcases append_eq_snoc_exit h with ⟨r, hl, -⟩ | ⟨-, hy, -⟩
      · exact ⟨a, c, b, r, hl⟩
      · cases hy
    · rw [upd_ne _ _ e] at h; exact ⟨a, c, b, rest, h⟩

theorem run_snoc (g : Gen) (ops : List Op) (op : Op) :
    g.run (ops ++ [op]) = (g.run ops).step op := by simp [Gen.run, List.foldl_append]

theorem run_append (g : Gen) (a b : List Op) : g.run (a ++ b) = (g.run a).run b := by
  simp [Gen.run, List.foldl_append]

theorem run_inv (er : Nat → Str) (ops : List Op) (hp : ∀ op ∈ ops, op.plain = true)
    (hd : Disciplined ops) :
    Inv ((Gen.fresh er).run ops) ∧
      ∀ i, HasExit ((Gen.fresh er).run ops) i → ∃ op ∈ ops, op.exits = some i := by
  suffices H : ∀ n, n ≤ ops.length → Inv ((Gen.fresh er).run (ops.take n)) ∧
      ∀ i, HasExit ((Gen.fresh er).run (ops.take n)) i → ∃ op ∈ ops.take n, op.exits = some i by
    have := H ops.length (Nat.le_refl _)
    rwa [List.take_length] at this
  intro n
  induction n with
  | zero =>
    intro _
    refine ⟨inv_fresh er, ?_⟩
    rintro i ⟨a, c, b, rest, h⟩
    simp [Gen.run, Gen.fresh] at h
  | succ n ih =>
    intro hn
    obtain ⟨h1, h2⟩ := ih (by omega)
    have hlt : n < ops.length := by omega
    have ht : ops.take (n + 1) = ops.take n ++ [ops[n]] := List.take_succ_eq_append_getElem hlt
    have hmem : ops[n] ∈ ops := List.getElem_mem hlt
    rw [ht, run_snoc]
    refine ⟨inv_step h1 _ (hp _ hmem) ?_, ?_⟩
    · intro j s he i hex
      obtain ⟨op, hop, hi⟩ := h2 i hex
      refine hd (ops.take n) (ops.drop (n + 1)) j s ?_ op hop i hi
      rw [← he, ← List.drop_eq_getElem_cons hlt, List.take_append_drop]
    · intro i hex
      rcases hasExit_step (hp _ hmem) hex with h | h
      · obtain ⟨op, hop, hi⟩ := h2 i h
        exact ⟨op, List.mem_append_left _ hop, hi⟩
      · exact ⟨ops[n], List.mem_append_right _ (List.mem_singleton_self _), h⟩

theorem low_body {g : Gen} (hi : Inv g) : ∀ i, (acqs (g.body i)).reverse = low g i
  | 0 => rfl
  | i + 1 => by
    simp only [Gen.body, low]
    rw [acqs_append, List.reverse_append, low_body hi i, cleans_cleanup, hi.due]

/-! ## Paths -/

theorem taken_append (a b : List Ev) : taken (a ++ b) = taken a ++ taken b := by
  simp [taken, List.filterMap_append]

theorem cleaned_append (a b : List Ev) : cleaned (a ++ b) = cleaned a ++ cleaned b := by
  simp [cleaned, List.filterMap_append]

theorem cleaned_did (b : List Act) : cleaned (b.map .did) = cleans b := by
  induction b with
  | nil => rfl
  | cons a b ih =>
    cases a <;> simp_all [cleaned, cleans]

theorem taken_did (b : List Act) : taken (b.map .did) = [] := by
  simp [taken, List.filterMap_map, Function.comp_def]

/-- An execution of quiet statements followed by others either leaves among the former or gets
through them. -/
theorem path_split {S R : List Stmt} {t : List Ev} (hq : ∀ s ∈ S, s.quiet) (hp : Path (S ++ R) t) :
    (∃ a c b rest t1, S = a ++ .exit c b :: rest ∧ t = t1 ++ .left c :: b.map .did ∧
      taken t1 = acqs a ∧ cleaned t1 = []) ∨
    (∃ t1 t2, t = t1 ++ t2 ∧ taken t1 = acqs S ∧ cleaned t1 = [] ∧ Path R t2) := by
  induction S generalizing t with
  | nil => exact Or.inr ⟨[], t, rfl, rfl, rfl, hp⟩
  | cons s S ih =>
    have hq' : ∀ s ∈ S, s.quiet := fun s hs => hq s (List.mem_cons_of_mem _ hs)
    have hs := hq s List.mem_cons_self
    have key : ∀ (e : Ev) (t' : List Ev), t = e :: t' → Path (S ++ R) t' →
        taken [e] = acqs [s] → cleaned [e] = [] →
        (∃ a c b rest t1, s :: S = a ++ .exit c b :: rest ∧ t = t1 ++ .left c :: b.map .did ∧
          taken t1 = acqs a ∧ cleaned t1 = []) ∨
        (∃ t1 t2, t = t1 ++ t2 ∧ taken t1 = acqs (s :: S) ∧ cleaned t1 = [] ∧ Path R t2) := by
      intro e t' he hpath ht hc
      rcases ih hq' hpath with ⟨a, c, b, rest, t1, h1, h2, h3, h4⟩ | ⟨t1, t2, h1, h2, h3, h4⟩
      · refine Or.inl ⟨s :: a, c, b, rest, e :: t1, by simp [h1], by simp [he, h2], ?_, ?_⟩
        · rw [show e :: t1 = [e] ++ t1 from rfl, taken_append, h3, ht,
            show s :: a = [s] ++ a from rfl, acqs_append]
        · rw [show e :: t1 = [e] ++ t1 from rfl, cleaned_append, h4, hc]; rfl
      · refine Or.inr ⟨e :: t1, t2, by simp [he, h1], ?_, ?_, h4⟩
        · rw [show e :: t1 = [e] ++ t1 from rfl, taken_append, h2, ht,
            show s :: S = [s] ++ S from rfl, acqs_append]
        · rw [show e :: t1 = [e] ++ t1 from rfl, cleaned_append, h3, hc]; rfl
    cases hp with
    | code h => exact key _ _ rfl h rfl rfl
    | clean h => exact absurd hs (by simp [Stmt.quiet])
    | ret => exact absurd hs (by simp [Stmt.quiet])
    | acq h => exact key _ _ rfl h rfl rfl
    | pass h => exact key _ _ rfl h rfl rfl
    | @leave c b rest => exact Or.inl ⟨[], c, b, S, [], rfl, rfl, rfl, rfl⟩

/-- Leaving somewhere in the blocks. -/
theorem leave_balanced {g : Gen} (hi : Inv g) : ∀ (n : Nat) (a : List Stmt) (c : Str) (b : List Act)
    (rest : List Stmt), g.body n = a ++ .exit c b :: rest → cleans b = (acqs a).reverse
  | 0, a, c, b, rest, h => by simp [Gen.body] at h
  | n + 1, a, c, b, rest, h => by
    simp only [Gen.body] at h
    rcases List.append_eq_append_iff.mp h with ⟨as, h1, h2⟩ | ⟨bs, h1, h2⟩
    · rw [hi.exit n as c b rest h2, h1, acqs_append, List.reverse_append, low_body hi]
    · cases bs with
      | nil =>
        simp only [List.append_nil] at h1
        simp only [List.nil_append] at h2
        rw [hi.exit n [] c b rest h2.symm, ← h1, low_body hi]; rfl
      | cons x bs =>
        simp only [List.cons_append, List.cons.injEq] at h2
        obtain ⟨rfl, -⟩ := h2
        exact leave_balanced hi n a c b bs h1

theorem body_quiet {g : Gen} (hi : Inv g) : ∀ n, ∀ s ∈ g.body n, s.quiet
  | 0, s, hs => by simp [Gen.body] at hs
  | n + 1, s, hs => by
    simp only [Gen.body] at hs
    rcases List.mem_append.mp hs with hs | hs
    · exact body_quiet hi n s hs
    · exact hi.quiet n s hs

theorem body_emit (g : Gen) (n : Nat) (l : List Stmt) :
    ∀ m, m ≤ n → (g.emit n l).body m = g.body m
  | 0, _ => rfl
  | m + 1, h => by
    simp only [Gen.body]
    rw [body_emit g n l m (by omega), stmts_emit, if_neg (by omega)]

/-- What is written after the final cleanup: further statements of the last block. -/
def Op.last (n : Nat) : Op → Bool
  | .write i _ => i == n
  | .ret i _ => i == n
  | _ => false

/-- Acts only: codes and returns -/
def Trailing (l : List Stmt) : Prop := ∀ s ∈ l, ∃ a, s = .act a ∧ ∀ i k x, a ≠ .clean i k x

theorem path_trailing {l : List Stmt} {t : List Ev} (hl : Trailing l) (hp : Path l t) :
    cleaned t = [] ∧ taken t = [] := by
  induction hp with
  | nil => exact ⟨rfl, rfl⟩
  | code h ih =>
    obtain ⟨h1, h2⟩ := ih (fun s hs => hl s (List.mem_cons_of_mem _ hs))
    exact ⟨by simpa [cleaned] using h1, by simpa [taken] using h2⟩
  | clean h ih =>
    obtain ⟨a, ha, hn⟩ := hl _ List.mem_cons_self
    cases ha; exact absurd rfl (hn _ _ _)
  | ret => exact ⟨rfl, rfl⟩
  | acq h ih => obtain ⟨a, ha, hn⟩ := hl _ List.mem_cons_self; cases ha
  | pass h ih => obtain ⟨a, ha, hn⟩ := hl _ List.mem_cons_self; cases ha
  | leave => obtain ⟨a, ha, hn⟩ := hl _ List.mem_cons_self; cases ha

theorem path_cleans {l : List Act} {R : List Stmt} {t : List Ev}
    (hl : ∀ a ∈ l, ∃ i k s, a = .clean i k s) (hp : Path (l.map .act ++ R) t) :
    ∃ t2, t = l.map .did ++ t2 ∧ Path R t2 := by
  induction l generalizing t with
  | nil => exact ⟨t, rfl, hp⟩
  | cons a l ih =>
    obtain ⟨i, k, s, rfl⟩ := hl a List.mem_cons_self
    cases hp with
    | clean h =>
      obtain ⟨t2, h1, h2⟩ := ih (fun a ha => hl a (List.mem_cons_of_mem _ ha)) h
      exact ⟨t2, by simp [h1], h2⟩

theorem cleanup_all_clean (g : Gen) : ∀ i, ∀ a ∈ g.cleanup i, ∃ i k s, a = .clean i k s
  | 0, a, ha => by
    simp only [Gen.cleanup, List.mem_map] at ha
    obtain ⟨p, -, rfl⟩ := ha; exact ⟨_, _, _, rfl⟩
  | i + 1, a, ha => by
    simp only [Gen.cleanup] at ha
    rcases List.mem_append.mp ha with ha | ha
    · simp only [List.mem_map] at ha
      obtain ⟨p, -, rfl⟩ := ha; exact ⟨_, _, _, rfl⟩
    · exact cleanup_all_clean g i a ha

/-- The shape of the final state. -/
theorem body_final (g : Gen) (n : Nat) (tail : List Op) (ht : ∀ op ∈ tail, op.last n = true) :
    ∃ R, Trailing R ∧
      ((g.step (.cleanup n)).run tail).body (n + 1) = g.body (n + 1) ++ (g.cleanup n).map .act ++ R := by
  have main : ∀ (tail : List Op) (g' : Gen), (∀ op ∈ tail, op.last n = true) →
      ∃ R, Trailing R ∧ (g'.run tail).body (n + 1) = g'.body (n + 1) ++ R := by
    intro tail
    induction tail with
    | nil => intro g' _; exact ⟨[], by intro s hs; simp at hs, by simp [Gen.run]⟩
    | cons op tail ih =>
      intro g' h
      have hop := h op List.mem_cons_self
      have hx : ∃ a : Act, (∀ i k x, a ≠ .clean i k x) ∧ g'.step op = g'.emit n [.act a] := by
        cases op with
        | write i s =>
          simp [Op.last] at hop; subst hop
          exact ⟨.code s, by simp, rfl⟩
        | ret i r =>
          simp [Op.last] at hop; subst hop
          exact ⟨.ret r, by simp, rfl⟩
        | _ => simp [Op.last] at hop
      obtain ⟨a, ha, he⟩ := hx
      obtain ⟨R, hR, hb⟩ := ih (g'.step op) (fun o ho => h o (List.mem_cons_of_mem _ ho))
      refine ⟨.act a :: R, ?_, ?_⟩
      · intro s hs
        rcases List.mem_cons.mp hs with rfl | hs
        · exact ⟨a, rfl, ha⟩
        · exact hR s hs
      · change ((g'.step op).run tail).body (n + 1) = _
        rw [hb, he]
        simp only [Gen.body]
        rw [body_emit _ _ _ _ (Nat.le_refl _), stmts_emit, if_pos rfl]
        simp
  obtain ⟨R, hR, hb⟩ := main tail (g.step (.cleanup n)) ht
  refine ⟨R, hR, ?_⟩
  rw [hb]
  have : (g.step (.cleanup n)).body (n + 1) = g.body (n + 1) ++ (g.cleanup n).map .act := by
    simp only [Gen.step, Gen.body]
    rw [body_emit _ _ _ _ (Nat.le_refl _), stmts_emit, if_pos rfl]
    simp
  rw [this]

/-- **Release on every path.**  For every disciplined series of generator calls on a chain of
`n + 1` blocks, finished by `write_cleanup` on the last one: every execution of the function runs
exactly the cleanups whose registration point it passed, each once, last registered first, and
acquires nothing once cleanup has begun. -/
theorem C42_release_every_path_partial (er : Nat → Str) (n : Nat) (ops tail : List Op)
    (hp : ∀ op ∈ ops, op.plain = true) (hd : Disciplined ops)
    (ht : ∀ op ∈ tail, op.last n = true) (t : List Ev)
    (hpath : Path (((Gen.fresh er).run (ops ++ .cleanup n :: tail)).body (n + 1)) t) :
    cleaned t = (taken t).reverse ∧
      ∃ t1 t2, t = t1 ++ t2 ∧ cleaned t1 = [] ∧ taken t2 = [] := by
  obtain ⟨hi, -⟩ := run_inv er ops hp hd
  rw [run_append] at hpath
  change Path ((((Gen.fresh er).run ops).step (.cleanup n)).run tail |>.body (n + 1)) t at hpath
  generalize (Gen.fresh er).run ops = g at hi hpath
  obtain ⟨R, hR, hb⟩ := body_final g n tail ht
  rw [hb, List.append_assoc] at hpath
  rcases path_split (body_quiet hi (n + 1)) hpath with
    ⟨a, c, b, rest, t1, h1, h2, h3, h4⟩ | ⟨t1, t2, h1, h2, h3, h4⟩
  · have hcl := leave_balanced hi (n + 1) a c b rest h1
    have hl : Ev.left c :: b.map .did = [Ev.left c] ++ b.map .did := rfl
    refine ⟨?_, t1, .left c :: b.map .did, h2, h4, ?_⟩
    · rw [h2, hl, cleaned_append, cleaned_append, taken_append, taken_append, h3, h4, cleaned_did,
        taken_did, hcl]
      simp [cleaned, taken]
    · rw [hl, taken_append, taken_did]; rfl
  · obtain ⟨t3, h5, h6⟩ := path_cleans (cleanup_all_clean g n) h4
    obtain ⟨h7, h8⟩ := path_trailing hR h6
    have hlow := low_body hi (n + 1)
    simp only [low] at hlow
    refine ⟨?_, t1, t2, h1, h3, ?_⟩
    · rw [h1, h5, cleaned_append, cleaned_append, taken_append, taken_append, h2, h3, h7, h8,
        cleaned_did, taken_did, ← hlow]
      simp
    · rw [h5, taken_append, taken_did, h8]; rfl

/-- Non-vacuity: two blocks with acquisitions, checks in each of them, written in an order in which
the first block is still extended after code was written to the second one. -/
example : Disciplined
    [.write 1 "restore".toList, .check 0 "c0".toList none, .add 0 "r0".toList,
     .check 0 "c1".toList none, .check 1 "c2".toList (some "msg".toList), .add 1 "r1".toList] := 
  disciplined_of_check (by decide)

/-- Without the rule a release is missed: a check written to `after_call` before a resource is
acquired in `before_call` leaves without releasing that resource. -/
theorem C42_undisciplined_counterexample :
    ∃ t, Path (((Gen.fresh (fun _ => "return NULL;".toList)).run
        [.check 1 "bad".toList none, .add 0 "release".toList, .cleanup 1]).body 2) t ∧
      taken t = [(0, 1, "release".toList)] ∧ cleaned t = [] := by
  refine ⟨[.took 0 1 "release".toList, .left "bad".toList, .did (.ret "return NULL;".toList)], ?_,
    rfl, rfl⟩
  exact .acq .leave

/-- A branch that returns without `write_cleanup` leaks everything acquired so far.  The
generator writes such branches: `CppClassPtrReturnValue` returns `None` for a null pointer
(cppclass.py:3770-3773), and `CppConstructor` returns -1 when the class itself can not be
constructed (cppmethod.py:683-685). -/
theorem C42_bare_return_counterexample :
    ∃ t, Path (((Gen.fresh (fun _ => "return NULL;".toList)).run
        [.add 0 "Py_DECREF(wards);".toList, .bare 1 "!(retval)".toList ["Py_INCREF(Py_None);".toList]
          "return Py_None;".toList, .cleanup 1]).body 2) t ∧
      taken t = [(0, 1, "Py_DECREF(wards);".toList)] ∧ cleaned t = [] := by
  refine ⟨[.took 0 1 "Py_DECREF(wards);".toList, .left "!(retval)".toList,
    .did (.code "Py_INCREF(Py_None);".toList), .did (.ret "return Py_None;".toList)], ?_, rfl, rfl⟩
  exact .acq .leave

end Verif.Flow
