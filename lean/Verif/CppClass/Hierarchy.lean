import Verif.Basic
import Mathlib.Logic.Relation

/-!
# C33: class hierarchies

`CppClass.bases`, `get_mro` and `is_subclass` (pybindgen/cppclass.py:681-691, 964-978, 1032-1037).
Classes are numbered in creation order.  `bases` is only set in `CppClass.__init__`, from classes
that exist already, so every base has a smaller number than the class: this is the field `acyclic`,
which `World.toHier` (Classes.lean) proves for every reachable collection of classes.
-/
namespace Verif.CppClass

/-- The `bases` attribute of every class, cppclass.py:681-691. -/
structure Hier where
  bases : Nat → List Nat
  acyclic : ∀ c b, b ∈ bases c → b < c

/-- Number of upward paths that start at a class; only used to show that `get_mro` ends. -/
def Hier.weight (h : Hier) (c : Nat) : Nat :=
  1 + ((h.bases c).attach.map fun b => h.weight b.1).sum
termination_by c
decreasing_by exact h.acyclic c b.1 b.2

theorem Hier.weight_eq (h : Hier) (c : Nat) :
    h.weight c = 1 + ((h.bases c).map h.weight).sum := by
  rw [Hier.weight]
  congr 1
  rw [List.attach_map_val (l := h.bases c) (f := h.weight)]

private theorem filter_weight (w : Nat → Nat) (p : Nat → Bool) (l : List Nat) :
    ((l.filter p).map w).sum ≤ (l.map w).sum := by
  induction l with
  | nil => simp
  | cons x xs ih =>
    rw [List.filter_cons]
    split
    · simp; omega
    · simp; omega

/-- The bases of `cls` that are appended to `to_visit`, cppclass.py:976-978. -/
def Hier.fresh (h : Hier) (c : Nat) (visited : List Nat) : List Nat :=
  (h.bases c).filter fun b => !visited.contains b

private theorem fresh_weight (h : Hier) (c : Nat) (v : List Nat) :
    ((h.fresh c v).map h.weight).sum ≤ ((h.bases c).map h.weight).sum := filter_weight _ _ _

/-- The loop of `get_mro`, cppclass.py:970-978: `to_visit` is a FIFO queue, `visited` a set; a base
is queued unless it was *visited* already (it may be queued twice). -/
def Hier.mroLoop (h : Hier) : List Nat → List Nat → List Nat
  | [], _ => []
  | c :: toVisit, visited =>
    c :: h.mroLoop (toVisit ++ h.fresh c (c :: visited)) (c :: visited)
termination_by toVisit _ => (toVisit.map h.weight).sum
decreasing_by
  have := fresh_weight h c (c :: visited)
  simp only [List.map_append, List.sum_append, List.map_cons, List.sum_cons]
  rw [h.weight_eq c]
  omega

/-- `list(cls.get_mro())`, cppclass.py:964-978. -/
def Hier.mro (h : Hier) (c : Nat) : List Nat := h.mroLoop [c] []

/-- `cls.is_subclass(other)`, cppclass.py:1032-1037 (`other` is always a `CppClass` here; the
`TypeError` for other arguments is not modelled). -/
def Hier.isSubclass (h : Hier) (c other : Nat) : Bool := (h.mro c).contains other

/-! ## Specification -/

/-- `Path h n a b`: from `a`, `n` steps to a base lead to `b`. -/
inductive Path (h : Hier) : Nat → Nat → Nat → Prop where
  | refl (a) : Path h 0 a a
  | step {n a b c} : Path h n a b → c ∈ h.bases b → Path h (n + 1) a c

/-- `b` is `a` or one of its direct or indirect bases. -/
def Ancestor (h : Hier) (b a : Nat) : Prop := ∃ n, Path h n a b

/-- `x` is nearer to `a` than `y`: it can be reached in fewer steps. -/
def Nearer (h : Hier) (a x y : Nat) : Prop := ∃ n, Path h n a x ∧ ∀ m, m ≤ n → ¬ Path h m a y

/-! ## Proofs -/

/-- The loop with the depth of every queued class (proof device). -/
private def bfs (h : Hier) : List (Nat × Nat) → List Nat → List (Nat × Nat)
  | [], _ => []
  | (c, d) :: q, visited =>
    (c, d) :: bfs h (q ++ (h.fresh c (c :: visited)).map (·, d + 1)) (c :: visited)
termination_by q _ => ((q.map (·.1)).map h.weight).sum
decreasing_by
  have := fresh_weight h c (c :: visited)
  simp only [List.map_append, List.sum_append, List.map_cons, List.sum_cons, List.map_map]
  rw [h.weight_eq c]
  have e : ((h.fresh c (c :: visited)).map
      (h.weight ∘ (fun x : Nat × Nat => x.1) ∘ fun x => (x, d + 1))).sum =
      ((h.fresh c (c :: visited)).map h.weight).sum := rfl
  rw [e]
  omega

private theorem bfs_fst (h : Hier) (q : List (Nat × Nat)) (v : List Nat) :
    (bfs h q v).map (·.1) = h.mroLoop (q.map (·.1)) v := by
  fun_induction bfs h q v with
  | case1 v => simp [Hier.mroLoop]
  | case2 c d q v ih =>
    rw [List.map_cons, List.map_cons, Hier.mroLoop, ih]
    simp [List.map_append, List.map_map, Function.comp_def]

private theorem bfs_queue (h : Hier) (q : List (Nat × Nat)) (v : List Nat) :
    ∀ p ∈ q, p ∈ bfs h q v := by
  fun_induction bfs h q v with
  | case1 v => simp
  | case2 c d q v ih =>
    intro p hp
    rcases List.mem_cons.1 hp with rfl | hp
    · simp
    · exact List.mem_cons_of_mem _ (ih p (List.mem_append.2 (.inl hp)))

private theorem bfs_path (h : Hier) (a : Nat) (q : List (Nat × Nat)) (v : List Nat)
    (hq : ∀ p ∈ q, Path h p.2 a p.1) : ∀ p ∈ bfs h q v, Path h p.2 a p.1 := by
  fun_induction bfs h q v with
  | case1 v => simp
  | case2 c d q v ih =>
    intro p hp
    rcases List.mem_cons.1 hp with rfl | hp
    · exact hq _ (by simp)
    · refine ih (fun p hp => ?_) p hp
      rcases List.mem_append.1 hp with hp | hp
      · exact hq p (List.mem_cons_of_mem _ hp)
      · obtain ⟨b, hb, rfl⟩ := List.mem_map.1 hp
        exact .step (hq (c, d) (by simp)) (List.mem_filter.1 hb).1

private theorem bfs_next (h : Hier) (q : List (Nat × Nat)) (v : List Nat) :
    ∀ pre c d post, bfs h q v = pre ++ (c, d) :: post → ∀ b ∈ h.bases c,
      b ∈ v ∨ b ∈ pre.map (·.1) ∨ (b, d + 1) ∈ post := by
  fun_induction bfs h q v with
  | case1 v => intro pre c d post he; simp at he
  | case2 c d q v ih =>
    intro pre c' d' post he b hb
    cases pre with
    | nil =>
      simp only [List.nil_append, List.cons.injEq, Prod.mk.injEq] at he
      obtain ⟨⟨rfl, rfl⟩, rfl⟩ := he
      have hne : b ≠ c := fun e => by have := h.acyclic c b hb; omega
      by_cases hv : b ∈ v
      · exact .inl hv
      · refine .inr (.inr (bfs_queue h _ _ _ (List.mem_append.2 (.inr ?_))))
        refine List.mem_map.2 ⟨b, List.mem_filter.2 ⟨hb, ?_⟩, rfl⟩
        simp [hne, hv]
    | cons x xs =>
      simp only [List.cons_append, List.cons.injEq] at he
      obtain ⟨rfl, he⟩ := he
      rcases ih xs c' d' post he b hb with h1 | h1 | h1
      · rcases List.mem_cons.1 h1 with rfl | h1
        · exact .inr (.inl (by simp))
        · exact .inl h1
      · exact .inr (.inl (by simp at h1 ⊢; exact .inr h1))
      · exact .inr (.inr h1)

/-- Queue labels are sorted and span at most one level. -/
private def QOk (q : List (Nat × Nat)) : Prop :=
  (q.map (·.2)).Pairwise (· ≤ ·) ∧ ∀ p ∈ q.head?, ∀ r ∈ q, r.2 ≤ p.2 + 1

private theorem bfs_sorted (h : Hier) (q : List (Nat × Nat)) (v : List Nat) (hq : QOk q) :
    ((bfs h q v).map (·.2)).Pairwise (· ≤ ·) ∧ ∀ p ∈ q.head?, ∀ r ∈ bfs h q v, p.2 ≤ r.2 := by
  fun_induction bfs h q v with
  | case1 v => simp
  | case2 c d q v ih =>
    obtain ⟨hs, hh⟩ := hq
    simp only [List.map_cons, List.pairwise_cons] at hs
    have hub : ∀ r ∈ q, d ≤ r.2 ∧ r.2 ≤ d + 1 := fun r hr =>
      ⟨hs.1 _ (List.mem_map.2 ⟨r, hr, rfl⟩), hh (c, d) rfl r (List.mem_cons_of_mem _ hr)⟩
    have hq' : QOk (q ++ (h.fresh c (c :: v)).map (·, d + 1)) := by
      refine ⟨?_, ?_⟩
      · rw [List.map_append, List.pairwise_append]
        refine ⟨hs.2, ?_, ?_⟩
        · rw [List.map_map]
          refine List.pairwise_iff_getElem.2 ?_
          intro i j hi hj _
          simp
        · intro x hx y hy
          obtain ⟨r, hr, rfl⟩ := List.mem_map.1 hx
          rw [List.map_map] at hy
          obtain ⟨b, _, rfl⟩ := List.mem_map.1 hy
          exact (hub r hr).2
      · intro p hp r hr
        have hp' := List.mem_of_mem_head? hp
        have h1 : d ≤ p.2 := by
          rcases List.mem_append.1 hp' with hp' | hp'
          · exact (hub p hp').1
          · obtain ⟨b, _, rfl⟩ := List.mem_map.1 hp'; simp
        rcases List.mem_append.1 hr with hr | hr
        · have := (hub r hr).2; omega
        · obtain ⟨b, _, rfl⟩ := List.mem_map.1 hr; simp; omega
    obtain ⟨ih1, ih2⟩ := ih hq'
    have hge : ∀ r ∈ bfs h (q ++ (h.fresh c (c :: v)).map (·, d + 1)) (c :: v),
        d ≤ r.2 := by
      intro r hr
      generalize hqq : q ++ (h.fresh c (c :: v)).map (·, d + 1) = qq at hr ih2
      cases qq with
      | nil => rw [bfs] at hr; simp at hr
      | cons p ps =>
        have h3 := ih2 p rfl r hr
        have hp : p ∈ q ++ (h.fresh c (c :: v)).map (·, d + 1) := by
          rw [hqq]; simp
        rcases List.mem_append.1 hp with hp | hp
        · have := (hub p hp).1; omega
        · obtain ⟨b, _, rfl⟩ := List.mem_map.1 hp; simp at h3; omega
    refine ⟨?_, ?_⟩
    · rw [List.map_cons, List.pairwise_cons]
      refine ⟨fun x hx => ?_, ih1⟩
      obtain ⟨r, hr, rfl⟩ := List.mem_map.1 hx
      exact hge r hr
    · intro p hp r hr
      simp at hp
      subst hp
      rcases List.mem_cons.1 hr with rfl | hr
      · simp
      · exact hge r hr

private theorem mro_eq (h : Hier) (c : Nat) : h.mro c = (bfs h [(c, 0)] []).map (·.1) := by
  rw [bfs_fst]; rfl

private theorem qok_start (c : Nat) : QOk [(c, 0)] := by
  refine ⟨by simp, ?_⟩
  intro p hp r hr; simp at hp hr; subst hp hr; simp

private theorem path_start (h : Hier) (c : Nat) : ∀ p ∈ [(c, 0)], Path h p.2 c p.1 := by
  intro p hp; simp at hp; subst hp; exact .refl c

/-- Every class at distance `n` is listed with label `n`. -/
private theorem bfs_dist (h : Hier) (a : Nat) : ∀ n x, Path h n a x → (∀ m, m < n → ¬ Path h m a x) →
    (x, n) ∈ bfs h [(a, 0)] [] := by
  intro n
  induction n with
  | zero =>
    intro x hp _
    cases hp
    exact bfs_queue h _ _ _ (by simp)
  | succ n ih =>
    intro x hp hmin
    cases hp with
    | step hp hx =>
      rename_i p
      have hpm : ∀ m, m < n → ¬ Path h m a p := fun m hm hpm => hmin (m + 1) (by omega) (.step hpm hx)
      have hmem := ih p hp hpm
      obtain ⟨pre, post, he⟩ := List.append_of_mem hmem
      have hsorted := (bfs_sorted h _ [] (qok_start a)).1
      rcases bfs_next h _ _ pre p n post he x hx with h1 | h1 | h1
      · simp at h1
      · exfalso
        obtain ⟨r, hr, rfl⟩ := List.mem_map.1 h1
        have hle : r.2 ≤ n := by
          rw [he, List.map_append, List.pairwise_append] at hsorted
          exact hsorted.2.2 r.2 (List.mem_map.2 ⟨r, hr, rfl⟩) n (by simp)
        exact hmin r.2 (by omega) (bfs_path h a _ _ (path_start h a) r (by rw [he]; simp [hr]))
      · rw [he]; simp [h1]

private theorem exists_min_path {h : Hier} {a x : Nat} (hx : Ancestor h x a) :
    ∃ n, Path h n a x ∧ ∀ m, m < n → ¬ Path h m a x := by
  obtain ⟨n, hn⟩ := hx
  induction n using Nat.strongRecOn with
  | ind n ih =>
    by_cases hm : ∃ m, m < n ∧ Path h m a x
    · obtain ⟨m, hm, hp⟩ := hm; exact ih m hm hp
    · exact ⟨n, hn, fun m hm' hp => hm ⟨m, hm', hp⟩⟩

/-- C33: `get_mro` of a class lists exactly the class and all its direct and indirect bases. -/
theorem C33_mro_mem (h : Hier) (c x : Nat) : x ∈ h.mro c ↔ Ancestor h x c := by
  rw [mro_eq]
  constructor
  · intro hx
    obtain ⟨p, hp, rfl⟩ := List.mem_map.1 hx
    exact ⟨p.2, bfs_path h c _ _ (path_start h c) p hp⟩
  · intro hx
    obtain ⟨n, hp, hm⟩ := exists_min_path hx
    exact List.mem_map.2 ⟨(x, n), bfs_dist h c n x hp hm, rfl⟩

/-- C33: `a.is_subclass(b)` is the reflexive-transitive closure of "has base". -/
theorem C33_is_subclass (h : Hier) (a b : Nat) :
    h.isSubclass a b = true ↔ Relation.ReflTransGen (fun x y => y ∈ h.bases x) a b := by
  rw [Hier.isSubclass, List.contains_iff_mem, C33_mro_mem]
  constructor
  · rintro ⟨n, hp⟩
    induction hp with
    | refl a => exact .refl
    | step hp hc ih => exact .tail ih hc
  · intro hr
    induction hr with
    | refl => exact ⟨0, .refl _⟩
    | tail _ hc ih => obtain ⟨n, hp⟩ := ih; exact ⟨n + 1, .step hp hc⟩

/-- C33: `get_mro` starts with the class itself, and of two ancestors the nearer one comes first. -/
theorem C33_mro_order (h : Hier) (c : Nat) :
    (h.mro c).head? = some c ∧
    ∀ x y, Ancestor h y c → Nearer h c x y → (h.mro c).idxOf x < (h.mro c).idxOf y := by
  refine ⟨by rw [Hier.mro, Hier.mroLoop]; rfl, ?_⟩
  rintro x y hy ⟨n, hx, hny⟩
  obtain ⟨k, hk, hkm⟩ := exists_min_path (⟨n, hx⟩ : Ancestor h x c)
  have hkn : k ≤ n := by
    rcases Nat.lt_or_ge n k with hlt | hge
    · exact absurd hx (hkm n hlt)
    · exact hge
  have hmem := bfs_dist h c k x hk hkm
  have hsorted := (bfs_sorted h _ [] (qok_start c)).1
  have hpath := bfs_path h c _ [] (path_start h c)
  rw [mro_eq]
  generalize bfs h [(c, 0)] [] = out at hmem hsorted hpath
  obtain ⟨pre, post, rfl⟩ := List.append_of_mem hmem
  have hypre : y ∉ pre.map (·.1) := by
    intro hy'
    obtain ⟨r, hr, rfl⟩ := List.mem_map.1 hy'
    rw [List.map_append, List.pairwise_append] at hsorted
    have hle : r.2 ≤ k := hsorted.2.2 r.2 (List.mem_map.2 ⟨r, hr, rfl⟩) k (by simp)
    exact hny r.2 (by omega) (hpath r (by simp [hr]))
  have hxy : y ≠ x := fun e => hny k hkn (e ▸ hk)
  rw [List.map_append, List.map_cons]
  have h1 : (List.map (·.1) pre ++ x :: post.map (·.1)).idxOf x ≤ pre.length := by
    rcases Nat.lt_or_ge pre.length ((List.map (·.1) pre ++ x :: post.map (·.1)).idxOf x) with hlt | hge
    · exfalso
      have := List.not_of_lt_findIdx (p := (· == x)) (xs := List.map (·.1) pre ++ x :: post.map (·.1)) (i := pre.length) hlt
      simp at this
    · exact hge
  have h2 : (List.map (·.1) pre ++ x :: post.map (·.1)).idxOf y > pre.length := by
    rw [List.idxOf_append_of_notMem hypre, List.idxOf_cons_ne _ (Ne.symm hxy), List.length_map]
    omega
  exact Nat.lt_of_le_of_lt h1 h2

/-- A diamond: `D(B, C)`, `B(A)`, `C(A)` with A, B, C, D = 0, 1, 2, 3. -/
def diamond : Hier where
  bases c := match c with
    | 1 => [0]
    | 2 => [0]
    | 3 => [1, 2]
    | _ => []
  acyclic c b hb := by
    match c with
    | 0 => simp at hb
    | 1 => simp at hb; omega
    | 2 => simp at hb; omega
    | 3 => simp at hb; omega
    | n + 4 => simp at hb

theorem diamond_mro : diamond.mro 3 = [3, 1, 2, 0, 0] := by
  simp [Hier.mro, Hier.mroLoop, Hier.fresh, diamond]

example : Ancestor diamond 0 3 ∧ Nearer diamond 3 1 0 :=
  ⟨(C33_mro_mem _ _ _).1 (by rw [diamond_mro]; simp), 1, .step (.refl 3) (by simp [diamond]), by
    intro m hm hp
    rcases Nat.lt_or_ge m 1 with h | h
    · have : m = 0 := by omega
      subst this; cases hp
    · have : m = 1 := by omega
      subst this
      cases hp with
      | step h1 h2 => cases h1; simp [diamond] at h2⟩

/-- C33 fails as an enumeration: with multiple inheritance an ancestor can be listed twice. -/
theorem C33_duplicate_counterexample : ∃ h : Hier, ∃ c, ¬ (h.mro c).Nodup :=
  ⟨diamond, 3, by rw [diamond_mro]; decide⟩

/-- Without multiple inheritance the loop's queue has at most one element. -/
private theorem single_loop (h : Hier) (hs : ∀ c, (h.bases c).length ≤ 1) (c : Nat) (v : List Nat)
    (hv : ∀ x ∈ v, c < x) :
    (h.mroLoop [c] v).Pairwise (· > ·) ∧ ∀ x ∈ h.mroLoop [c] v, x ≤ c := by
  induction c using Nat.strongRecOn generalizing v with
  | ind c ih =>
    rw [Hier.mroLoop]
    have hlt := h.acyclic c
    unfold Hier.fresh
    cases hb : h.bases c with
    | nil => simp [Hier.mroLoop]
    | cons b bs =>
      have hl := hs c
      rw [hb] at hl
      have : bs = [] := by cases bs with
        | nil => rfl
        | cons _ _ => simp at hl
      subst this
      have hbc := hlt b (by rw [hb]; simp)
      have hnv : b ∉ c :: v := by
        intro hm
        rcases List.mem_cons.1 hm with e | hm
        · omega
        · have := hv b hm; omega
      have hf : [b].filter (fun b => !(c :: v).contains b) = [b] := by
        simp only [List.filter_cons, List.filter_nil]
        rw [if_pos (by simpa using hnv)]
      rw [hf, List.nil_append]
      obtain ⟨i1, i2⟩ := ih b hbc (c :: v) (by
        intro x hx
        rcases List.mem_cons.1 hx with rfl | hx
        · exact hbc
        · have := hv x hx; omega)
      refine ⟨List.pairwise_cons.2 ⟨fun x hx => ?_, i1⟩, ?_⟩
      · have := i2 x hx; omega
      · intro x hx
        rcases List.mem_cons.1 hx with rfl | hx
        · exact Nat.le_refl _
        · have := i2 x hx; omega

/-- C33 (partial: single inheritance): every ancestor is listed once. -/
theorem C33_mro_once_partial (h : Hier) (hs : ∀ c, (h.bases c).length ≤ 1) (c : Nat) :
    (h.mro c).Nodup :=
  (single_loop h hs c [] (by simp)).1.imp (fun h => by omega)

/-- A chain 0 ← 1 ← 2 ← … . -/
def chainHier : Hier where
  bases c := match c with
    | 0 => []
    | n + 1 => [n]
  acyclic c b hb := by cases c <;> simp at hb; omega

example : (∀ c, (chainHier.bases c).length ≤ 1) ∧ chainHier.mro 2 = [2, 1, 0] :=
  ⟨fun c => by cases c <;> simp [chainHier], by simp [Hier.mro, Hier.mroLoop, Hier.fresh, chainHier]⟩

end Verif.CppClass
