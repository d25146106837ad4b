import Mathlib.Data.List.Nodup
import Mathlib.Algebra.BigOperators.Group.List.Basic
import Verif.Collector.Spec

/-! # C117: lemmas -/
namespace Verif.Collector

structure WF (s : State) : Prop where
  nodup : s.ids.Nodup
  cnodup : s.cids.Nodup
  closed : ∀ y ∈ s.ids, ∀ x ∈ (s.node y).refs, x ∈ s.ids
  extIn : ∀ x, 0 < s.ext x → x ∈ s.ids
  pyIn : ∀ c ∈ s.cids, ∀ x, (s.cobj c).pyself = some x → x ∈ s.ids ∧ ∃ i, s.node x = .inst i ∧
    (∃ h, i.k.helper = some h ∧ (s.cobj c).dyn = some h) ∧ (i.obj = some c ∨ 0 < (s.cobj c).held)
  owner : ∀ x ∈ s.ids, ∀ i, s.node x = .inst i → ∀ c, i.obj = some c → ∀ h, (s.cobj c).dyn = some h →
    c ∈ s.cids ∧ (s.cobj c).pyself = some x ∧ i.own = true ∧ (0 < (s.cobj c).held → i.k.policy.counted = true)
  sound : ∀ x ∈ s.ids, ∀ i, s.node x = .inst i → i.k.Sound

/-! ## Sums -/

theorem sum_split (p : Nat → Bool) (f : Nat → Nat) : ∀ l : List Nat,
    (l.map f).sum = ((l.filter p).map f).sum + ((l.filter (fun x => !p x)).map f).sum
  | [] => rfl
  | a :: l => by
    have ih := sum_split p f l
    by_cases h : p a = true
    · simp [h, ih, Nat.add_assoc]
    · simp [h, ih]; omega

theorem sum_pos_iff (f : Nat → Nat) : ∀ l : List Nat, 0 < (l.map f).sum ↔ ∃ x ∈ l, 0 < f x
  | [] => by simp
  | a :: l => by
    have ih := sum_pos_iff f l
    simp only [List.map_cons, List.sum_cons, List.mem_cons, exists_eq_or_imp]
    rw [← ih]
    omega

theorem sum_add (f g : Nat → Nat) : ∀ l : List Nat, (l.map (fun x => f x + g x)).sum = (l.map f).sum + (l.map g).sum
  | [] => rfl
  | a :: l => by simp [sum_add f g l]; omega

theorem sum_single (x : Nat) (b : Bool) : ∀ l : List Nat, l.Nodup →
    (l.map (fun o => if o = x ∧ b = true then 1 else 0)).sum = if x ∈ l ∧ b = true then 1 else 0
  | [], _ => by simp
  | a :: l, h => by
    obtain ⟨h1, h2⟩ := List.nodup_cons.mp h
    rw [List.map_cons, List.sum_cons, sum_single x b l h2]
    by_cases ha : a = x
    · subst ha; simp [h1]
    · have : ¬ x = a := fun h => ha h.symm
      simp [ha, this]

/-- What remains of `refcnt` after the visits. -/
def State.selfVisit (s : State) (x : Nat) : Bool :=
  match s.node x with
  | .inst i => s.visitsSelf i
  | _ => false

theorem traverse_eq (s : State) (x : Nat) : s.traverse x = (s.node x).refs ++ if s.selfVisit x then [x] else [] := by
  unfold State.traverse State.selfVisit
  cases s.node x <;> simp [Node.refs]

def State.hidden (s : State) (x : Nat) : Nat :=
  ((s.ids.filter (fun o => !(s.node o).tracked)).map (fun o => ((s.node o).refs).count x)).sum

def State.selves (s : State) (x : Nat) : Nat := (s.cids.map (fun c => if (s.cobj c).pyself = some x then 1 else 0)).sum

theorem visits_eq {s : State} (hn : s.ids.Nodup) (x : Nat) :
    s.visits x = (s.objects.map (fun o => ((s.node o).refs).count x)).sum +
      if x ∈ s.objects ∧ s.selfVisit x = true then 1 else 0 := by
  unfold State.visits
  have : ∀ o, (s.traverse o).count x = ((s.node o).refs).count x + if o = x ∧ s.selfVisit x = true then 1 else 0 := by
    intro o
    rw [traverse_eq, List.count_append]
    congr 1
    by_cases ho : o = x
    · subst ho
      cases s.selfVisit o <;> simp
    · have : ∀ b : Bool, List.count x (if b = true then [o] else []) = 0 := by
        intro b; cases b <;> simp [ho]
      rw [this]
      simp [ho]
  simp only [this]
  rw [sum_add, sum_single]
  exact hn.filter _

theorem refcnt_eq (s : State) (x : Nat) : s.refcnt x =
    s.ext x + (s.objects.map (fun o => ((s.node o).refs).count x)).sum + s.hidden x + s.selves x := by
  unfold State.refcnt State.hidden State.selves State.objects
  rw [sum_split (fun o => (s.node o).tracked)]
  omega

theorem mem_objects {s : State} {x : Nat} : x ∈ s.objects ↔ x ∈ s.ids ∧ (s.node x).tracked = true := by
  unfold State.objects
  rw [List.mem_filter]

theorem selves_pos {s : State} {x c : Nat} (hc : c ∈ s.cids) (h : (s.cobj c).pyself = some x) : 0 < s.selves x :=
  (sum_pos_iff _ _).mpr ⟨c, hc, by simp [h]⟩

theorem selfVisit_elim {s : State} {x : Nat} (h : s.selfVisit x = true) :
    ∃ i c k, s.node x = .inst i ∧ i.obj = some c ∧ i.k.helper = some k ∧ (s.cobj c).dyn = some k ∧
      (i.k.policy.peeks = true → s.count c = 1) := by
  unfold State.selfVisit at h
  split at h
  · rename_i i hi
    unfold State.visitsSelf at h
    split at h
    · rename_i k c h1 h2
      simp only [Bool.and_eq_true, decide_eq_true_eq] at h
      refine ⟨i, c, k, hi, h2, h1, h.1, ?_⟩
      intro hp
      have := h.2
      rw [if_pos hp] at this
      simpa using this
    · cases h
  · cases h

theorem selfVisit_selves {s : State} (hw : WF s) {x : Nat} (hx : x ∈ s.ids) (h : s.selfVisit x = true) : 0 < s.selves x := by
  obtain ⟨i, c, k, hi, ho, -, hd, -⟩ := selfVisit_elim h
  obtain ⟨h1, h2, -⟩ := hw.owner x hx i hi c ho k hd
  exact selves_pos h1 h2

theorem root_iff {s : State} (hw : WF s) {x : Nat} (hx : x ∈ s.objects) :
    s.visits x < s.refcnt x ↔ 0 < s.ext x ∨ 0 < s.hidden x ∨ (if s.selfVisit x then 1 else 0) < s.selves x := by
  rw [visits_eq hw.nodup, refcnt_eq]
  simp only [hx, true_and]
  have := fun h => selfVisit_selves hw (mem_objects.mp hx).1 h
  by_cases hs : s.selfVisit x = true
  · have := this hs
    simp only [hs, if_true]
    omega
  · simp only [hs]
    simp only [Bool.false_eq_true, if_false]
    omega

theorem count_ge {s : State} {x c : Nat} (hx : x ∈ s.ids) (h : (s.node x).obj = some c) :
    (s.cobj c).held + 1 ≤ s.count c := by
  unfold State.count
  have : 0 < s.ids.countP (fun o => (s.node o).obj = some c) := List.countP_pos_iff.mpr ⟨x, hx, by simpa using h⟩
  omega

theorem two_selves {s : State} {x c d : Nat} (hcd : c ≠ d) : ∀ l : List Nat, c ∈ l → d ∈ l →
    (s.cobj c).pyself = some x → (s.cobj d).pyself = some x →
    1 < (l.map (fun c => if (s.cobj c).pyself = some x then 1 else 0)).sum
  | [], h, _, _, _ => by cases h
  | a :: l, hc, hd, h1, h2 => by
    rw [List.map_cons, List.sum_cons]
    rcases List.mem_cons.mp hc with rfl | hc'
    · rcases List.mem_cons.mp hd with rfl | hd
      · exact absurd rfl hcd
      · have : 0 < (l.map (fun c => if (s.cobj c).pyself = some x then 1 else 0)).sum :=
          (sum_pos_iff _ _).mpr ⟨d, hd, by simp [h2]⟩
        rw [if_pos h1]; omega
    · rcases List.mem_cons.mp hd with rfl | hd
      · have : 0 < (l.map (fun c => if (s.cobj c).pyself = some x then 1 else 0)).sum :=
          (sum_pos_iff _ _).mpr ⟨c, hc', by simp [h1]⟩
        rw [if_pos h2]; omega
      · have := two_selves hcd l hc' hd h1 h2
        omega

/-- What C++ holds is a root. -/
theorem held_root {s : State} (hw : WF s) {x c : Nat} (hc : c ∈ s.cids) (hp : (s.cobj c).pyself = some x)
    (hh : 0 < (s.cobj c).held) : (if s.selfVisit x then 1 else 0) < s.selves x := by
  by_cases hs : s.selfVisit x = true
  · rw [if_pos hs]
    obtain ⟨i, d, k, hi, ho, hk, hd, hpk⟩ := selfVisit_elim hs
    have hx := (hw.pyIn c hc x hp).1
    obtain ⟨a1, a2, -, a4⟩ := hw.owner x hx i hi d ho k hd
    by_cases hcd : c = d
    · subst hcd
      have h1 := (hw.sound x hx i hi (by rw [hk]; rfl)).2.2 (a4 hh)
      have h2 := hpk h1
      have h3 := count_ge hx (c := c) (by rw [hi]; exact ho)
      omega
    · exact two_selves hcd s.cids hc a1 hp a2
  · rw [if_neg hs]
    exact selves_pos hc hp

theorem hidden_pos {s : State} {x : Nat} : 0 < s.hidden x ↔
    ∃ y ∈ s.ids, (s.node y).tracked = false ∧ x ∈ (s.node y).refs := by
  unfold State.hidden
  rw [sum_pos_iff]
  constructor
  · rintro ⟨y, hy, h⟩
    rw [List.mem_filter] at hy
    exact ⟨y, hy.1, by simpa using hy.2, List.count_pos_iff.mp h⟩
  · rintro ⟨y, hy, h1, h2⟩
    exact ⟨y, List.mem_filter.mpr ⟨hy, by simp [h1]⟩, List.count_pos_iff.mpr h2⟩

theorem kept_of_live {s : State} (hw : WF s) {x : Nat} (h : LiveOrHidden s x) : x ∈ s.objects → Kept s x := by
  induction h with
  | ext h => exact fun hx => .root hx ((root_iff hw hx).mpr (.inl h))
  | held hc hp hh => exact fun hx => .root hx ((root_iff hw hx).mpr (.inr (.inr (held_root hw hc hp hh))))
  | hidden hy ht hr => exact fun hx => .root hx ((root_iff hw hx).mpr (.inr (.inl (hidden_pos.mpr ⟨_, hy, ht, hr⟩))))
  | @ref x y _ hy hr ih =>
    intro hx
    by_cases ht : (s.node y).tracked = true
    · refine .visit (ih (mem_objects.mpr ⟨hy, ht⟩)) ?_ hx
      rw [traverse_eq]
      exact List.mem_append_left _ hr
    · exact .root hx ((root_iff hw hx).mpr (.inr (.inl (hidden_pos.mpr ⟨_, hy, by simpa using ht, hr⟩))))

theorem selves_mem {s : State} {x : Nat} (h : 0 < s.selves x) : ∃ c ∈ s.cids, (s.cobj c).pyself = some x := by
  obtain ⟨c, hc, h⟩ := (sum_pos_iff _ _).mp h
  refine ⟨c, hc, ?_⟩
  by_contra hn
  simp [hn] at h

/-- The only wrapper of a helper object counts once. -/
theorem count_one {s : State} (hw : WF s) {x c : Nat} (hx : x ∈ s.ids) {i : Inst} (hi : s.node x = .inst i)
    (ho : i.obj = some c) {h : Nat} (hd : (s.cobj c).dyn = some h) : s.count c = (s.cobj c).held + 1 := by
  unfold State.count
  congr 1
  have : ∀ y ∈ s.ids, ((s.node y).obj = some c ↔ y = x) := by
    intro y hy
    constructor
    · intro hyo
      cases hny : s.node y with
      | inst j =>
        rw [hny] at hyo
        have h1 := (hw.owner y hy j hny c hyo h hd).2.1
        have h2 := (hw.owner x hx i hi c ho h hd).2.1
        rw [h1] at h2
        injection h2
      | iter t z => rw [hny] at hyo; cases hyo
      | other r => rw [hny] at hyo; cases hyo
    · rintro rfl
      rw [hi]; exact ho
  have e : s.ids.countP (fun o => (s.node o).obj = some c) = s.ids.count x := by
    unfold List.count
    apply List.countP_congr
    intro y hy
    have := this y hy
    simp [this]
  rw [e]
  exact List.count_eq_one_of_mem hw.nodup hx

theorem live_of_root {s : State} (hw : WF s) {x : Nat} (hx : x ∈ s.objects) (h : s.visits x < s.refcnt x) :
    LiveOrHidden s x := by
  rcases (root_iff hw hx).mp h with h | h | h
  · exact .ext h
  · obtain ⟨y, hy, ht, hr⟩ := hidden_pos.mp h
    exact .hidden hy ht hr
  · -- a helper object that is not visited, or a second one
    have hxi := (mem_objects.mp hx).1
    by_cases hs : s.selfVisit x = true
    · rw [if_pos hs] at h
      obtain ⟨i, d, k, hi, ho, hk, hd, hpk⟩ := selfVisit_elim hs
      obtain ⟨a1, a2, -, -⟩ := hw.owner x hxi i hi d ho k hd
      -- two entries
      by_contra hn
      have one : ∀ c ∈ s.cids, (s.cobj c).pyself = some x → c = d := by
        intro c hc hp
        obtain ⟨-, j, hj, -, hor⟩ := hw.pyIn c hc x hp
        rw [hi] at hj
        injection hj with hj
        subst hj
        rcases hor with h | h
        · rw [ho] at h; injection h with h; exact h.symm
        · exact absurd (LiveOrHidden.held hc hp h) hn
      have e : s.selves x = (s.cids.map (fun o => if o = d ∧ true = true then 1 else 0)).sum := by
        unfold State.selves
        congr 1
        apply List.map_congr_left
        intro c hc
        by_cases hcd : c = d
        · subst hcd; simp [a2]
        · have : (s.cobj c).pyself ≠ some x := fun h => hcd (one c hc h)
          simp [hcd, this]
      rw [e, sum_single d true s.cids hw.cnodup] at h
      split at h <;> omega
    · rw [if_neg hs] at h
      obtain ⟨c, hc, hp⟩ := selves_mem h
      obtain ⟨-, i, hi, ⟨k, hk, hd⟩, hor⟩ := hw.pyIn c hc x hp
      rcases hor with ho | hh
      · refine .held hc hp ?_
        by_contra hz
        apply hs
        unfold State.selfVisit State.visitsSelf
        rw [hi]
        dsimp only
        rw [hk, ho]
        dsimp only
        have := count_one hw hxi hi ho hd
        have hc1 : s.count c = 1 := by omega
        rw [hc1]
        simp [hd]
      · exact .held hc hp hh

theorem live_of_kept {s : State} (hw : WF s) {x : Nat} (h : Kept s x) : x ∈ s.objects ∧ LiveOrHidden s x := by
  induction h with
  | root hx h => exact ⟨hx, live_of_root hw hx h⟩
  | @visit x y _ hv hx ih =>
    refine ⟨hx, ?_⟩
    rw [traverse_eq] at hv
    rcases List.mem_append.mp hv with h | h
    · exact .ref ih.2 (mem_objects.mp ih.1).1 h
    · split at h
      · rw [List.mem_singleton] at h; subst h; exact ih.2
      · cases h

theorem live_hidden {s : State} {x : Nat} (h : Live s x) : LiveOrHidden s x := by
  induction h with
  | ext h => exact .ext h
  | held hc hp hh => exact .held hc hp hh
  | ref _ hy hr ih => exact .ref ih hy hr

theorem garbage_iff {s : State} (hw : WF s) {x : Nat} : Garbage s x ↔ x ∈ s.objects ∧ ¬ LiveOrHidden s x := by
  unfold Garbage
  constructor
  · rintro ⟨h1, h2⟩
    exact ⟨h1, fun h => h2 (kept_of_live hw h h1)⟩
  · rintro ⟨h1, h2⟩
    exact ⟨h1, fun h => h2 (live_of_kept hw h).2⟩

theorem visits_le {s : State} (hw : WF s) (x : Nat) : s.visits x ≤ s.refcnt x := by
  rw [visits_eq hw.nodup, refcnt_eq]
  split
  · rename_i h
    have := selfVisit_selves hw (mem_objects.mp h.1).1 h.2
    omega
  · omega

end Verif.Collector
