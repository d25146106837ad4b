import Verif.Collector.Props

/-! # C117: every state that is reached is well formed -/
namespace Verif.Collector

/-! ## Clearing -/

/-- Clearing `U` takes nothing from C++. -/
structure Harmless (s : State) (U : Nat → Bool) : Prop where
  sub : ∀ x, U x = true → x ∈ s.ids
  own : ∀ x, U x = true → ∀ c ∈ s.cids, (s.cobj c).pyself = some x → (s.node x).obj = some c ∧ (s.cobj c).held = 0

theorem harmless_garbage {s : State} (hw : WF s) {U : Nat → Bool} (hU : ∀ x, U x = true ↔ Garbage s x) : Harmless s U := by
  refine ⟨fun x h => (mem_objects.mp ((hU x).mp h).1).1, ?_⟩
  intro x h c hc hp
  have hg := ((garbage_iff hw).mp ((hU x).mp h)).2
  obtain ⟨-, i, hi, -, hor⟩ := hw.pyIn c hc x hp
  have hz : (s.cobj c).held = 0 := by
    by_contra hn
    exact hg (.held hc hp (Nat.pos_of_ne_zero hn))
  rcases hor with h | h
  · exact ⟨by rw [hi]; exact h, hz⟩
  · omega

theorem refcnt_zero {s : State} {x : Nat} (h : s.refcnt x = 0) :
    s.ext x = 0 ∧ (∀ y ∈ s.ids, x ∉ (s.node y).refs) ∧ ∀ c ∈ s.cids, (s.cobj c).pyself ≠ some x := by
  unfold State.refcnt at h
  refine ⟨by omega, ?_, ?_⟩
  · intro y hy hm
    have : 0 < (s.ids.map (fun o => ((s.node o).refs).count x)).sum :=
      (sum_pos_iff _ _).mpr ⟨y, hy, List.count_pos_iff.mpr hm⟩
    omega
  · intro c hc hp
    have : 0 < s.selves x := selves_pos hc hp
    unfold State.selves at this
    omega

theorem harmless_free {s : State} {x : Nat} (hx : x ∈ s.ids) (h : s.refcnt x = 0) : Harmless s (fun y => y == x) := by
  refine ⟨?_, ?_⟩
  · intro y hy
    rw [eq_of_beq hy]
    exact hx
  · intro y hy c hc hp
    rw [eq_of_beq hy] at hp
    exact absurd hp ((refcnt_zero h).2.2 c hc)

theorem only_owner {s : State} (hw : WF s) {x y c : Nat} (hx : x ∈ s.ids) (hy : y ∈ s.ids)
    (hox : (s.node x).obj = some c) (hoy : (s.node y).obj = some c) {h : Nat} (hd : (s.cobj c).dyn = some h) : x = y := by
  have key : ∀ x ∈ s.ids, (s.node x).obj = some c → (s.cobj c).pyself = some x := by
    intro x hx ho
    cases hn : s.node x with
    | inst i => rw [hn] at ho; exact (hw.owner x hx i hn c ho h hd).2.1
    | iter t z => rw [hn] at ho; cases ho
    | other r => rw [hn] at ho; cases ho
  have h1 := key x hx hox
  have h2 := key y hy hoy
  rw [h1] at h2
  injection h2

theorem destroyed_of {s : State} (hw : WF s) {U : Nat → Bool} (hh : Harmless s U) {x c : Nat} (hU : U x = true)
    (hc : c ∈ s.cids) (hp : (s.cobj c).pyself = some x) : s.destroyed U c = true := by
  obtain ⟨ho, hz⟩ := hh.own x hU c hc hp
  obtain ⟨hx, i, hi, ⟨k, hk, hd⟩, -⟩ := hw.pyIn c hc x hp
  have ho' : i.obj = some c := by rw [hi] at ho; exact ho
  obtain ⟨s1, s2, -⟩ := hw.sound x hx i hi (by rw [hk]; rfl)
  obtain ⟨-, -, hown, -⟩ := hw.owner x hx i hi c ho' k hd
  have hrel : i.releases = true := by
    unfold Inst.releases
    rw [s1]
    simp only [Bool.false_eq_true, if_false]
    split
    · rename_i hpol
      simp [s2 hpol, hown]
    · rfl
  unfold State.destroyed
  rw [List.any_eq_true]
  refine ⟨x, hx, ?_⟩
  rw [hU, hi]
  simp only [Bool.true_and, ho', hrel, hz, decide_true, Bool.true_and]
  split
  · rw [List.all_eq_true]
    intro y hy
    by_cases hyo : (s.node y).obj = some c
    · have := only_owner hw hx hy ho hyo hd
      subst this
      simp [hU]
    · simp [hyo]
  · rfl

theorem destroyed_elim {s : State} {U : Nat → Bool} {c : Nat} (h : s.destroyed U c = true) :
    ∃ x ∈ s.ids, U x = true ∧ (s.node x).obj = some c := by
  unfold State.destroyed at h
  rw [List.any_eq_true] at h
  obtain ⟨x, hx, h⟩ := h
  rw [Bool.and_eq_true] at h
  refine ⟨x, hx, h.1, ?_⟩
  have h2 := h.2
  split at h2
  · rename_i i hi
    simp only [Bool.and_eq_true, decide_eq_true_eq] at h2
    rw [hi]
    exact h2.1.1
  · cases h2

theorem clear_refs (n : Node) : n.clear.refs = [] := by cases n <;> rfl

theorem WF.collect {s : State} (hw : WF s) {U : Nat → Bool} (hh : Harmless s U) : WF (s.collect U) := by
  have hcl : ∀ x, U x = true → ((s.collect U).node x) = (s.node x).clear := fun x h => by
    show (if U x = true then _ else _) = _; rw [if_pos h]
  have hun : ∀ x, U x ≠ true → ((s.collect U).node x) = s.node x := fun x h => by
    show (if U x = true then _ else _) = _; rw [if_neg h]
  refine ⟨hw.nodup, hw.cnodup.filter _, ?_, hw.extIn, ?_, ?_, ?_⟩
  · intro y hy x hx
    by_cases h : U y = true
    · rw [hcl y h, clear_refs] at hx; cases hx
    · rw [hun y h] at hx; exact hw.closed y hy x hx
  · intro c hc x hp
    obtain ⟨hc1, hc2⟩ := List.mem_filter.mp hc
    have hx : U x ≠ true := by
      intro h
      rw [destroyed_of hw hh h hc1 hp] at hc2
      cases hc2
    rw [hun x hx]
    exact hw.pyIn c hc1 x hp
  · intro x hx i hi c ho h hd
    by_cases hUx : U x = true
    · rw [hcl x hUx] at hi
      cases hn : s.node x with
      | inst j =>
        rw [hn] at hi
        injection hi with hi
        rw [← hi] at ho
        dsimp only at ho
        split at ho
        · rename_i hsing
          obtain ⟨a1, a2, -⟩ := hw.owner x hx j hn c ho h hd
          obtain ⟨-, j', hj', ⟨k, hk, -⟩, -⟩ := hw.pyIn c a1 x a2
          rw [hn] at hj'
          injection hj' with hj'
          subst hj'
          rw [(hw.sound x hx j hn (by rw [hk]; rfl)).1] at hsing
          cases hsing
        · cases ho
      | iter t z => rw [hn] at hi; cases hi
      | other r => rw [hn] at hi; cases hi
    · rw [hun x hUx] at hi
      obtain ⟨a1, a2, a3⟩ := hw.owner x hx i hi c ho h hd
      refine ⟨List.mem_filter.mpr ⟨a1, ?_⟩, a2, a3⟩
      rw [Bool.not_eq_true']
      by_contra hde
      rw [Bool.not_eq_false] at hde
      obtain ⟨y, hy, hUy, hoy⟩ := destroyed_elim hde
      have := only_owner hw hx hy (by rw [hi]; exact ho) hoy hd
      subst this
      exact hUx hUy
  · intro x hx i hi
    by_cases hUx : U x = true
    · rw [hcl x hUx] at hi
      cases hn : s.node x with
      | inst j =>
        rw [hn] at hi
        injection hi with hi
        rw [← hi]
        exact hw.sound x hx j hn
      | iter t z => rw [hn] at hi; cases hi
      | other r => rw [hn] at hi; cases hi
    · rw [hun x hUx] at hi
      exact hw.sound x hx i hi

/-! ## Events -/

theorem upd_same {β : Type} (f : Nat → β) (a : Nat) (b : β) : upd f a b a = b := by simp [upd]
theorem upd_other {β : Type} (f : Nat → β) {a x : Nat} (b : β) (h : x ≠ a) : upd f a b x = f x := by simp [upd, h]

/-- A new Python object that is not a wrapper of a helper object. -/
theorem WF.add {s : State} (hw : WF s) {x : Nat} (hx : x ∉ s.ids) (n : Node)
    (hr : ∀ r ∈ n.refs, r ∈ s.ids) (hs : ∀ i, n = .inst i → i.k.Sound ∧ ∀ c, i.obj = some c → (s.cobj c).dyn = none) :
    WF { s with ids := x :: s.ids, node := upd s.node x n, ext := upd s.ext x 1 } := by
  have ne : ∀ y ∈ s.ids, y ≠ x := fun y hy h => hx (h ▸ hy)
  refine ⟨List.nodup_cons.mpr ⟨hx, hw.nodup⟩, hw.cnodup, ?_, ?_, ?_, ?_, ?_⟩
  · intro y hy z hz
    by_cases h : y = x
    · subst h
      simp only [upd_same] at hz
      exact List.mem_cons_of_mem _ (hr z hz)
    · rcases List.mem_cons.mp hy with hy | hy
      · exact absurd hy h
      · simp only [upd_other _ _ h] at hz
        exact List.mem_cons_of_mem _ (hw.closed y hy z hz)
  · intro y hy
    by_cases h : y = x
    · subst h; simp
    · simp only [upd_other _ _ h] at hy
      exact List.mem_cons_of_mem _ (hw.extIn y hy)
  · intro c hc y hp
    obtain ⟨h1, h2⟩ := hw.pyIn c hc y hp
    refine ⟨List.mem_cons_of_mem _ h1, ?_⟩
    simp only [upd_other _ _ (ne y h1)]
    exact h2
  · intro y hy i hi c ho h hd
    by_cases hyx : y = x
    · subst hyx
      simp only [upd_same] at hi
      have := (hs i hi).2 c ho
      rw [this] at hd; cases hd
    · rcases List.mem_cons.mp hy with hy | hy
      · exact absurd hy hyx
      · simp only [upd_other _ _ hyx] at hi
        exact hw.owner y hy i hi c ho h hd
  · intro y hy i hi
    by_cases hyx : y = x
    · subst hyx
      simp only [upd_same] at hi
      exact (hs i hi).1
    · rcases List.mem_cons.mp hy with hy | hy
      · exact absurd hy hyx
      · simp only [upd_other _ _ hyx] at hi
        exact hw.sound y hy i hi

theorem WF.construct {s : State} (hw : WF s) {x c : Nat} {k : GCls} (sub : Bool) (hx : x ∉ s.ids) (hc : c ∉ s.cids)
    (ho : ∀ y ∈ s.ids, (s.node y).obj ≠ some c) (hk : k.Sound) : WF (s.step (.construct x c k sub)) := by
  have ne : ∀ y ∈ s.ids, y ≠ x := fun y hy h => hx (h ▸ hy)
  have nc : ∀ d ∈ s.cids, d ≠ c := fun y hy h => hc (h ▸ hy)
  refine ⟨List.nodup_cons.mpr ⟨hx, hw.nodup⟩, List.nodup_cons.mpr ⟨hc, hw.cnodup⟩, ?_, ?_, ?_, ?_, ?_⟩
  · intro y hy z hz
    simp only [State.step] at hy hz ⊢
    by_cases h : y = x
    · subst h
      simp only [upd_same, Node.refs] at hz
      cases hz
    · rcases List.mem_cons.mp hy with hy | hy
      · exact absurd hy h
      · simp only [upd_other _ _ h] at hz
        exact List.mem_cons_of_mem _ (hw.closed y hy z hz)
  · intro y hy
    simp only [State.step] at hy ⊢
    by_cases h : y = x
    · subst h; simp
    · simp only [upd_other _ _ h] at hy
      exact List.mem_cons_of_mem _ (hw.extIn y hy)
  · intro d hd y hp
    simp only [State.step] at hd hp ⊢
    by_cases hdc : d = c
    · subst hdc
      simp only [upd_same] at hp ⊢
      cases hsub : sub with
      | false => rw [hsub] at hp; simp at hp
      | true =>
        rw [hsub] at hp
        simp only [if_true] at hp ⊢
        cases hh : k.helper with
        | none => rw [hh] at hp; cases hp
        | some m =>
          rw [hh] at hp
          simp only [Option.isSome_some, if_true, Option.some.injEq] at hp
          subst hp
          exact ⟨by simp, _, upd_same _ _ _, ⟨m, hh, rfl⟩, .inl rfl⟩
    · rcases List.mem_cons.mp hd with hd | hd
      · exact absurd hd hdc
      · simp only [upd_other _ _ hdc] at hp ⊢
        obtain ⟨h1, h2⟩ := hw.pyIn d hd y hp
        refine ⟨List.mem_cons_of_mem _ h1, ?_⟩
        simp only [upd_other _ _ (ne y h1)]
        exact h2
  · intro y hy i hi d hod h hdy
    simp only [State.step] at hy hi hdy ⊢
    by_cases hyx : y = x
    · subst hyx
      simp only [upd_same] at hi
      injection hi with hi
      subst hi
      injection hod with hod
      subst hod
      simp only [upd_same] at hdy ⊢
      rw [hdy]
      exact ⟨by simp, rfl, trivial, fun h => absurd h (Nat.lt_irrefl 0)⟩
    · rcases List.mem_cons.mp hy with hy | hy
      · exact absurd hy hyx
      · simp only [upd_other _ _ hyx] at hi
        have hdc : d ≠ c := by
          rintro rfl
          exact ho y hy (by rw [hi]; exact hod)
        simp only [upd_other _ _ hdc] at hdy ⊢
        obtain ⟨a1, a2⟩ := hw.owner y hy i hi d hod h hdy
        exact ⟨List.mem_cons_of_mem _ a1, a2⟩
  · intro y hy i hi
    simp only [State.step] at hy hi
    by_cases hyx : y = x
    · subst hyx
      simp only [upd_same] at hi
      injection hi with hi
      subst hi
      exact hk
    · rcases List.mem_cons.mp hy with hy | hy
      · exact absurd hy hyx
      · simp only [upd_other _ _ hyx] at hi
        exact hw.sound y hy i hi

/-- A Python object changes what it refers to, and nothing else. -/
theorem WF.change {s : State} (hw : WF s) {x : Nat} (n : Node) (hr : ∀ r ∈ n.refs, r ∈ s.ids)
    (h1 : ∀ i, n = .inst i → ∃ j, s.node x = .inst j ∧ i.k = j.k ∧ i.obj = j.obj ∧ i.own = j.own)
    (h2 : ∀ j, s.node x = .inst j → ∃ i, n = .inst i ∧ i.k = j.k ∧ i.obj = j.obj) :
    WF { s with node := upd s.node x n } := by
  refine ⟨hw.nodup, hw.cnodup, ?_, hw.extIn, ?_, ?_, ?_⟩
  · intro y hy z hz
    by_cases h : y = x
    · subst h; simp only [upd_same] at hz; exact hr z hz
    · simp only [upd_other _ _ h] at hz; exact hw.closed y hy z hz
  · intro c hc y hp
    obtain ⟨a1, j, hj, ⟨k, hk, hd⟩, hor⟩ := hw.pyIn c hc y hp
    refine ⟨a1, ?_⟩
    by_cases h : y = x
    · subst h
      obtain ⟨i, hi, e1, e2⟩ := h2 j hj
      exact ⟨i, by simp only [upd_same]; exact hi, ⟨k, by rw [e1]; exact hk, hd⟩, by rw [e2]; exact hor⟩
    · exact ⟨j, by simp only [upd_other _ _ h]; exact hj, ⟨k, hk, hd⟩, hor⟩
  · intro y hy i hi c ho h hd
    by_cases hyx : y = x
    · subst hyx
      simp only [upd_same] at hi
      obtain ⟨j, hj, e1, e2, e3⟩ := h1 i hi
      rw [e2] at ho
      rw [e1, e3]
      exact hw.owner y hy j hj c ho h hd
    · simp only [upd_other _ _ hyx] at hi
      exact hw.owner y hy i hi c ho h hd
  · intro y hy i hi
    by_cases hyx : y = x
    · subst hyx
      simp only [upd_same] at hi
      obtain ⟨j, hj, e1, -⟩ := h1 i hi
      rw [e1]
      exact hw.sound y hy j hj
    · simp only [upd_other _ _ hyx] at hi
      exact hw.sound y hy i hi

theorem WF.hold {s : State} (hw : WF s) {c n : Nat}
    (h : ∀ x i, (s.cobj c).pyself = some x → s.node x = .inst i → i.obj = some c → n = 0 ∨ i.k.policy.counted = true) :
    WF (s.hold c n) := by
  have hco : ∀ d, ((s.hold c n).cobj d).pyself = (s.cobj d).pyself ∧ ((s.hold c n).cobj d).dyn = (s.cobj d).dyn := by
    intro d
    unfold State.hold
    by_cases hd : d = c
    · subst hd; simp [upd_same]
    · simp [upd_other _ _ hd]
  have hheld : ∀ d, d ≠ c → ((s.hold c n).cobj d).held = (s.cobj d).held := by
    intro d hd; unfold State.hold; simp [upd_other _ _ hd]
  have hhc : ((s.hold c n).cobj c).held = n := by unfold State.hold; simp [upd_same]
  have hsub : ∀ d ∈ (s.hold c n).cids, d ∈ s.cids := by
    intro d hd
    unfold State.hold at hd
    dsimp only at hd
    split at hd
    · exact (List.mem_filter.mp hd).1
    · exact hd
  have hgone : n = 0 → c ∈ (s.hold c n).cids → ∃ y ∈ s.ids, (s.node y).obj = some c := by
    intro hn hc
    by_contra hno
    have : s.ids.all (fun y => (s.node y).obj ≠ some c) = true := by
      rw [List.all_eq_true]
      intro y hy
      simp only [decide_eq_true_eq]
      exact fun ho => hno ⟨y, hy, ho⟩
    unfold State.hold at hc
    dsimp only at hc
    rw [if_pos ⟨hn, this⟩] at hc
    simpa using (List.mem_filter.mp hc).2
  refine ⟨hw.nodup, ?_, hw.closed, hw.extIn, ?_, ?_, hw.sound⟩
  · unfold State.hold
    dsimp only
    split
    · exact hw.cnodup.filter _
    · exact hw.cnodup
  · intro d hd x hp
    rw [(hco d).1] at hp
    obtain ⟨a1, i, hi, ⟨k, hk, hdy⟩, hor⟩ := hw.pyIn d (hsub d hd) x hp
    refine ⟨a1, i, hi, ⟨k, hk, by rw [(hco d).2]; exact hdy⟩, ?_⟩
    by_cases hdc : d = c
    · subst hdc
      rw [hhc]
      rcases hor with ho | hh
      · exact .inl ho
      · by_cases hn : n = 0
        · obtain ⟨y, hy, hyo⟩ := hgone hn hd
          left
          cases hny : s.node y with
          | inst j =>
            rw [hny] at hyo
            have := (hw.owner y hy j hny d hyo k hdy).2.1
            rw [hp] at this
            injection this with this
            subst this
            rw [hi] at hny
            injection hny with hny
            rw [hny]
            exact hyo
          | iter t z => rw [hny] at hyo; cases hyo
          | other r => rw [hny] at hyo; cases hyo
        · exact .inr (Nat.pos_of_ne_zero hn)
    · rw [hheld d hdc]; exact hor
  · intro x hx i hi d ho k hd
    rw [(hco d).2] at hd
    obtain ⟨a1, a2, a3, a4⟩ := hw.owner x hx i hi d ho k hd
    rw [(hco d).1]
    refine ⟨?_, a2, a3, ?_⟩
    · unfold State.hold
      dsimp only
      split
      · rename_i hcond
        refine List.mem_filter.mpr ⟨a1, ?_⟩
        simp only [decide_eq_true_eq]
        rintro rfl
        have := List.all_eq_true.mp hcond.2 x hx
        rw [show s.node x = Node.inst i from hi] at this
        simp only [decide_eq_true_eq] at this
        exact this ho
      · exact a1
    · by_cases hdc : d = c
      · subst hdc
        rw [hhc]
        intro hn
        rcases h x i a2 hi ho with h | h
        · omega
        · exact h
      · rw [hheld d hdc]; exact a4

theorem WF.give {s : State} (hw : WF s) {x : Nat} {i : Inst} {c : Nat} (hx : x ∈ s.ids) (hi : s.node x = .inst i)
    (ho : i.obj = some c) : WF (s.give x i c) := by
  have hco : ∀ d, ((s.give x i c).cobj d).pyself = (s.cobj d).pyself ∧ ((s.give x i c).cobj d).dyn = (s.cobj d).dyn := by
    intro d
    unfold State.give
    dsimp only
    by_cases hd : d = c
    · subst hd; split <;> simp [upd_same]
    · split <;> simp [upd_other _ _ hd]
  have hheld : ∀ d, d ≠ c → ((s.give x i c).cobj d).held = (s.cobj d).held := by
    intro d hd; unfold State.give; dsimp only; split <;> simp [upd_other _ _ hd]
  have hhc : 0 < ((s.give x i c).cobj c).held := by unfold State.give; dsimp only; split <;> simp [upd_same]
  have hids : (s.give x i c).ids = s.ids := by unfold State.give; dsimp only; split <;> rfl
  have hcids : (s.give x i c).cids = s.cids := by unfold State.give; dsimp only; split <;> rfl
  have hext : (s.give x i c).ext = s.ext := by unfold State.give; dsimp only; split <;> rfl
  have hother : ∀ y, y ≠ x → (s.give x i c).node y = s.node y := by
    intro y hy; unfold State.give; dsimp only; split
    · rfl
    · simp [upd_other _ _ hy]
  have hself : (s.give x i c).node x = .inst (if i.k.policy.counted = true then i else { i with obj := none }) := by
    unfold State.give
    dsimp only
    split
    · exact hi
    · simp [upd_same]
  refine ⟨by rw [hids]; exact hw.nodup, by rw [hcids]; exact hw.cnodup, ?_, ?_, ?_, ?_, ?_⟩
  · intro y hy z hz
    rw [hids] at hy ⊢
    by_cases h : y = x
    · subst h
      rw [hself] at hz
      have : (Node.inst (if i.k.policy.counted = true then i else { i with obj := none })).refs = (s.node y).refs := by
        rw [hi]; split <;> rfl
      rw [this] at hz
      exact hw.closed y hy z hz
    · rw [hother y h] at hz; exact hw.closed y hy z hz
  · intro y hy; rw [hext] at hy; rw [hids]; exact hw.extIn y hy
  · intro d hd y hp
    rw [hcids] at hd
    rw [(hco d).1] at hp
    rw [hids, (hco d).2]
    obtain ⟨a1, j, hj, hk, hor⟩ := hw.pyIn d hd y hp
    refine ⟨a1, ?_⟩
    by_cases hyx : y = x
    · subst hyx
      rw [hi] at hj
      injection hj with hj
      subst hj
      refine ⟨_, hself, ?_, ?_⟩
      · split
        · exact hk
        · exact hk
      · by_cases hdc : d = c
        · subst hdc; exact .inr hhc
        · right
          rw [hheld d hdc]
          rcases hor with h | h
          · rw [ho] at h; injection h with h; exact absurd h.symm hdc
          · exact h
    · refine ⟨j, by rw [hother y hyx]; exact hj, hk, ?_⟩
      rcases hor with h | h
      · exact .inl h
      · right
        by_cases hdc : d = c
        · subst hdc; exact hhc
        · rw [hheld d hdc]; exact h
  · intro y hy j hj d hod k hd
    rw [hids] at hy
    rw [(hco d).2] at hd
    rw [hcids, (hco d).1]
    by_cases hyx : y = x
    · subst hyx
      rw [hself] at hj
      injection hj with hj
      split at hj
      · rename_i hcnt
        subst hj
        obtain ⟨a1, a2, a3, -⟩ := hw.owner y hy i hi d hod k hd
        exact ⟨a1, a2, a3, fun _ => hcnt⟩
      · subst hj; cases hod
    · rw [hother y hyx] at hj
      obtain ⟨a1, a2, a3, a4⟩ := hw.owner y hy j hj d hod k hd
      refine ⟨a1, a2, a3, ?_⟩
      by_cases hdc : d = c
      · subst hdc
        exact absurd (only_owner hw hy hx (by rw [hj]; exact hod) (by rw [hi]; exact ho) hd) hyx
      · rw [hheld d hdc]; exact a4
  · intro y hy j hj
    rw [hids] at hy
    by_cases hyx : y = x
    · subst hyx
      rw [hself] at hj
      injection hj with hj
      have := hw.sound y hy i hi
      split at hj <;> subst hj <;> exact this
    · rw [hother y hyx] at hj
      exact hw.sound y hy j hj

theorem WF.free {s : State} (hw : WF s) {x : Nat} (hx : x ∈ s.ids) (h : s.refcnt x = 0) : WF (s.free x) := by
  have hc := hw.collect (harmless_free hx h)
  obtain ⟨z1, z2, z3⟩ := refcnt_zero h
  have mem : ∀ y, y ∈ (s.free x).ids ↔ y ∈ s.ids ∧ y ≠ x := by
    intro y
    unfold State.free
    dsimp only
    rw [List.mem_filter]
    simp [State.collect]
  have hnode : ∀ y, (s.free x).node y = (s.collect (fun y => y == x)).node y := fun _ => rfl
  refine ⟨hc.nodup.filter _, hc.cnodup, ?_, ?_, ?_, ?_, ?_⟩
  · intro y hy z hz
    obtain ⟨hy1, hy2⟩ := (mem y).mp hy
    rw [hnode] at hz
    have hzz := hc.closed y hy1 z hz
    refine (mem z).mpr ⟨hzz, ?_⟩
    rintro rfl
    have : (s.collect (fun y => y == z)).node y = s.node y := by
      show (if (y == z) = true then _ else _) = _
      rw [if_neg (by simpa using hy2)]
    rw [this] at hz
    exact z2 y hy1 hz
  · intro y hy
    have : y ∈ s.ids := hc.extIn y hy
    refine (mem y).mpr ⟨this, ?_⟩
    rintro rfl
    have : 0 < s.ext y := hy
    omega
  · intro c hcm y hp
    obtain ⟨a1, a2⟩ := hc.pyIn c hcm y hp
    refine ⟨(mem y).mpr ⟨a1, ?_⟩, a2⟩
    rintro rfl
    exact z3 c (List.mem_filter.mp hcm).1 hp
  · intro y hy i hi c ho k hd
    exact hc.owner y ((mem y).mp hy).1 i hi c ho k hd
  · intro y hy i hi
    exact hc.sound y ((mem y).mp hy).1 i hi

theorem WF.step {s : State} (hw : WF s) {o : Op} (h : o.Ok s) : WF (s.step o) := by
  cases o with
  | construct x c k sub => exact hw.construct sub h.1 h.2.1 h.2.2.1 h.2.2.2
  | wrap x c k own =>
    refine hw.add h.1 _ (by simp [Node.refs]) ?_
    intro i hi
    injection hi with hi
    subst hi
    refine ⟨h.2.2, ?_⟩
    intro d hd
    injection hd with hd
    subst hd
    exact h.2.1
  | iter x t =>
    refine hw.add h.1 _ ?_ (fun i hi => by cases hi)
    intro r hr
    simp only [Node.refs, Option.toList_some, List.mem_singleton] at hr
    subst hr
    exact h.2
  | other x => exact hw.add h _ (by simp [Node.refs]) (fun i hi => by cases hi)
  | change x rs =>
    obtain ⟨-, ⟨old, hold⟩, hr⟩ := h
    refine hw.change _ hr (fun i hi => by cases hi) ?_
    intro j hj
    rw [hold] at hj; cases hj
  | dict x d =>
    simp only [State.step]
    split
    · rename_i i hi
      refine hw.change _ ?_ ?_ ?_
      · intro r hr
        simp only [Node.refs, Option.mem_toList] at hr
        exact h.2 r hr
      · intro j hj
        injection hj with hj
        subst hj
        exact ⟨i, hi, rfl, rfl, rfl⟩
      · intro j hj
        rw [hi] at hj
        injection hj with hj
        subst hj
        exact ⟨_, rfl, rfl, rfl⟩
    · exact hw
  | ext x n =>
    refine ⟨hw.nodup, hw.cnodup, hw.closed, ?_, hw.pyIn, hw.owner, hw.sound⟩
    intro y hy
    simp only [State.step] at hy ⊢
    by_cases hyx : y = x
    · subst hyx; exact h
    · rw [upd_other _ _ hyx] at hy; exact hw.extIn y hy
  | hold c n => exact hw.hold h.2
  | transfer x =>
    simp only [State.step]
    split
    · rename_i i hi
      split
      · rename_i c hc
        exact hw.give h hi hc
      · exact hw
    · exact hw
  | free x => exact hw.free h.1 h.2
  | collect U => exact hw.collect (harmless_garbage hw h)

theorem WF.run : ∀ (os : List Op) {s : State}, WF s → Legal s os → WF (s.run os)
  | [], _, hw, _ => hw
  | _ :: os, _, hw, h => WF.run os (hw.step h.1) h.2

theorem WF.init : WF .empty :=
  ⟨.nil, .nil, by simp [State.empty], by simp [State.empty], by simp [State.empty], by simp [State.empty], by simp [State.empty]⟩

end Verif.Collector
