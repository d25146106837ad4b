import Verif.Parser.Schedule
import Mathlib.Data.List.Perm.Subperm
import Mathlib.Data.List.Nodup

/-!
# C82: classes are registered after their bases, once, and none is lost without reason
-/
namespace Verif.Schedule
open Verif

/-- A class at the front of the work list has to wait. -/
def Waits (st : St) (q : List (Cls × Nat)) (c : Cls) : Prop :=
  checkBases st.ids (pendingIds q) c.d.bases = .waiting ∨
    checkBases st.ids (pendingIds q) c.d.bases = .ok ∧ castWaits st.ids (pendingIds q) c.d.casts = true

/-- A class at the front of the work list can be registered. -/
def Ready (st : St) (q : List (Cls × Nat)) (c : Cls) : Prop :=
  checkBases st.ids (pendingIds q) c.d.bases = .ok ∧ castWaits st.ids (pendingIds q) c.d.casts = false

/-- The state after an anonymous structure. -/
def addAnon (outer : Option Nat) (c : Cls) (st : St) : St :=
  match outer with
  | some o => { st with anon := st.anon ++ [(c.d.id, o)] }
  | none => st

/-- The state after a class and everything inside it. -/
def addConvs (c : Cls) (st : St) : St :=
  { st with convs := st.convs ++ conversions c.d.id st.ids c.d.casts }

/-- The runs of the loop. -/
inductive Runs : Option Nat → List (Cls × Nat) → St → PyRes St → Prop
  | done {outer st} : Runs outer [] st (.ok st)
  | ignored {outer c k q st r} : c.d.ignored = true → Runs outer q st r → Runs outer ((c, k) :: q) st r
  | anonymous {outer c k q st r} : c.d.ignored = false → c.d.anonymous = true →
      Runs outer q (addAnon outer c st) r → Runs outer ((c, k) :: q) st r
  | undeclared {outer c k q st r b} : c.d.ignored = false → c.d.anonymous = false →
      checkBases st.ids (pendingIds q) c.d.bases = .undeclared b →
      Runs outer q { st with dropped := st.dropped ++ [(c.d.id, b)] } r → Runs outer ((c, k) :: q) st r
  | giveUp {outer c k q st} : c.d.ignored = false → c.d.anonymous = false → Waits st q c → 10 ≤ k + 1 →
      Runs outer ((c, k) :: q) st (.error .assertionError)
  | postpone {outer c k q st r} : c.d.ignored = false → c.d.anonymous = false → Waits st q c → k + 1 < 10 →
      Runs outer (q ++ [(c, k + 1)]) st r → Runs outer ((c, k) :: q) st r
  | hidden {outer c k q st r} : c.d.ignored = false → c.d.anonymous = false → Ready st q c →
      c.d.hidden = true → Runs outer q st r → Runs outer ((c, k) :: q) st r
  | innerFails {outer c k q st e} : c.d.ignored = false → c.d.anonymous = false → Ready st q c →
      c.d.hidden = false →
      Runs (some c.d.id) (start c.inner) { st with reg := st.reg ++ [c.d] } (.error e) →
      Runs outer ((c, k) :: q) st (.error e)
  | register {outer c k q st st2 r} : c.d.ignored = false → c.d.anonymous = false → Ready st q c →
      c.d.hidden = false →
      Runs (some c.d.id) (start c.inner) { st with reg := st.reg ++ [c.d] } (.ok st2) →
      Runs outer q (addConvs c st2) r → Runs outer ((c, k) :: q) st r

theorem runs_of_run : ∀ {f : Nat} {outer : Option Nat} {q : List (Cls × Nat)} {st : St} {r : PyRes St},
    run f outer q st = some r → Runs outer q st r
  | f, outer, [], st, r, h => by
    simp only [run, Option.some.injEq] at h
    subst h
    exact .done
  | 0, _, _ :: _, _, _, h => by simp [run] at h
  | f + 1, outer, (c, k) :: q, st, r, h => by
    simp only [run] at h
    split at h
    · rename_i h0
      exact .ignored h0 (runs_of_run h)
    rename_i h0
    split at h
    · rename_i h1
      exact .anonymous (by simpa using h0) h1 (runs_of_run h)
    rename_i h1
    have hw : Waits st q c → (if k + 1 ≥ 10 then some (Except.error PyErr.assertionError)
        else run f outer (q ++ [(c, k + 1)]) st) = some r → Runs outer ((c, k) :: q) st r := by
      intro hw h
      split at h
      · rename_i hk
        cases h
        exact .giveUp (by simpa using h0) (by simpa using h1) hw hk
      · rename_i hk
        exact .postpone (by simpa using h0) (by simpa using h1) hw (by omega) (runs_of_run h)
    split at h
    · rename_i b hb
      exact .undeclared (by simpa using h0) (by simpa using h1) hb (runs_of_run h)
    · rename_i hb
      exact hw (.inl hb) h
    rename_i hb
    split at h
    · rename_i hc
      exact hw (.inr ⟨hb, hc⟩) h
    rename_i hc
    split at h
    · rename_i hh
      exact .hidden (by simpa using h0) (by simpa using h1) ⟨hb, by simpa using hc⟩ hh (runs_of_run h)
    rename_i hh
    split at h
    · rename_i st2 hi
      exact .register (by simpa using h0) (by simpa using h1) ⟨hb, by simpa using hc⟩ (by simpa using hh)
        (runs_of_run hi) (runs_of_run h)
    · rename_i hi
      cases r with
      | ok s => exact absurd h (hi s)
      | error e =>
        exact .innerFails (by simpa using h0) (by simpa using h1) ⟨hb, by simpa using hc⟩ (by simpa using hh)
          (runs_of_run h)

/-! ## The checks -/

theorem checkBases_ok {reg p : List Nat} : ∀ {bs : List Nat}, checkBases reg p bs = .ok → ∀ b ∈ bs, b ∈ reg
  | [], _ => by simp
  | b :: bs, h => by
    simp only [checkBases] at h
    split at h
    · rename_i hb
      intro x hx
      rcases List.mem_cons.mp hx with rfl | hx
      · exact hb
      · exact checkBases_ok h x hx
    · split at h <;> cases h

theorem checkBases_undeclared {reg p : List Nat} : ∀ {bs : List Nat} {b : Nat},
    checkBases reg p bs = .undeclared b → b ∈ bs ∧ b ∉ reg ∧ b ∉ p
  | [], _, h => by cases h
  | b :: bs, b', h => by
    simp only [checkBases] at h
    split at h
    · obtain ⟨h1, h2⟩ := checkBases_undeclared h
      exact ⟨List.mem_cons_of_mem _ h1, h2⟩
    · rename_i hb
      split at h
      · cases h
      · rename_i hp
        cases h
        exact ⟨List.mem_cons_self, hb, hp⟩

theorem checkBases_waiting {reg p : List Nat} : ∀ {bs : List Nat}, checkBases reg p bs = .waiting →
    ∃ b ∈ bs, b ∉ reg ∧ b ∈ p
  | [], h => by cases h
  | b :: bs, h => by
    simp only [checkBases] at h
    split at h
    · obtain ⟨x, h1, h2⟩ := checkBases_waiting h
      exact ⟨x, List.mem_cons_of_mem _ h1, h2⟩
    · rename_i hb
      split at h
      · rename_i hp
        exact ⟨b, List.mem_cons_self, hb, hp⟩
      · cases h

theorem castWaits_true {reg p : List Nat} : ∀ {cs : List (Option Nat)}, castWaits reg p cs = true →
    ∃ t, some t ∈ cs ∧ t ∉ reg ∧ t ∈ p
  | [], h => by cases h
  | none :: cs, h => by
    obtain ⟨t, h1, h2⟩ := castWaits_true (cs := cs) h
    exact ⟨t, List.mem_cons_of_mem _ h1, h2⟩
  | some t :: cs, h => by
    simp only [castWaits] at h
    split at h
    · obtain ⟨t, h1, h2⟩ := castWaits_true h
      exact ⟨t, List.mem_cons_of_mem _ h1, h2⟩
    · rename_i ht
      exact ⟨t, List.mem_cons_self, ht, by simpa using h⟩

/-- If every target is registered or waiting, a class that need not wait has all targets registered. -/
theorem castWaits_false {reg p : List Nat} : ∀ {cs : List (Option Nat)}, castWaits reg p cs = false →
    (∀ t, some t ∈ cs → t ∈ reg ∨ t ∈ p) → ∀ t, some t ∈ cs → t ∈ reg
  | [], _, _ => by simp
  | none :: cs, h, hp => by
    intro t ht
    rcases List.mem_cons.mp ht with e | ht
    · cases e
    · exact castWaits_false (cs := cs) h (fun t ht => hp t (List.mem_cons_of_mem _ ht)) t ht
  | some t :: cs, h, hp => by
    simp only [castWaits] at h
    split at h
    · rename_i hr
      intro u hu
      rcases List.mem_cons.mp hu with e | hu
      · cases e; exact hr
      · exact castWaits_false h (fun t ht => hp t (List.mem_cons_of_mem _ ht)) u hu
    · rename_i hr
      exfalso
      rcases hp t List.mem_cons_self with h' | h'
      · exact hr h'
      · simp [h'] at h

/-- A waiting class waits for a class in the list that is one of its bases or conversion targets. -/
def Decl.needs (d : Decl) : List Nat := d.bases ++ d.casts.filterMap (fun c => c)

theorem waits_for {st : St} {q : List (Cls × Nat)} {c : Cls} (h : Waits st q c) :
    ∃ t ∈ c.d.needs, t ∉ st.ids ∧ t ∈ pendingIds q := by
  rcases h with h | ⟨-, h⟩
  · obtain ⟨b, h1, h2⟩ := checkBases_waiting h
    exact ⟨b, List.mem_append_left _ h1, h2⟩
  · obtain ⟨t, h1, h2⟩ := castWaits_true h
    exact ⟨t, List.mem_append_right _ (List.mem_filterMap.mpr ⟨some t, h1, rfl⟩), h2⟩

/-! ## The order -/

/-- Every class comes after its bases. -/
def BasesFirst (l : List Decl) : Prop :=
  ∀ pre d post, l = pre ++ d :: post → ∀ b ∈ d.bases, ∃ e ∈ pre, e.id = b

theorem basesFirst_append {l : List Decl} {d : Decl} (h : BasesFirst l) (hd : ∀ b ∈ d.bases, ∃ e ∈ l, e.id = b) :
    BasesFirst (l ++ [d]) := by
  intro pre d' post he b hb
  rcases List.append_eq_append_iff.mp he with ⟨as, h1, h2⟩ | ⟨bs, h1, h2⟩
  · cases as with
    | nil =>
      rw [List.append_nil] at h1
      simp only [List.nil_append, List.cons.injEq] at h2
      obtain ⟨rfl, -⟩ := h2
      rw [h1]
      exact hd b hb
    | cons a as =>
      simp at h2
  · cases bs with
    | nil =>
      rw [List.append_nil] at h1
      simp only [List.nil_append, List.cons.injEq] at h2
      obtain ⟨rfl, -⟩ := h2
      rw [← h1]
      exact hd b hb
    | cons x bs =>
      simp only [List.cons_append, List.cons.injEq] at h2
      obtain ⟨rfl, -⟩ := h2
      exact h _ _ _ h1 b hb

theorem runs_basesFirst {outer : Option Nat} {q : List (Cls × Nat)} {st : St} {r : PyRes St}
    (h : Runs outer q st r) : BasesFirst st.reg → ∀ st', r = .ok st' → BasesFirst st'.reg := by
  induction h with
  | done => intro h st' e; cases e; exact h
  | ignored _ _ ih => exact ih
  | @anonymous outer _ _ _ _ _ _ _ _ ih =>
    intro h
    refine ih ?_
    cases outer <;> exact h
  | undeclared _ _ _ _ ih => exact ih
  | giveUp => intro _ _ e; cases e
  | postpone _ _ _ _ _ ih => exact ih
  | hidden _ _ _ _ _ ih => exact ih
  | innerFails => intro _ _ e; cases e
  | register _ _ hr _ _ _ ih1 ih2 =>
    intro h
    have key := ih1 (basesFirst_append h (fun b hb => by simpa [St.ids] using checkBases_ok hr.1 b hb)) _ rfl
    exact ih2 key

/-! ## Once -/

mutual
/-- The class and all classes in it. -/
def Cls.all : Cls → List Decl
  | .mk d inner => d :: alls inner
def alls : List Cls → List Decl
  | [] => []
  | c :: cs => c.all ++ alls cs
end

theorem alls_eq : ∀ l : List Cls, alls l = l.flatMap Cls.all
  | [] => by simp [alls]
  | c :: cs => by simp [alls, alls_eq cs]

theorem all_eq (c : Cls) : c.all = c.d :: c.inner.flatMap Cls.all := by
  cases c with
  | mk d i => simp [Cls.all, Cls.d, Cls.inner, alls_eq]

theorem flatMap_sublist {a b : List Cls} (h : a.Sublist b) : (a.flatMap Cls.all).Sublist (b.flatMap Cls.all) := by
  induction h with
  | slnil => exact List.Sublist.refl _
  | cons x _ ih => exact ih.trans (List.sublist_append_right _ _)
  | cons_cons x _ ih => exact (List.Sublist.refl _).append ih

/-- Everything in the work list. -/
def allQ (q : List (Cls × Nat)) : List Decl := q.flatMap (·.1.all)

theorem allQ_start (l : List Cls) : List.Subperm (allQ (start l)) (l.flatMap Cls.all) := by
  have h1 : (allQ (start l)).Perm (allQ ((l.filter (·.d.listed)).map (·, 0))) := (start_perm l).flatMap_right _
  have h2 : allQ ((l.filter (·.d.listed)).map (·, 0)) = (l.filter (·.d.listed)).flatMap Cls.all := by
    simp [allQ, List.flatMap_map]
  rw [h2] at h1
  exact h1.subperm.trans (List.Sublist.subperm (flatMap_sublist List.filter_sublist))

theorem runs_once {outer : Option Nat} {q : List (Cls × Nat)} {st : St} {r : PyRes St}
    (h : Runs outer q st r) : ∀ st', r = .ok st' → ∃ l, st'.reg = st.reg ++ l ∧ List.Subperm l (allQ q) ∧
      ∀ d ∈ l, d.ignored = false ∧ d.anonymous = false ∧ d.hidden = false := by
  induction h with
  | done => intro st' e; cases e; exact ⟨[], by simp, List.nil_subperm, by simp⟩
  | @ignored outer c k q st r _ _ ih =>
    intro st' e
    obtain ⟨l, h1, h2, h3⟩ := ih st' e
    exact ⟨l, h1, h2.trans (List.Sublist.subperm (List.sublist_append_right _ _)), h3⟩
  | @anonymous outer c k q st r _ _ _ ih =>
    intro st' e
    obtain ⟨l, h1, h2, h3⟩ := ih st' e
    refine ⟨l, ?_, h2.trans (List.Sublist.subperm (List.sublist_append_right _ _)), h3⟩
    rw [h1]; cases outer <;> rfl
  | @undeclared outer c k q st r b _ _ _ _ ih =>
    intro st' e
    obtain ⟨l, h1, h2, h3⟩ := ih st' e
    exact ⟨l, h1, h2.trans (List.Sublist.subperm (List.sublist_append_right _ _)), h3⟩
  | giveUp => intro _ e; cases e
  | @postpone outer c k q st r _ _ _ _ _ ih =>
    intro st' e
    obtain ⟨l, h1, h2, h3⟩ := ih st' e
    refine ⟨l, h1, h2.trans (List.Perm.subperm ?_), h3⟩
    simp only [allQ, List.flatMap_append, List.flatMap_cons, List.flatMap_nil, List.append_nil]
    exact List.perm_append_comm
  | @hidden outer c k q st r _ _ _ _ _ ih =>
    intro st' e
    obtain ⟨l, h1, h2, h3⟩ := ih st' e
    exact ⟨l, h1, h2.trans (List.Sublist.subperm (List.sublist_append_right _ _)), h3⟩
  | innerFails => intro _ e; cases e
  | @register outer c k q st st2 r h0 h1 hr hh _ _ ih1 ih2 =>
    intro st' e
    obtain ⟨l1, a1, a2, a3⟩ := ih1 st2 rfl
    obtain ⟨l2, b1, b2, b3⟩ := ih2 st' e
    refine ⟨c.d :: l1 ++ l2, ?_, ?_, ?_⟩
    · rw [b1]
      show st2.reg ++ l2 = _
      rw [a1]
      simp
    · show List.Subperm _ (c.all ++ allQ q)
      refine List.Subperm.append ?_ b2
      rw [all_eq]
      exact (List.subperm_cons _).mpr (a2.trans (allQ_start _))
    · intro d hd
      rcases List.mem_append.mp hd with hd | hd
      · rcases List.mem_cons.mp hd with rfl | hd
        · exact ⟨h0, h1, hh⟩
        · exact a3 d hd
      · exact b3 d hd

/-! ## Nothing is lost -/

/-- Why a class is not registered. -/
inductive Excused (st : St) (d : Decl) : Prop
  | ignored (h : d.ignored = true)
  | anonymous (h : d.anonymous = true)
  | hidden (h : d.hidden = true)
  /-- a base class is not registered before it -/
  | base (b : Nat) (hb : b ∈ d.bases) (h : (d.id, b) ∈ st.dropped)

/-- What is recorded stays. -/
theorem runs_grows {outer : Option Nat} {q : List (Cls × Nat)} {st : St} {r : PyRes St} (h : Runs outer q st r) :
    ∀ st', r = .ok st' → (∀ d ∈ st.reg, d ∈ st'.reg) ∧ (∀ x ∈ st.dropped, x ∈ st'.dropped) ∧
      ∀ x ∈ st.convs, x ∈ st'.convs := by
  induction h with
  | done => intro st' e; cases e; exact ⟨fun _ h => h, fun _ h => h, fun _ h => h⟩
  | ignored _ _ ih => exact ih
  | @anonymous outer _ _ _ _ _ _ _ _ ih => intro st' e; have := ih st' e; cases outer <;> exact this
  | undeclared _ _ _ _ ih =>
    intro st' e
    obtain ⟨h1, h2, h3⟩ := ih st' e
    exact ⟨h1, fun x hx => h2 x (List.mem_append_left _ hx), h3⟩
  | giveUp => intro _ e; cases e
  | postpone _ _ _ _ _ ih => exact ih
  | hidden _ _ _ _ _ ih => exact ih
  | innerFails => intro _ e; cases e
  | register _ _ _ _ _ _ ih1 ih2 =>
    intro st' e
    obtain ⟨a1, a2, a3⟩ := ih1 _ rfl
    obtain ⟨b1, b2, b3⟩ := ih2 st' e
    exact ⟨fun d hd => b1 d (a1 d (List.mem_append_left _ hd)), fun x hx => b2 x (a2 x hx),
      fun x hx => b3 x (List.mem_append_left _ (a3 x hx))⟩

theorem excused_mono {st st' : St} {d : Decl} (h : ∀ x ∈ st.dropped, x ∈ st'.dropped) (he : Excused st d) :
    Excused st' d := by
  cases he with
  | ignored h => exact .ignored h
  | anonymous h => exact .anonymous h
  | hidden h => exact .hidden h
  | base b hb h' => exact .base b hb (h _ h')

theorem runs_accounted {outer : Option Nat} {q : List (Cls × Nat)} {st : St} {r : PyRes St}
    (h : Runs outer q st r) : ∀ st', r = .ok st' → ∀ p ∈ q, p.1.d ∈ st'.reg ∨ Excused st' p.1.d := by
  induction h with
  | done => intro st' e p hp; cases hp
  | ignored h0 _ ih =>
    intro st' e p hp
    rcases List.mem_cons.mp hp with rfl | hp
    · exact .inr (.ignored h0)
    · exact ih st' e p hp
  | anonymous _ h0 _ ih =>
    intro st' e p hp
    rcases List.mem_cons.mp hp with rfl | hp
    · exact .inr (.anonymous h0)
    · exact ih st' e p hp
  | undeclared _ _ hb hr ih =>
    intro st' e p hp
    rcases List.mem_cons.mp hp with rfl | hp
    · exact .inr (.base _ (checkBases_undeclared hb).1
        ((runs_grows hr st' e).2.1 _ (List.mem_append_right _ (List.mem_singleton.mpr rfl))))
    · exact ih st' e p hp
  | giveUp => intro _ e; cases e
  | @postpone outer c k q st r _ _ _ _ _ ih =>
    intro st' e p hp
    rcases List.mem_cons.mp hp with rfl | hp
    · exact ih st' e (c, k + 1) (List.mem_append_right _ (List.mem_singleton.mpr rfl))
    · exact ih st' e p (List.mem_append_left _ hp)
  | hidden _ _ _ h0 _ ih =>
    intro st' e p hp
    rcases List.mem_cons.mp hp with rfl | hp
    · exact .inr (.hidden h0)
    · exact ih st' e p hp
  | innerFails => intro _ e; cases e
  | register _ _ _ _ h1 h2 _ ih2 =>
    intro st' e p hp
    rcases List.mem_cons.mp hp with rfl | hp
    · exact .inl ((runs_grows h2 st' e).1 _ ((runs_grows h1 _ rfl).1 _
        (List.mem_append_right _ (List.mem_singleton.mpr rfl))))
    · exact ih2 st' e p hp

/-- Every class in the list can be wrapped, and what it needs is registered or in the list, too. -/
def Closed (need : Decl → List Nat) (st : St) (q : List (Cls × Nat)) : Prop :=
  ∀ p ∈ q, p.1.d.ignored = false ∧ p.1.d.anonymous = false ∧ p.1.d.hidden = false ∧
    ∀ t ∈ need p.1.d, t ≠ p.1.d.id ∧ (t ∈ st.ids ∨ t ∈ pendingIds q)

theorem Closed.head {need : Decl → List Nat} {st : St} {c : Cls} {k : Nat} {q : List (Cls × Nat)}
    (h : Closed need st ((c, k) :: q)) : ∀ t ∈ need c.d, t ∈ st.ids ∨ t ∈ pendingIds q := by
  intro t ht
  obtain ⟨h1, h2⟩ := (h _ List.mem_cons_self).2.2.2 t ht
  rcases h2 with h2 | h2
  · exact .inl h2
  · rcases List.mem_cons.mp h2 with h2 | h2
    · exact absurd h2 h1
    · exact .inr h2

theorem Closed.postpone {need : Decl → List Nat} {st : St} {c : Cls} {k j : Nat} {q : List (Cls × Nat)}
    (h : Closed need st ((c, k) :: q)) : Closed need st (q ++ [(c, j)]) := by
  have key : ∀ t, t ∈ pendingIds ((c, k) :: q) → t ∈ pendingIds (q ++ [(c, j)]) := by
    intro t ht
    simp only [pendingIds, List.map_cons, List.mem_cons, List.map_append, List.mem_append, List.map_nil,
      List.not_mem_nil, or_false] at ht ⊢
    tauto
  intro p hp
  have : ∃ p' ∈ (c, k) :: q, p'.1 = p.1 := by
    rcases List.mem_append.mp hp with hp | hp
    · exact ⟨p, List.mem_cons_of_mem _ hp, rfl⟩
    · cases List.mem_singleton.mp hp
      exact ⟨_, List.mem_cons_self, rfl⟩
  obtain ⟨p', hp', e⟩ := this
  have h' := h p' hp'
  rw [e] at h'
  exact ⟨h'.1, h'.2.1, h'.2.2.1, fun t ht => ⟨(h'.2.2.2 t ht).1, (h'.2.2.2 t ht).2.imp_right (key t)⟩⟩

theorem Closed.next {need : Decl → List Nat} {st st2 : St} {c : Cls} {k : Nat} {q : List (Cls × Nat)}
    (h : Closed need st ((c, k) :: q)) (hs : ∀ d ∈ st.reg ++ [c.d], d ∈ st2.reg) : Closed need st2 q := by
  intro p hp
  obtain ⟨h1, h2, h3, h4⟩ := h p (List.mem_cons_of_mem _ hp)
  refine ⟨h1, h2, h3, fun t ht => ⟨(h4 t ht).1, ?_⟩⟩
  have key : ∀ d ∈ st.reg ++ [c.d], d.id ∈ st2.ids := fun d hd => List.mem_map.mpr ⟨d, hs d hd, rfl⟩
  rcases (h4 t ht).2 with h5 | h5
  · obtain ⟨d, hd, rfl⟩ := List.mem_map.mp h5
    exact .inl (key d (List.mem_append_left _ hd))
  · rcases List.mem_cons.mp h5 with h5 | h5
    · rw [h5]
      exact .inl (key _ (List.mem_append_right _ (List.mem_singleton.mpr rfl)))
    · exact .inr h5

/-- If every class in the list can be wrapped and has its bases in the list or registered before, all are
registered, unless the loop is given up. -/
theorem runs_complete {need : Decl → List Nat} (hn : ∀ d : Decl, ∀ b ∈ d.bases, b ∈ need d) {outer : Option Nat}
    {q : List (Cls × Nat)} {st : St} {r : PyRes St} (h : Runs outer q st r) :
    Closed need st q → ∀ st', r = .ok st' → ∀ p ∈ q, p.1.d ∈ st'.reg := by
  induction h with
  | done => intro _ st' e p hp; cases hp
  | ignored h0 _ ih => intro hq; have := (hq _ List.mem_cons_self).1; rw [h0] at this; cases this
  | anonymous _ h0 _ ih => intro hq; have := (hq _ List.mem_cons_self).2.1; rw [h0] at this; cases this
  | undeclared _ _ hb hr ih =>
    intro hq
    obtain ⟨h1, h2, h3⟩ := checkBases_undeclared hb
    rcases hq.head _ (hn _ _ h1) with h | h
    · exact absurd h h2
    · exact absurd h h3
  | giveUp => intro _ _ e; cases e
  | @postpone outer c k q st r _ _ _ _ _ ih =>
    intro hq st' e p hp
    have := ih hq.postpone st' e
    rcases List.mem_cons.mp hp with rfl | hp
    · exact this (c, k + 1) (List.mem_append_right _ (List.mem_singleton.mpr rfl))
    · exact this p (List.mem_append_left _ hp)
  | hidden _ _ _ h0 _ ih => intro hq; have := (hq _ List.mem_cons_self).2.2.1; rw [h0] at this; cases this
  | innerFails => intro _ _ e; cases e
  | @register outer c k q st st2 r _ _ _ _ h1 h2 _ ih2 =>
    intro hq st' e p hp
    have g1 := (runs_grows h1 _ rfl).1
    rcases List.mem_cons.mp hp with rfl | hp
    · exact (runs_grows h2 st' e).1 _ (g1 _ (List.mem_append_right _ (List.mem_singleton.mpr rfl)))
    · exact ih2 (hq.next (st2 := addConvs c st2) g1) st' e p hp

/-- If the targets of casting operators are in the list or registered before, too, all conversions are
declared. -/
theorem runs_converts {outer : Option Nat} {q : List (Cls × Nat)} {st : St} {r : PyRes St}
    (h : Runs outer q st r) : Closed Decl.needs st q → ∀ st', r = .ok st' →
    ∀ p ∈ q, ∀ t, some t ∈ p.1.d.casts → (p.1.d.id, t) ∈ st'.convs := by
  have hneed : ∀ (d : Decl) (t : Nat), some t ∈ d.casts → t ∈ d.needs := fun d t ht =>
    List.mem_append_right _ (List.mem_filterMap.mpr ⟨some t, ht, rfl⟩)
  induction h with
  | done => intro _ st' e p hp; cases hp
  | ignored h0 _ ih => intro hq; have := (hq _ List.mem_cons_self).1; rw [h0] at this; cases this
  | anonymous _ h0 _ ih => intro hq; have := (hq _ List.mem_cons_self).2.1; rw [h0] at this; cases this
  | undeclared _ _ hb hr ih =>
    intro hq
    obtain ⟨h1, h2, h3⟩ := checkBases_undeclared hb
    rcases hq.head _ (List.mem_append_left _ h1) with h | h
    · exact absurd h h2
    · exact absurd h h3
  | giveUp => intro _ _ e; cases e
  | @postpone outer c k q st r _ _ _ _ _ ih =>
    intro hq st' e p hp
    have := ih hq.postpone st' e
    rcases List.mem_cons.mp hp with rfl | hp
    · exact this (c, k + 1) (List.mem_append_right _ (List.mem_singleton.mpr rfl))
    · exact this p (List.mem_append_left _ hp)
  | hidden _ _ _ h0 _ ih => intro hq; have := (hq _ List.mem_cons_self).2.2.1; rw [h0] at this; cases this
  | innerFails => intro _ _ e; cases e
  | @register outer c k q st st2 r _ _ hr _ h1 h2 _ ih2 =>
    intro hq st' e p hp t ht
    have g1 := (runs_grows h1 _ rfl).1
    rcases List.mem_cons.mp hp with rfl | hp
    · have ht' : t ∈ st.ids := castWaits_false hr.2 (fun t ht => hq.head t (hneed _ _ ht)) t ht
      obtain ⟨d, hd, rfl⟩ := List.mem_map.mp ht'
      have ht2 : d.id ∈ st2.ids := List.mem_map.mpr ⟨d, g1 d (List.mem_append_left _ hd), rfl⟩
      refine (runs_grows h2 st' e).2.2 _ (List.mem_append_right _ ?_)
      exact List.mem_filterMap.mpr ⟨some d.id, ht, by simp [ht2]⟩
    · exact ih2 (hq.next (st2 := addConvs c st2) g1) st' e p hp t ht

/-! ## Giving up -/

/-- `rk` shows that no class has to wait ten times: within every list of classes scanned together a class
ranks above those in the list it needs, and below ten. -/
inductive Ranked (rk : Nat → Nat) : List Cls → Prop
  | mk {l : List Cls} (h1 : ∀ c ∈ l, rk c.d.id < 10)
      (h2 : ∀ c ∈ l, ∀ c' ∈ l, c'.d.id ∈ c.d.needs → rk c'.d.id < rk c.d.id)
      (h3 : ∀ c ∈ l, Ranked rk c.inner) : Ranked rk l

/-- The work list during a pass: those postponed most come last, no class has been postponed more often than
its rank. -/
structure Pass (rk : Nat → Nat) (q : List (Cls × Nat)) : Prop where
  counts : ∀ p ∈ q, p.2 ≤ rk p.1.d.id
  low : ∀ p ∈ q, rk p.1.d.id < 10
  needs : ∀ p ∈ q, ∀ p' ∈ q, p'.1.d.id ∈ p.1.d.needs → rk p'.1.d.id < rk p.1.d.id
  inner : ∀ p ∈ q, Ranked rk p.1.inner
  rising : q.Pairwise (fun a b => a.2 ≤ b.2 ∧ b.2 ≤ a.2 + 1)

theorem Pass.tail {rk : Nat → Nat} {x : Cls × Nat} {q : List (Cls × Nat)} (h : Pass rk (x :: q)) : Pass rk q :=
  ⟨fun p hp => h.counts p (List.mem_cons_of_mem _ hp), fun p hp => h.low p (List.mem_cons_of_mem _ hp),
   fun p hp p' hp' => h.needs p (List.mem_cons_of_mem _ hp) p' (List.mem_cons_of_mem _ hp'),
   fun p hp => h.inner p (List.mem_cons_of_mem _ hp), (List.pairwise_cons.mp h.rising).2⟩

theorem pass_start {rk : Nat → Nat} {l : List Cls} (h : Ranked rk l) : Pass rk (start l) := by
  obtain ⟨h1, h2, h3⟩ := h
  have hm : ∀ p ∈ start l, p.1 ∈ l := by
    intro p hp
    obtain ⟨c, hc, rfl⟩ := List.mem_map.mp ((start_perm l).mem_iff.mp hp)
    exact List.mem_of_mem_filter hc
  refine ⟨fun p hp => by rw [start_counts _ p hp]; omega, fun p hp => h1 _ (hm p hp),
    fun p hp p' hp' => h2 _ (hm p hp) _ (hm p' hp'), fun p hp => h3 _ (hm p hp), ?_⟩
  refine List.pairwise_of_forall_mem_list ?_
  intro a ha b hb
  rw [start_counts _ a ha, start_counts _ b hb]
  omega

/-- A waiting class ranks above its count. -/
theorem Pass.waits {rk : Nat → Nat} {c : Cls} {k : Nat} {q : List (Cls × Nat)} {st : St}
    (h : Pass rk ((c, k) :: q)) (hw : Waits st q c) : k < rk c.d.id := by
  obtain ⟨t, h1, -, h3⟩ := waits_for hw
  obtain ⟨p, hp, rfl⟩ := List.mem_map.mp h3
  have : rk p.1.d.id < rk c.d.id := h.needs _ List.mem_cons_self p (List.mem_cons_of_mem _ hp) h1
  have := h.counts p (List.mem_cons_of_mem _ hp)
  have := ((List.pairwise_cons.mp h.rising).1 p hp).1
  omega

theorem Pass.postpone {rk : Nat → Nat} {c : Cls} {k : Nat} {q : List (Cls × Nat)} (h : Pass rk ((c, k) :: q))
    (hk : k < rk c.d.id) : Pass rk (q ++ [(c, k + 1)]) := by
  have hm : ∀ p ∈ q ++ [(c, k + 1)], ∃ p' ∈ (c, k) :: q, p'.1 = p.1 := by
    intro p hp
    rcases List.mem_append.mp hp with hp | hp
    · exact ⟨p, List.mem_cons_of_mem _ hp, rfl⟩
    · cases List.mem_singleton.mp hp
      exact ⟨_, List.mem_cons_self, rfl⟩
  obtain ⟨hr1, hr2⟩ := List.pairwise_cons.mp h.rising
  refine ⟨?_, ?_, ?_, ?_, ?_⟩
  · intro p hp
    rcases List.mem_append.mp hp with hp | hp
    · exact h.counts p (List.mem_cons_of_mem _ hp)
    · cases List.mem_singleton.mp hp
      exact hk
  · intro p hp
    obtain ⟨p', h1, h2⟩ := hm p hp
    rw [← h2]
    exact h.low p' h1
  · intro p hp q' hq'
    obtain ⟨p', h1, h2⟩ := hm p hp
    obtain ⟨q'', h3, h4⟩ := hm q' hq'
    rw [← h2, ← h4]
    exact h.needs p' h1 q'' h3
  · intro p hp
    obtain ⟨p', h1, h2⟩ := hm p hp
    rw [← h2]
    exact h.inner p' h1
  · refine List.pairwise_append.mpr ⟨hr2, List.pairwise_singleton _ _, ?_⟩
    intro a ha b hb
    cases List.mem_singleton.mp hb
    have := hr1 a ha
    show a.2 ≤ k + 1 ∧ k + 1 ≤ a.2 + 1
    simp only at this
    omega

theorem runs_ranked {rk : Nat → Nat} {outer : Option Nat} {q : List (Cls × Nat)} {st : St} {r : PyRes St}
    (h : Runs outer q st r) : Pass rk q → ∃ st', r = .ok st' := by
  induction h with
  | done => intro _; exact ⟨_, rfl⟩
  | ignored _ _ ih => intro hp; exact ih hp.tail
  | anonymous _ _ _ ih => intro hp; exact ih hp.tail
  | undeclared _ _ _ _ ih => intro hp; exact ih hp.tail
  | giveUp _ _ hw hk =>
    intro hp
    have h1 := hp.waits hw
    have h2 := hp.low _ List.mem_cons_self
    simp only at h2
    omega
  | postpone _ _ hw _ _ ih => intro hp; exact ih (hp.postpone (hp.waits hw))
  | hidden _ _ _ _ _ ih => intro hp; exact ih hp.tail
  | innerFails _ _ _ _ _ ih =>
    intro hp
    obtain ⟨st', e⟩ := ih (pass_start (hp.inner _ List.mem_cons_self))
    cases e
  | register _ _ _ _ _ _ _ ih2 => intro hp; exact ih2 hp.tail

theorem runs_error {outer : Option Nat} {q : List (Cls × Nat)} {st : St} {r : PyRes St} (h : Runs outer q st r) :
    ∀ e, r = .error e → e = .assertionError := by
  induction h with
  | done => intro e h; cases h
  | ignored _ _ ih => exact ih
  | anonymous _ _ _ ih => exact ih
  | undeclared _ _ _ _ ih => exact ih
  | giveUp => intro e h; cases h; rfl
  | postpone _ _ _ _ _ ih => exact ih
  | hidden _ _ _ _ _ ih => exact ih
  | innerFails _ _ _ _ _ ih => intro e' h; cases h; exact ih _ rfl
  | register _ _ _ _ _ _ _ ih2 => exact ih2

/-! ## The theorems -/

theorem scan_run {fuel : Nat} {l : List Cls} {ls : List (List Cls)} {st : St} {r : PyRes St}
    (h : scan fuel (l :: ls) st = some r) :
    (∃ e, r = .error e ∧ Runs none (start l) st r) ∨
    ∃ st2, Runs none (start l) st (.ok st2) ∧ scan fuel ls st2 = some r := by
  simp only [scan] at h
  split at h
  · rename_i st2 h1
    exact .inr ⟨st2, runs_of_run h1, h⟩
  · rename_i h1
    cases r with
    | ok s => exact absurd h (h1 s)
    | error e => exact .inl ⟨e, rfl, runs_of_run h⟩

/-- C82 (termination): scanning ends, whatever the declarations; the result does not depend on the bound. -/
theorem C82_terminates (ls : List (List Cls)) : ∀ st : St, ∃ fuel r, ∀ g, fuel ≤ g → scan g ls st = some r := by
  induction ls with
  | nil => intro st; exact ⟨0, .ok st, fun _ _ => rfl⟩
  | cons l ls ih =>
    intro st
    have h := run_terminates (work (start l)) none (start l) st
      (fun p hp => by rw [start_counts _ p hp]; omega) (Nat.le_refl _)
    obtain ⟨r, hr⟩ := Option.ne_none_iff_exists'.mp h
    cases r with
    | error e =>
      refine ⟨work (start l), .error e, fun g hg => ?_⟩
      simp only [scan, run_mono _ g _ _ _ _ hg hr]
    | ok st2 =>
      obtain ⟨fuel, r2, hr2⟩ := ih st2
      refine ⟨max (work (start l)) fuel, r2, fun g hg => ?_⟩
      simp only [scan, run_mono _ g _ _ _ _ (by omega) hr]
      exact hr2 g (by omega)

/-- The only way to fail is the `AssertionError` of `postpone_class`. -/
theorem C82_error (fuel : Nat) (ls : List (List Cls)) : ∀ (st : St) (e : PyErr),
    scan fuel ls st = some (.error e) → e = .assertionError := by
  induction ls with
  | nil => intro st e h; cases h
  | cons l ls ih =>
    intro st e h
    rcases scan_run h with ⟨e', h1, h2⟩ | ⟨st2, h1, h2⟩
    · cases h1
      exact runs_error h2 _ rfl
    · exact ih st2 e h2

theorem scan_basesFirst (fuel : Nat) (ls : List (List Cls)) : ∀ (st st' : St), BasesFirst st.reg →
    scan fuel ls st = some (.ok st') → BasesFirst st'.reg := by
  induction ls with
  | nil => intro st st' hb h; cases h; exact hb
  | cons l ls ih =>
    intro st st' hb h
    rcases scan_run h with ⟨e', h1, h2⟩ | ⟨st2, h1, h2⟩
    · cases h1
    · exact ih st2 st' (runs_basesFirst h1 hb _ rfl) h2

/-- C82 (order): whatever the order of the declarations, every class registered comes after all its bases. -/
theorem C82_bases_first (fuel : Nat) (ls : List (List Cls)) (st : St) (h : scan fuel ls {} = some (.ok st)) :
    ∀ pre d post, st.reg = pre ++ d :: post → ∀ b ∈ d.bases, ∃ e ∈ pre, e.id = b :=
  scan_basesFirst fuel ls {} st (by intro pre d post e; simp at e) h

theorem scan_once (fuel : Nat) (ls : List (List Cls)) : ∀ (st st' : St), scan fuel ls st = some (.ok st') →
    ∃ l, st'.reg = st.reg ++ l ∧ List.Subperm l (ls.flatMap (fun l => l.flatMap Cls.all)) ∧
      ∀ d ∈ l, d.ignored = false ∧ d.anonymous = false ∧ d.hidden = false := by
  induction ls with
  | nil => intro st st' h; cases h; exact ⟨[], by simp, List.nil_subperm, by simp⟩
  | cons l ls ih =>
    intro st st' h
    rcases scan_run h with ⟨e', h1, h2⟩ | ⟨st2, h1, h2⟩
    · cases h1
    · obtain ⟨a, a1, a2, a3⟩ := runs_once h1 st2 rfl
      obtain ⟨b, b1, b2, b3⟩ := ih st2 st' h2
      refine ⟨a ++ b, by rw [b1, a1, List.append_assoc], ?_, ?_⟩
      · rw [List.flatMap_cons]
        exact (a2.trans (allQ_start _)).append b2
      · intro d hd
        rcases List.mem_append.mp hd with hd | hd
        · exact a3 d hd
        · exact b3 d hd

/-- C82 (once): every class is registered at most once, and no ignored, anonymous or inaccessible one is. -/
theorem C82_once (fuel : Nat) (ls : List (List Cls)) (st : St)
    (hd : ((ls.flatMap (fun l => l.flatMap Cls.all)).map (·.id)).Nodup)
    (h : scan fuel ls {} = some (.ok st)) :
    (st.reg.map (·.id)).Nodup ∧
      ∀ d ∈ st.reg, d ∈ ls.flatMap (fun l => l.flatMap Cls.all) ∧ d.ignored = false ∧ d.anonymous = false ∧
        d.hidden = false := by
  obtain ⟨l, h1, h2, h3⟩ := scan_once fuel ls {} st h
  have h1' : st.reg = l := by simpa using h1
  rw [h1']
  refine ⟨?_, fun d hd => ⟨h2.subset hd, h3 d hd⟩⟩
  obtain ⟨l', hp, hs⟩ := h2
  exact (hp.map _).nodup_iff.mp (hd.sublist (hs.map _))

theorem scan_grows (fuel : Nat) (ls : List (List Cls)) : ∀ (st st' : St), scan fuel ls st = some (.ok st') →
    (∀ d ∈ st.reg, d ∈ st'.reg) ∧ (∀ x ∈ st.dropped, x ∈ st'.dropped) ∧ ∀ x ∈ st.convs, x ∈ st'.convs := by
  induction ls with
  | nil => intro st st' h; cases h; exact ⟨fun _ h => h, fun _ h => h, fun _ h => h⟩
  | cons l ls ih =>
    intro st st' h
    rcases scan_run h with ⟨e', h1, h2⟩ | ⟨st2, h1, h2⟩
    · cases h1
    · obtain ⟨a1, a2, a3⟩ := runs_grows h1 st2 rfl
      obtain ⟨b1, b2, b3⟩ := ih st2 st' h2
      exact ⟨fun d hd => b1 d (a1 d hd), fun d hd => b2 d (a2 d hd), fun d hd => b3 d (a3 d hd)⟩

theorem mem_start {l : List Cls} {c : Cls} (hc : c ∈ l) (hl : c.d.listed = true) : (c, 0) ∈ start l :=
  (start_perm l).mem_iff.mpr (List.mem_map.mpr ⟨c, List.mem_filter.mpr ⟨hc, hl⟩, rfl⟩)

theorem pendingIds_start {l : List Cls} {t : Nat} : t ∈ pendingIds (start l) ↔ ∃ c ∈ l, c.d.listed = true ∧ c.d.id = t := by
  constructor
  · intro h
    obtain ⟨p, hp, rfl⟩ := List.mem_map.mp h
    obtain ⟨c, hc, rfl⟩ := List.mem_map.mp ((start_perm l).mem_iff.mp hp)
    obtain ⟨h1, h2⟩ := List.mem_filter.mp hc
    exact ⟨c, h1, h2, rfl⟩
  · rintro ⟨c, h1, h2, rfl⟩
    exact List.mem_map.mpr ⟨_, mem_start h1 h2, rfl⟩

/-- C82 (nothing lost): every class of a namespace is registered, ignored, anonymous, inaccessible, or was
given up because of one of its bases. -/
theorem C82_accounted (fuel : Nat) : ∀ (ls : List (List Cls)) (st st' : St), scan fuel ls st = some (.ok st') →
    ∀ l ∈ ls, ∀ c ∈ l, c.d.listed = true → c.d ∈ st'.reg ∨ c.d.ignored = true ∨ c.d.anonymous = true ∨
      c.d.hidden = true ∨ ∃ b ∈ c.d.bases, (c.d.id, b) ∈ st'.dropped := by
  intro ls
  induction ls with
  | nil => intro st st' h l hl; cases hl
  | cons l ls ih =>
    intro st st' h l' hl' c hc hlist
    rcases scan_run h with ⟨e', h1, h2⟩ | ⟨st2, h1, h2⟩
    · cases h1
    · rcases List.mem_cons.mp hl' with rfl | hl'
      · obtain ⟨g1, g2, -⟩ := scan_grows fuel ls st2 st' h2
        rcases runs_accounted h1 st2 rfl (c, 0) (mem_start hc hlist) with h3 | h3
        · exact .inl (g1 _ h3)
        · cases excused_mono g2 h3 with
          | ignored h => exact .inr (.inl h)
          | anonymous h => exact .inr (.inr (.inl h))
          | hidden h => exact .inr (.inr (.inr (.inl h)))
          | base b hb h => exact .inr (.inr (.inr (.inr ⟨b, hb, h⟩)))
      · exact ih st2 st' h2 l' hl' c hc hlist

/-- The classes of a namespace can all be wrapped, and what they need is in the same namespace or registered
before. -/
def SelfContained (need : Decl → List Nat) (st : St) (l : List Cls) : Prop :=
  ∀ c ∈ l, c.d.listed = true ∧ c.d.ignored = false ∧ c.d.anonymous = false ∧ c.d.hidden = false ∧
    ∀ t ∈ need c.d, t ≠ c.d.id ∧ (t ∈ st.ids ∨ ∃ c' ∈ l, c'.d.id = t)

theorem closed_start {need : Decl → List Nat} {st : St} {l : List Cls} (h : SelfContained need st l) :
    Closed need st (start l) := by
  intro p hp
  obtain ⟨c, hc, rfl⟩ := List.mem_map.mp ((start_perm l).mem_iff.mp hp)
  obtain ⟨-, h2, h3, h4, h5⟩ := h c (List.mem_of_mem_filter hc)
  refine ⟨h2, h3, h4, fun t ht => ⟨(h5 t ht).1, (h5 t ht).2.imp_right ?_⟩⟩
  rintro ⟨c', hc', rfl⟩
  exact pendingIds_start.mpr ⟨c', hc', (h c' hc').1, rfl⟩

/-- C82 (completeness): if all bases are in the namespace or registered before it, every class of the namespace
is registered, provided no class has to wait ten times (`Ranked`: a hierarchy less than eleven
classes deep, counting conversion targets as bases).

Missing: deeper hierarchies and circular conversions (the counterexamples below), bases in a namespace
scanned later. -/
theorem C82_complete_partial (rk : Nat → Nat) (l : List Cls) (st : St) (hr : Ranked rk l)
    (hc : SelfContained Decl.bases st l) (fuel : Nat) (hf : work (start l) ≤ fuel) :
    ∃ st', run fuel none (start l) st = some (.ok st') ∧ ∀ c ∈ l, c.d ∈ st'.reg := by
  have h := run_terminates fuel none (start l) st (fun p hp => by rw [start_counts _ p hp]; omega) hf
  obtain ⟨r, hr'⟩ := Option.ne_none_iff_exists'.mp h
  obtain ⟨st', rfl⟩ := runs_ranked (runs_of_run hr') (pass_start hr)
  exact ⟨st', hr', fun c hcl => runs_complete (fun _ _ h => h) (runs_of_run hr') (closed_start hc) st' rfl (c, 0)
    (mem_start hcl (hc c hcl).1)⟩

/-- C82 (conversions): if the targets of casting operators are in the namespace or registered before it, too,
every conversion is declared. -/
theorem C82_conversions_partial (rk : Nat → Nat) (l : List Cls) (st : St) (hr : Ranked rk l)
    (hc : SelfContained Decl.needs st l) (fuel : Nat) (hf : work (start l) ≤ fuel) :
    ∃ st', run fuel none (start l) st = some (.ok st') ∧ (∀ c ∈ l, c.d ∈ st'.reg) ∧
      ∀ c ∈ l, ∀ t, some t ∈ c.d.casts → (c.d.id, t) ∈ st'.convs := by
  have h := run_terminates fuel none (start l) st (fun p hp => by rw [start_counts _ p hp]; omega) hf
  obtain ⟨r, hr'⟩ := Option.ne_none_iff_exists'.mp h
  obtain ⟨st', rfl⟩ := runs_ranked (runs_of_run hr') (pass_start hr)
  refine ⟨st', hr', fun c hcl => ?_, fun c hcl => ?_⟩
  · exact runs_complete (fun _ _ h => List.mem_append_left _ h) (runs_of_run hr') (closed_start hc) st' rfl (c, 0)
      (mem_start hcl (hc c hcl).1)
  · exact runs_converts (runs_of_run hr') (closed_start hc) st' rfl (c, 0) (mem_start hcl (hc c hcl).1)

/-! ## What does not hold -/

/-- A class with a one letter name. -/
def cls (id : Nat) (bases : List Nat) (casts : List (Option Nat) := []) (inner : List Cls := []) : Cls :=
  .mk { id, key := [Char.ofNat (65 + id)], bases, casts } inner

/-- What happens to a namespace (with iterations to spare). -/
def result (ls : List (List Cls)) : Option (Option (List Nat × List (Nat × Nat) × List (Nat × Nat))) :=
  (scan 500 ls {}).map (fun r => match r with
    | .ok st => some (st.ids, st.convs, st.dropped)
    | .error _ => none)

/-- `struct K {}; struct J : K {}; ... struct A : B {};`: eleven classes each derived from the next in the
alphabet.  Scanning them raises `AssertionError`. -/
def chain (n : Nat) : List Cls := (List.range n).map (fun i => cls i (if i + 1 < n then [i + 1] else []))

theorem C82_deep_counterexample : result [chain 11] = some none := by decide +kernel

/-- One class less works. -/
example : result [chain 10] = some (some ([9, 8, 7, 6, 5, 4, 3, 2, 1, 0], [], [])) := by decide +kernel

/-- Two classes convertible into each other: `AssertionError`. -/
theorem C82_mutual_conversion_counterexample :
    result [[cls 0 [] [some 1], cls 1 [] [some 0]]] = some none := by decide +kernel

/-- The first conversion target not wrapped (number 7, say of a library) hides the others: A does not wait for
B, and its conversion to B is lost. -/
theorem C82_lost_conversion_counterexample :
    result [[cls 0 [] [some 7, some 1], cls 1 []]] = some (some ([0, 1], [], [])) := by decide +kernel

/-- With the operators in the other order it is not. -/
example : result [[cls 0 [] [some 1, some 7], cls 1 []]] = some (some ([1, 0], [(0, 1)], [])) := by decide +kernel

/-- `struct B {}; struct A { struct C : B {}; };`: the nested class is lost, because B comes after A in the
alphabet. -/
theorem C82_nested_counterexample :
    result [[cls 1 [], cls 0 [] [] [cls 2 [1]]]] = some (some ([0, 1], [], [(2, 1)])) := by decide +kernel

/-- With the names exchanged it is not. -/
example : result [[cls 0 [], cls 1 [] [] [cls 2 [0]]]] = some (some ([0, 1, 2], [], [])) := by decide +kernel

/-- `namespace n { struct B {}; } struct A : n::B {};`: A is lost, because nested namespaces come later. -/
theorem C82_namespace_counterexample :
    result [[cls 0 [1]], [cls 1 []]] = some (some ([1], [], [(0, 1)])) := by decide +kernel

/-- Losing a class loses everything derived from it. -/
example : result [[cls 0 [9], cls 1 [0], cls 2 [1]]] = some (some ([], [], [(0, 9), (1, 0), (2, 1)])) := by
  decide +kernel

/-! Non-vacuity: a diamond with a conversion and a nested class, declared derived classes first. -/

def diamond : List Cls :=
  [cls 0 [1, 2] [some 3] [cls 4 [0]], cls 1 [3], cls 2 [3], cls 3 []]

def diamondRank : Nat → Nat
  | 0 => 2
  | 1 => 1
  | 2 => 1
  | _ => 0

example : Ranked diamondRank diamond := by
  have e : ∀ c ∈ diamond, Ranked diamondRank c.inner := by
    intro c hc
    simp only [diamond, List.mem_cons, List.not_mem_nil, or_false] at hc
    rcases hc with rfl | rfl | rfl | rfl
    · refine .mk ?_ ?_ ?_
      · decide
      · decide
      · intro c hc
        cases List.mem_singleton.mp hc
        exact .mk (by simp [cls, Cls.inner]) (by simp [cls, Cls.inner]) (by simp [cls, Cls.inner])
    all_goals exact .mk (by simp [cls, Cls.inner]) (by simp [cls, Cls.inner]) (by simp [cls, Cls.inner])
  exact .mk (by decide) (by decide) e

example : SelfContained Decl.needs {} diamond := by
  unfold SelfContained
  decide

example : result [diamond] = some (some ([3, 1, 2, 0, 4], [(0, 3)], [])) := by decide +kernel

end Verif.Schedule
