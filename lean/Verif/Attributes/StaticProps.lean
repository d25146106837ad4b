import Verif.Attributes.Static

/-!
# Static attributes of wrapped classes: theorems (C114)
-/
namespace Verif.Static
open Verif

/-! ## Specification -/

/-- The static attribute meant by `x` in the class `c`, found along the first bases: the one `c`
declares, or else the one meant in its first base. -/
inductive Nearest (ds : List Decl) : Nat → Str → Nat → StaticAttr → Prop where
  | here {c x D s} : ds[c]? = some D → D.statics.find? (fun s => s.name = x) = some s → Nearest ds c x c s
  | up {c x D p qs d s} : ds[c]? = some D → D.statics.find? (fun s => s.name = x) = none →
      D.bases = p :: qs → Nearest ds p x d s → Nearest ds c x d s

/-- The static attribute meant in C++, where every base counts. -/
inductive Inherits (ds : List Decl) : Nat → Str → Nat → Prop where
  | here {c x D s} : ds[c]? = some D → s ∈ D.statics → s.name = x → Inherits ds c x c
  | up {c x D p d} : ds[c]? = some D → p ∈ D.bases → Inherits ds p x d → Inherits ds c x d

/-- A class is registered after its bases. -/
def Ordered (ds : List Decl) : Prop := ∀ (i : Nat) (D : Decl), ds[i]? = some D → ∀ b ∈ D.bases, b < i

/-! ## The initialisation -/

/-- The types that serve as types of classes, and `object`. -/
def Builtin : Ty → Prop
  | .object => True
  | .type => True
  | .metacls _ => True
  | _ => False

/-- What holds after the first `k` classes. -/
structure Done (ds : List Decl) (k : Nat) (s : Types) : Prop where
  rest : ∀ a, (∀ i, i < k → a ≠ .cls i ∧ a ≠ .metacls i) →
    s.obType a = types0.obType a ∧ s.base a = types0.base a ∧ s.bases a = types0.bases a ∧
      s.mro a = types0.mro a ∧ s.setattro a = types0.setattro a
  ready : ∀ i, i < k → (s.mro (.cls i)).isSome
  metaKind : ∀ i, i < k → ∃ m l t, s.obType (.cls i) = some m ∧ (m = .type ∨ ∃ j, m = .metacls j) ∧ s.mro m = some l ∧
    (∀ a ∈ l, Builtin a) ∧ s.setattro m = some t ∧ s.obType m = some .type
  own : ∀ (i : Nat) (D : Decl), i < k → ds[i]? = some D → D.statics ≠ [] → ∃ mp lmp, s.obType (metaParent D) = some mp ∧
    s.mro mp = some lmp ∧ s.obType (.cls i) = some (.metacls i) ∧ s.mro (.metacls i) = some (.metacls i :: lmp) ∧
    s.setattro (.metacls i) = some .generic
  inherited : ∀ (i : Nat) (D : Decl), i < k → ds[i]? = some D → D.statics = [] → s.obType (.cls i) = s.obType (metaParent D)
  metas : ∀ i, s.obType (.metacls i) = none ∨ s.obType (.metacls i) = some .type

theorem upd_same {α : Type} (f : Ty → α) (a : Ty) (v : α) : upd f a v a = v := by simp [upd]

theorem upd_ne {α : Type} (f : Ty → α) {a b : Ty} (v : α) (h : b ≠ a) : upd f a v b = f b := by simp [upd, h]

theorem done_zero (ds : List Decl) : Done ds 0 types0 where
  rest := fun _ _ => ⟨rfl, rfl, rfl, rfl, rfl⟩
  ready := fun i h => absurd h (Nat.not_lt_zero i)
  metaKind := fun i h => absurd h (Nat.not_lt_zero i)
  own := fun i _ h => absurd h (Nat.not_lt_zero i)
  inherited := fun i _ h => absurd h (Nat.not_lt_zero i)
  metas := fun _ => .inl rfl

/-- `PyType_Ready` on a type whose base is ready. -/
theorem ready_step (n : Nat) (s : Types) (a : Ty) (hm : s.mro a = none)
    (hb : (s.mro ((s.base a).getD .object)).isSome) :
    readyType (n + 2) s a =
      match mroOf s.mro a ((s.bases a).getD [(s.base a).getD .object]) with
      | none => .error .typeError
      | some l => .ok { obType := upd s.obType a (if (s.obType a).isSome then s.obType a else s.obType ((s.base a).getD .object)), base := upd s.base a (some ((s.base a).getD .object)), bases := upd s.bases a (some ((s.bases a).getD [(s.base a).getD .object])), mro := upd s.mro a (some l), setattro := upd s.setattro a (if (s.setattro a).isSome then s.setattro a else s.setattro ((s.base a).getD .object)) } := by
  have h1 : readyType (n + 1) s ((s.base a).getD .object) = .ok s := by
    unfold readyType
    rw [if_pos hb]
  conv => lhs; unfold readyType
  rw [if_neg (by simp [hm])]
  simp only [h1]
  cases mroOf s.mro a ((s.bases a).getD [(s.base a).getD .object]) <;> rfl

/-- The parent of a class is ready. -/
theorem parent_ready {ds : List Decl} {k : Nat} {s : Types} (h : Done ds k s) {D : Decl} (hb : ∀ b ∈ D.bases, b < k) :
    (s.mro (metaParent D)).isSome ∧ ∃ m l t, s.obType (metaParent D) = some m ∧ (m = .type ∨ ∃ j, m = .metacls j) ∧ s.mro m = some l ∧
      (∀ a ∈ l, Builtin a) ∧ s.setattro m = some t ∧ s.obType m = some .type := by
  unfold metaParent
  cases hD : D.bases with
  | nil =>
    have ho := h.rest .object (fun i _ => ⟨by simp, by simp⟩)
    have ht := h.rest .type (fun i _ => ⟨by simp, by simp⟩)
    refine ⟨by simp only [ho.2.2.2.1]; rfl, .type, [.type, .object], .restrictive, ?_, .inl rfl, ?_, ?_, ?_, ?_⟩
    · rw [ho.1]; rfl
    · rw [ht.2.2.2.1]; rfl
    · intro a ha
      rcases List.mem_cons.mp ha with rfl | ha
      · trivial
      · rw [List.mem_singleton.mp ha]; trivial
    · rw [ht.2.2.2.2]; rfl
    · rw [ht.1]; rfl
  | cons p qs =>
    have hp : p < k := hb p (by rw [hD]; exact List.mem_cons_self)
    exact ⟨h.ready p hp, h.metaKind p hp⟩

theorem execAll_append (f : Nat) : ∀ (l1 l2 : List Stmt) (s : Types), execAll f s (l1 ++ l2) =
    match execAll f s l1 with
    | .error e => .error e
    | .ok s' => execAll f s' l2
  | [], _, _ => rfl
  | st :: l1, l2, s => by
    simp only [List.cons_append, execAll]
    cases exec f s st with
    | error e => rfl
    | ok s' => exact execAll_append f l1 l2 s'

/-- The order of lookup asked of `PyType_Ready` for the class `i`. -/
def classMro (s : Types) (i : Nat) (D : Decl) : Option (List Ty) :=
  mroOf s.mro (.cls i) (match D.bases with | [] => [.object] | bs => bs.map Ty.cls)

theorem genMeta_exec (n : Nat) {ds : List Decl} {k : Nat} {s : Types} (h : Done ds k s) {D : Decl} (hb : ∀ b ∈ D.bases, b < k) :
    ∃ mp lmp s', s.obType (metaParent D) = some mp ∧ s.mro mp = some lmp ∧ execAll (n + 2) s (genMeta k D) = .ok s' ∧
      (∀ a, a ≠ .metacls k → s'.obType a = s.obType a ∧ s'.base a = s.base a ∧ s'.bases a = s.bases a ∧
        s'.mro a = s.mro a ∧ s'.setattro a = s.setattro a) ∧
      s'.obType (.metacls k) = some .type ∧ s'.mro (.metacls k) = some (.metacls k :: lmp) ∧
      s'.setattro (.metacls k) = some .generic := by
  obtain ⟨_, mp, lmp, t, h1, h2, h3, _, h5, h6⟩ := parent_ready h hb
  have hr := h.rest (.metacls k) (fun i hi => ⟨by simp, by simp; omega⟩)
  have hk : mp ≠ .metacls k := by
    rintro rfl
    rw [hr.2.2.2.1] at h3; cases h3
  have hstep := ready_step n { s with base := upd s.base (.metacls k) (some mp), setattro := upd s.setattro (.metacls k) (some .generic) } (.metacls k) (by rw [hr.2.2.2.1]; rfl)
    (by simp [upd_same, h3])
  simp only [upd_same, Option.getD_some, hr.2.2.1, hr.1] at hstep
  have e1 : types0.bases (.metacls k) = none := rfl
  have e2 : types0.obType (.metacls k) = none := rfl
  simp only [e1, e2, Option.getD_none, mroOf, h3, Option.map_some, Option.isSome_none, Option.isSome_some, h6, if_true, Bool.false_eq_true, if_false] at hstep
  refine ⟨mp, lmp, { obType := upd s.obType (.metacls k) (some .type), base := upd (upd s.base (.metacls k) (some mp)) (.metacls k) (some mp), bases := upd s.bases (.metacls k) (some [mp]), mro := upd s.mro (.metacls k) (some (.metacls k :: lmp)), setattro := upd (upd s.setattro (.metacls k) (some .generic)) (.metacls k) (some .generic) }, h1, h3, ?_, ?_, ?_, ?_, ?_⟩
  · simp only [genMeta, execAll, exec, h1, hstep]
  · intro a ha
    simp only [upd_ne _ _ ha, and_self]
  · simp [upd_same]
  · simp [upd_same]
  · simp [upd_same]

theorem genBases_exec (f : Nat) {k : Nat} {s : Types} (h0 : s.base (.cls k) = none ∧ s.bases (.cls k) = none) (D : Decl) :
    ∃ s', execAll f s (genBases k D) = .ok s' ∧ s'.obType = s.obType ∧ s'.mro = s.mro ∧ s'.setattro = s.setattro ∧
      (∀ a, a ≠ .cls k → s'.base a = s.base a ∧ s'.bases a = s.bases a) ∧
      (s'.base (.cls k)).getD .object = metaParent D ∧
      (s'.bases (.cls k)).getD [metaParent D] = (match D.bases with | [] => [.object] | bs => bs.map Ty.cls) := by
  unfold genBases metaParent
  match hD : D.bases with
  | [] => exact ⟨s, rfl, rfl, rfl, rfl, fun _ _ => ⟨rfl, rfl⟩, by simp [h0.1], by simp [h0.2]⟩
  | [p] =>
    refine ⟨{ s with base := upd s.base (.cls k) (some (.cls p)) }, rfl, rfl, rfl, rfl, ?_, ?_, ?_⟩
    · intro a ha; exact ⟨upd_ne _ _ ha, rfl⟩
    · simp [upd_same]
    · simp [h0.2]
  | p :: q :: qs =>
    refine ⟨{ s with base := upd s.base (.cls k) (some (.cls p)), bases := upd s.bases (.cls k) (some ((p :: q :: qs).map Ty.cls)) }, rfl, rfl, rfl, rfl, ?_, ?_, ?_⟩
    · intro a ha; exact ⟨upd_ne _ _ ha, upd_ne _ _ ha⟩
    · simp [upd_same]
    · simp [upd_same]

theorem mroOf_congr (m1 m2 : Ty → Option (List Ty)) (a : Ty) (bs : List Ty) (h : ∀ b ∈ bs, m1 b = m2 b) :
    mroOf m1 a bs = mroOf m2 a bs := by
  have h1 : bs.all (fun b => (m1 b).isSome) = bs.all (fun b => (m2 b).isSome) := by
    rw [Bool.eq_iff_iff, List.all_eq_true, List.all_eq_true]
    constructor
    · intro g b hb; rw [← h b hb]; exact g b hb
    · intro g b hb; rw [h b hb]; exact g b hb
  have h2 : bs.filterMap m1 = bs.filterMap m2 := List.filterMap_congr h
  unfold mroOf
  split
  · rw [h _ List.mem_cons_self]
  · rw [h1, h2]

/-- Where two states of the types agree. -/
def Agree (s s' : Types) (a : Ty) : Prop :=
  s'.obType a = s.obType a ∧ s'.base a = s.base a ∧ s'.bases a = s.bases a ∧ s'.mro a = s.mro a ∧ s'.setattro a = s.setattro a

/-- What `PyType_Ready(&PyX_Type)` meets. -/
structure Before (s : Types) (k : Nat) (D : Decl) (s3 : Types) : Prop where
  other : ∀ a, a ≠ .cls k → a ≠ .metacls k → Agree s s3 a
  mro : s3.mro (.cls k) = none
  base : (s3.base (.cls k)).getD .object = metaParent D
  bases : (s3.bases (.cls k)).getD [metaParent D] = (match D.bases with | [] => [.object] | bs => bs.map Ty.cls)
  plain : D.statics = [] → s3.obType (.cls k) = none ∧ Agree s s3 (.metacls k)
  withMeta : D.statics ≠ [] → s3.obType (.cls k) = some (.metacls k) ∧ s3.obType (.metacls k) = some .type ∧
    s3.setattro (.metacls k) = some .generic ∧ ∃ mp lmp, s.obType (metaParent D) = some mp ∧ s.mro mp = some lmp ∧
      s3.mro (.metacls k) = some (.metacls k :: lmp)

theorem before_exec (n : Nat) {ds : List Decl} {k : Nat} {s : Types} (h : Done ds k s) {D : Decl} (hb : ∀ b ∈ D.bases, b < k) :
    ∃ s3, execAll (n + 2) s ((if D.statics = [] then [] else genMeta k D) ++ genBases k D ++
      (if D.statics = [] then [] else [.setType k])) = .ok s3 ∧ Before s k D s3 := by
  obtain ⟨r1, r2, r3, r4, r5⟩ := h.rest (.cls k) (fun i hi => ⟨by simp; omega, by simp⟩)
  by_cases hs : D.statics = []
  · obtain ⟨s', e, o, m, t, g, gb, gbs⟩ := genBases_exec (n + 2) (k := k) (s := s) ⟨by rw [r2]; rfl, by rw [r3]; rfl⟩ D
    refine ⟨s', ?_, ?_⟩
    · simp only [hs, if_true, List.nil_append, List.append_nil, e]
    · refine ⟨fun a ha _ => ⟨by rw [o], (g a ha).1, (g a ha).2, by rw [m], by rw [t]⟩, by rw [m, r4]; rfl, gb, gbs, fun _ => ⟨by rw [o, r1]; rfl, ?_⟩, fun c => absurd hs c⟩
      exact ⟨by rw [o], (g _ (by simp)).1, (g _ (by simp)).2, by rw [m], by rw [t]⟩
  · obtain ⟨mp, lmp, s1, p1, p2, e1, a1, q1, q2, q3⟩ := genMeta_exec n h hb
    obtain ⟨c1, c2, c3, c4, c5⟩ := a1 (.cls k) (by simp)
    obtain ⟨s', e, o, m, t, g, gb, gbs⟩ := genBases_exec (n + 2) (k := k) (s := s1) ⟨by rw [c2, r2]; rfl, by rw [c3, r3]; rfl⟩ D
    refine ⟨{ s' with obType := upd s'.obType (.cls k) (some (.metacls k)) }, ?_, ?_⟩
    · simp only [hs, if_false, execAll_append, e1, e, execAll, exec]
    · refine ⟨fun a ha hm => ?_, by simp only [m, c4, r4]; rfl, gb, gbs, fun c => absurd c hs, fun _ => ⟨by simp [upd_same], ?_, ?_, mp, lmp, p1, p2, ?_⟩⟩
      · obtain ⟨d1, d2, d3, d4, d5⟩ := a1 a hm
        exact ⟨by simp only [upd_ne _ _ ha, o, d1], by simp only [(g a ha).1, d2], by simp only [(g a ha).2, d3], by simp only [m, d4], by simp only [t, d5]⟩
      · simp only [upd_ne _ _ (show Ty.metacls k ≠ .cls k by simp), o, q1]
      · simp only [t, q3]
      · simp only [m, q2]

theorem metaParent_ne (D : Decl) {k : Nat} (hb : ∀ b ∈ D.bases, b < k) : metaParent D ≠ .cls k ∧ ∀ j, metaParent D ≠ .metacls j := by
  unfold metaParent
  cases hD : D.bases with
  | nil => exact ⟨by simp, by simp⟩
  | cons p qs =>
    have := hb p (by rw [hD]; exact List.mem_cons_self)
    exact ⟨by simp; omega, by simp⟩

/-- The effect of the statements of one class. -/
theorem genClass_exec (n : Nat) {ds : List Decl} (ho : Ordered ds) {k : Nat} {s : Types} (h : Done ds k s) {D : Decl} (hD : ds[k]? = some D)  :
    (classMro s k D = none ∧ execAll (n + 2) s (genClass k D) = .error .typeError) ∨
    ∃ s', (classMro s k D).isSome ∧ execAll (n + 2) s (genClass k D) = .ok s' ∧ Done ds (k + 1) s' := by
  have hb := ho k D hD
  obtain ⟨s3, e3, B⟩ := before_exec n h hb
  obtain ⟨pr, mp, lmp, t, h1, h2, h3, h4, h5, h6⟩ := parent_ready h hb
  obtain ⟨pn1, pn2⟩ := metaParent_ne D hb
  obtain ⟨P1, P2, P3, P4, P5⟩ := B.other _ pn1 (pn2 k)
  have hst := ready_step n s3 (.cls k) B.mro (by rw [B.base, P4]; exact pr)
  rw [B.base, B.bases] at hst
  have hmro : mroOf s3.mro (.cls k) (match D.bases with | [] => [.object] | bs => bs.map Ty.cls) = classMro s k D := by
    unfold classMro
    apply mroOf_congr
    intro b hbm
    have : b ≠ .cls k ∧ b ≠ .metacls k := by
      cases hDb : D.bases with
      | nil => rw [hDb] at hbm; rw [List.mem_singleton.mp hbm]; simp
      | cons p qs =>
        rw [hDb] at hbm
        obtain ⟨i, hi, rfl⟩ := List.mem_map.mp hbm
        have := hb i (by rw [hDb]; exact hi)
        exact ⟨by simp; omega, by simp⟩
    exact (B.other b this.1 this.2).2.2.2.1
  rw [hmro] at hst
  have hall : execAll (n + 2) s (genClass k D) = readyType (n + 2) s3 (.cls k) := by
    unfold genClass
    rw [execAll_append, e3]
    simp only [execAll, exec]
    cases readyType (n + 2) s3 (.cls k) <;> rfl
  cases hcm : classMro s k D with
  | none =>
    left
    rw [hcm] at hst
    exact ⟨rfl, by rw [hall, hst]⟩
  | some l =>
    right
    rw [hcm] at hst
    refine ⟨_, rfl, hall.trans hst, ?_⟩
    have hmp : mp ≠ .cls k ∧ mp ≠ .metacls k := by
      refine ⟨by rcases h2 with rfl | ⟨j, rfl⟩ <;> simp, ?_⟩
      rintro rfl
      rw [(h.rest (.metacls k) (fun i hi => ⟨by simp, by simp; omega⟩)).2.2.2.1] at h3
      cases h3
    have hnew : ∀ m', (∃ l', s.mro m' = some l') → m' ≠ .cls k ∧ m' ≠ .metacls k := by
      rintro m' ⟨l', hl'⟩
      constructor
      · rintro rfl
        rw [(h.rest (.cls k) (fun i hi => ⟨by simp; omega, by simp⟩)).2.2.2.1] at hl'
        cases hl'
      · rintro rfl
        rw [(h.rest (.metacls k) (fun i hi => ⟨by simp, by simp; omega⟩)).2.2.2.1] at hl'
        cases hl'
    constructor
    · intro a ha
      have hak : a ≠ .cls k ∧ a ≠ .metacls k := ha k (Nat.lt_succ_self k)
      have := h.rest a (fun i hi => ha i (by omega))
      obtain ⟨g1, g2, g3, g4, g5⟩ := B.other a hak.1 hak.2
      simp only [upd_ne _ _ hak.1, g1, g2, g3, g4, g5]
      exact this
    · intro i hi
      by_cases hik : i = k
      · subst hik; simp [upd_same]
      · have hne : Ty.cls i ≠ .cls k := by simpa using hik
        simp only [upd_ne _ _ hne, (B.other _ hne (by simp)).2.2.2.1]
        exact h.ready i (by omega)
    · intro i hi
      by_cases hik : i = k
      · subst hik
        by_cases hs : D.statics = []
        · refine ⟨mp, lmp, t, ?_, h2, ?_, h4, ?_, ?_⟩
          · simp only [upd_same, (B.plain hs).1, Option.isSome_none, Bool.false_eq_true, if_false, P1, h1]
          · simp only [upd_ne _ _ hmp.1, (B.other _ hmp.1 hmp.2).2.2.2.1, h3]
          · simp only [upd_ne _ _ hmp.1, (B.other _ hmp.1 hmp.2).2.2.2.2, h5]
          · simp only [upd_ne _ _ hmp.1, (B.other _ hmp.1 hmp.2).1, h6]
        · obtain ⟨w1, w2, w3, mp', lmp', w4, w5, w6⟩ := B.withMeta hs
          have hmn : Ty.metacls i ≠ .cls i := by simp
          refine ⟨.metacls i, .metacls i :: lmp, .generic, ?_, .inr ⟨i, rfl⟩, ?_, ?_, ?_, ?_⟩
          · simp only [upd_same, w1, Option.isSome_some, if_true]
          · rw [h1] at w4; cases w4
            rw [h3] at w5; cases w5
            simp only [upd_ne _ _ hmn, w6]
          · intro a ha
            rcases List.mem_cons.mp ha with rfl | ha
            · trivial
            · exact h4 a ha
          · simp only [upd_ne _ _ hmn, w3]
          · simp only [upd_ne _ _ hmn, w2]
      · obtain ⟨m', l', t', k1, k2, k3, k4, k5, k6⟩ := h.metaKind i (by omega)
        have hne : Ty.cls i ≠ .cls k := by simpa using hik
        have hm' := hnew m' ⟨l', k3⟩
        refine ⟨m', l', t', ?_, k2, ?_, k4, ?_, ?_⟩
        · simp only [upd_ne _ _ hne, (B.other _ hne (by simp)).1, k1]
        · simp only [upd_ne _ _ hm'.1, (B.other _ hm'.1 hm'.2).2.2.2.1, k3]
        · simp only [upd_ne _ _ hm'.1, (B.other _ hm'.1 hm'.2).2.2.2.2, k5]
        · simp only [upd_ne _ _ hm'.1, (B.other _ hm'.1 hm'.2).1, k6]
    · intro i E hi hE hs
      by_cases hik : i = k
      · subst hik
        rw [hD] at hE; cases hE
        obtain ⟨w1, w2, w3, mp', lmp', w4, w5, w6⟩ := B.withMeta hs
        have hmn : Ty.metacls i ≠ .cls i := by simp
        rw [h1] at w4; cases w4
        rw [h3] at w5; cases w5
        refine ⟨mp, lmp, ?_, ?_, ?_, ?_, ?_⟩
        · simp only [upd_ne _ _ pn1, P1, h1]
        · simp only [upd_ne _ _ hmp.1, (B.other _ hmp.1 hmp.2).2.2.2.1, h3]
        · simp only [upd_same, w1, Option.isSome_some, if_true]
        · simp only [upd_ne _ _ hmn, w6]
        · simp only [upd_ne _ _ hmn, w3]
      · obtain ⟨m', l', k1, k2, k3, k4, k5⟩ := h.own i E (by omega) hE hs
        have hne : Ty.cls i ≠ .cls k := by simpa using hik
        have hne2 : Ty.metacls i ≠ .metacls k := by simpa using hik
        have hm' := hnew m' ⟨l', k2⟩
        obtain ⟨en1, en2⟩ := metaParent_ne E (k := k) (fun b hb => by have := ho i E hE b hb; omega)
        refine ⟨m', l', ?_, ?_, ?_, ?_, ?_⟩
        · simp only [upd_ne _ _ en1, (B.other _ en1 (en2 k)).1, k1]
        · simp only [upd_ne _ _ hm'.1, (B.other _ hm'.1 hm'.2).2.2.2.1, k2]
        · simp only [upd_ne _ _ hne, (B.other _ hne (by simp)).1, k3]
        · simp only [upd_ne _ _ (show Ty.metacls i ≠ .cls k by simp), (B.other _ (by simp) hne2).2.2.2.1, k4]
        · simp only [upd_ne _ _ (show Ty.metacls i ≠ .cls k by simp), (B.other _ (by simp) hne2).2.2.2.2, k5]
    · intro i E hi hE hs
      obtain ⟨en1, en2⟩ := metaParent_ne E (k := k) (fun b hb => by have := ho i E hE b hb; omega)
      by_cases hik : i = k
      · subst hik
        rw [hD] at hE; cases hE
        simp only [upd_same, (B.plain hs).1, Option.isSome_none, Bool.false_eq_true, if_false, upd_ne _ _ pn1]
      · have hne : Ty.cls i ≠ .cls k := by simpa using hik
        simp only [upd_ne _ _ hne, upd_ne _ _ en1, (B.other _ hne (by simp)).1, (B.other _ en1 (en2 k)).1]
        exact h.inherited i E (by omega) hE hs
    · intro i
      have hmn : Ty.metacls i ≠ .cls k := by simp
      simp only [upd_ne _ _ hmn]
      by_cases hik : i = k
      · subst hik
        by_cases hs : D.statics = []
        · rw [(B.plain hs).2.1]; exact h.metas i
        · exact .inr (B.withMeta hs).2.1
      · rw [(B.other _ hmn (by simpa using hik)).1]; exact h.metas i

theorem genFrom_exec (n : Nat) (ds : List Decl) (ho : Ordered ds) : ∀ (l : List Decl) (k : Nat) (s : Types), ds.drop k = l → Done ds k s →
    execAll (n + 2) s (genFrom k l) = .error .typeError ∨
      ∃ s', execAll (n + 2) s (genFrom k l) = .ok s' ∧ Done ds (k + l.length) s'
  | [], k, s, _, h => .inr ⟨s, rfl, h⟩
  | D :: l, k, s, hl, h => by
    have hD : ds[k]? = some D := by
      have : (ds.drop k)[0]? = some D := by rw [hl]; rfl
      simpa using this
    have hl' : ds.drop (k + 1) = l := by
      rw [← List.drop_drop, hl]; rfl
    simp only [genFrom, execAll_append]
    rcases genClass_exec n ho h hD with ⟨_, e⟩ | ⟨s', _, e, d⟩
    · left; rw [e]
    · rw [e]
      rcases genFrom_exec n ds ho l (k + 1) s' hl' d with e' | ⟨s'', e', d'⟩
      · exact .inl e'
      · refine .inr ⟨s'', e', ?_⟩
        have : k + (D :: l).length = k + 1 + l.length := by simp; omega
        rw [this]; exact d'

theorem init_done {ds : List Decl} (ho : Ordered ds) :
    initTypes ds = .error .typeError ∨ ∃ t, initTypes ds = .ok t ∧ Done ds ds.length t := by
  have := genFrom_exec (2 * ds.length + 1) ds ho ds 0 types0 rfl (done_zero ds)
  rw [Nat.zero_add] at this
  exact this

theorem init_ok {ds : List Decl} (ho : Ordered ds) {t : Types} (h : initTypes ds = .ok t) : Done ds ds.length t := by
  rcases init_done ho with e | ⟨t', e, d⟩
  · rw [e] at h; cases h
  · rw [e] at h; cases h; exact d

/-! ## The types of classes -/

/-- The types of classes: `type` and the metaclasses in use. -/
def MetaT (ds : List Decl) (t : Types) (m : Ty) : Prop := m = .type ∨ ∃ i, i < ds.length ∧ t.obType (.cls i) = some m

theorem type_facts {ds : List Decl} {k : Nat} {t : Types} (h : Done ds k t) :
    t.obType .type = some .type ∧ t.mro .type = some [.type, .object] ∧ t.setattro .type = some .restrictive ∧ t.obType .object = some .type := by
  have ht := h.rest .type (fun i _ => ⟨by simp, by simp⟩)
  have ho := h.rest .object (fun i _ => ⟨by simp, by simp⟩)
  exact ⟨by rw [ht.1]; rfl, by rw [ht.2.2.2.1]; rfl, by rw [ht.2.2.2.2]; rfl, by rw [ho.1]; rfl⟩

/-- The order of lookup of a type of classes: metaclasses, then `type` and `object`. -/
def metaMro (js : List Nat) : List Ty := js.map Ty.metacls ++ [.type, .object]

theorem meta_shape {ds : List Decl} (ho : Ordered ds) {t : Types} (h : Done ds ds.length t) : ∀ (i : Nat) (m : Ty), i < ds.length →
    t.obType (.cls i) = some m → ∃ js : List Nat, t.mro m = some (metaMro js) ∧
      m = (metaMro js).headD .type ∧
      ∀ a ∈ js.map Ty.metacls, ∃ js', t.mro a = some (metaMro js') ∧ js' <:+ js := by
  intro i
  induction i using Nat.strongRecOn with
  | ind i ih =>
    intro m hi hm
    obtain ⟨D, hD⟩ : ∃ D, ds[i]? = some D := ⟨ds[i], List.getElem?_eq_getElem hi⟩
    obtain ⟨_, tm, _, tob⟩ := type_facts h
    have hpar : ∀ mp, t.obType (metaParent D) = some mp → ∃ js : List Nat, t.mro mp = some (metaMro js) ∧
        mp = (metaMro js).headD .type ∧
        ∀ a ∈ js.map Ty.metacls, ∃ js', t.mro a = some (metaMro js') ∧ js' <:+ js := by
      intro mp hmp
      unfold metaParent at hmp
      cases hb : D.bases with
      | nil =>
        simp only [hb] at hmp
        rw [tob] at hmp; cases hmp
        exact ⟨[], tm, rfl, fun a ha => by cases ha⟩
      | cons p qs =>
        simp only [hb] at hmp
        have hp := ho i D hD p (by rw [hb]; exact List.mem_cons_self)
        exact ih p hp mp (by omega) hmp
    by_cases hs : D.statics = []
    · rw [h.inherited i D hi hD hs] at hm
      exact hpar m hm
    · obtain ⟨mp, lmp, o1, o2, o3, o4, _⟩ := h.own i D hi hD hs
      rw [o3] at hm; cases hm
      obtain ⟨js, j1, j2, j3⟩ := hpar mp o1
      rw [o2] at j1; cases j1
      refine ⟨i :: js, o4, rfl, ?_⟩
      intro a ha
      rcases List.mem_cons.mp ha with rfl | ha
      · exact ⟨i :: js, o4, List.suffix_rfl⟩
      · obtain ⟨js', e1, e2⟩ := j3 a ha
        exact ⟨js', e1, e2.trans (List.suffix_cons _ _)⟩

theorem metaT_shape {ds : List Decl} (ho : Ordered ds) {t : Types} (h : Done ds ds.length t) {m : Ty} (hm : MetaT ds t m) :
    ∃ js : List Nat, t.mro m = some (metaMro js) ∧
      m = (metaMro js).headD .type ∧
      ∀ a ∈ js.map Ty.metacls, ∃ js', t.mro a = some (metaMro js') ∧ js' <:+ js := by
  rcases hm with rfl | ⟨i, hi, hm⟩
  · exact ⟨[], (type_facts h).2.1, rfl, fun a ha => by cases ha⟩
  · exact meta_shape ho h i m hi hm

theorem metaT_facts {ds : List Decl} {t : Types} (h : Done ds ds.length t) {m : Ty} (hm : MetaT ds t m) :
    (m = .type ∨ ∃ j, m = .metacls j) ∧ (∃ l, t.mro m = some l ∧ ∀ a ∈ l, Builtin a) ∧ (∃ r, t.setattro m = some r) ∧ t.obType m = some .type := by
  rcases hm with rfl | ⟨i, hi, hm⟩
  · obtain ⟨a, b, c, _⟩ := type_facts h
    refine ⟨.inl rfl, ⟨_, b, ?_⟩, ⟨_, c⟩, a⟩
    intro x hx
    rcases List.mem_cons.mp hx with rfl | hx
    · trivial
    · rw [List.mem_singleton.mp hx]; trivial
  · obtain ⟨m', l, r, k1, k2, k3, k4, k5, k6⟩ := h.metaKind i hi
    rw [hm] at k1; cases k1
    exact ⟨k2, ⟨l, k3, k4⟩, ⟨r, k5⟩, k6⟩

/-- The type of any type object that is not made by Python is a type of classes. -/
theorem obType_metaT {ds : List Decl} {t : Types} (h : Done ds ds.length t) {a m : Ty} (ha : isHeap a = false) (hm : t.obType a = some m) :
    MetaT ds t m := by
  obtain ⟨a1, _, _, a4⟩ := type_facts h
  cases a with
  | object => rw [a4] at hm; cases hm; exact .inl rfl
  | type => rw [a1] at hm; cases hm; exact .inl rfl
  | metacls i =>
    rcases h.metas i with e | e
    · rw [e] at hm; cases hm
    · rw [e] at hm; cases hm; exact .inl rfl
  | cls i =>
    by_cases hi : i < ds.length
    · exact .inr ⟨i, hi, hm⟩
    · have := (h.rest (.cls i) (fun j hj => ⟨by simp; omega, by simp⟩)).1
      rw [this] at hm; cases hm
  | py n => cases ha

/-! ## The lookup in the metaclasses -/

theorem search_eq {V : Type} (w : World V) {a : Ty} {l : List Ty} (h : w.types.mro a = some l) (x : Str) :
    search w a x = l.findSome? (fun b => w.dict b x) := by
  unfold search; rw [h]; rfl

/-- The lookup in the type of a wrapped class finds the nearest static attribute. -/
theorem search_nearest {V : Type} (E : Env V) (ho : Ordered E.ds) {t : Types} (h : Done E.ds E.ds.length t) (vars : Nat → Str → V) (x : Str) :
    ∀ (i : Nat) (m : Ty), i < E.ds.length → t.obType (.cls i) = some m → ∀ d s,
      search (start E t vars) m x = some (.getset d s) ↔ Nearest E.ds i x d s := by
  intro i
  induction i using Nat.strongRecOn with
  | ind i ih =>
    intro m hi hm d s
    obtain ⟨D, hD⟩ : ∃ D, E.ds[i]? = some D := ⟨E.ds[i], List.getElem?_eq_getElem hi⟩
    obtain ⟨_, tm, _, tob⟩ := type_facts h
    have hpar : ∀ mp, t.obType (metaParent D) = some mp → (search (start E t vars) mp x = some (.getset d s) ↔
        ∃ p qs, D.bases = p :: qs ∧ Nearest E.ds p x d s) := by
      intro mp hmp
      unfold metaParent at hmp
      cases hb : D.bases with
      | nil =>
        simp only [hb] at hmp
        rw [tob] at hmp; cases hmp
        rw [search_eq (l := [.type, .object]) (start E t vars) tm x]
        constructor
        · intro e
          simp only [List.findSome?_cons, List.findSome?_nil, start, dict0] at e
          cases h1 : E.builtin .type x <;> cases h2 : E.builtin .object x <;> rw [h1, h2] at e <;> cases e
        · rintro ⟨p, qs, e, _⟩; cases e
      | cons p qs =>
        simp only [hb] at hmp
        have hp := ho i D hD p (by rw [hb]; exact List.mem_cons_self)
        rw [ih p hp mp (by omega) hmp d s]
        constructor
        · intro e; exact ⟨p, qs, rfl, e⟩
        · rintro ⟨p', qs', e, g⟩; cases e; exact g
    by_cases hs : D.statics = []
    · rw [h.inherited i D hi hD hs] at hm
      rw [hpar m hm]
      constructor
      · rintro ⟨p, qs, e, g⟩
        exact .up hD (by rw [hs]; rfl) e g
      · intro g
        cases g with
        | here e1 e2 => rw [hD] at e1; cases e1; rw [hs] at e2; cases e2
        | up e1 _ e3 e4 => rw [hD] at e1; cases e1; exact ⟨_, _, e3, e4⟩
    · obtain ⟨mp, lmp, o1, o2, o3, o4, _⟩ := h.own i D hi hD hs
      rw [o3] at hm; cases hm
      rw [search_eq (l := .metacls i :: lmp) (start E t vars) o4 x, List.findSome?_cons]
      have hd : (start E t vars).dict (.metacls i) x = (D.statics.find? (fun s => s.name = x)).map (Entry.getset i) := by
        simp only [start, dict0, hD]
      rw [hd]
      cases hf : D.statics.find? (fun s => s.name = x) with
      | some s' =>
        simp only [Option.map_some, Option.some.injEq, Entry.getset.injEq]
        constructor
        · rintro ⟨rfl, rfl⟩; exact .here hD hf
        · intro g
          cases g with
          | here e1 e2 => rw [hD] at e1; cases e1; rw [hf] at e2; cases e2; exact ⟨rfl, rfl⟩
          | up e1 e2 _ _ => rw [hD] at e1; cases e1; rw [hf] at e2; cases e2
      | none =>
        simp only [Option.map_none]
        have := hpar mp o1
        rw [search_eq (l := lmp) (start E t vars) o2 x] at this
        rw [this]
        constructor
        · rintro ⟨p, qs, e, g⟩; exact .up hD hf e g
        · intro g
          cases g with
          | here e1 e2 => rw [hD] at e1; cases e1; rw [hf] at e2; cases e2
          | up e1 _ e3 e4 => rw [hD] at e1; cases e1; exact ⟨_, _, e3, e4⟩

end Verif.Static
