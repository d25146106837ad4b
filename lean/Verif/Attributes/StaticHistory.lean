import Verif.Attributes.StaticProps

/-!
# Static attributes of wrapped classes: what every Python program sees (C114)
-/
namespace Verif.Static
open Verif

variable {V : Type}

/-! ## The invariant -/

structure Inv (E : Env V) (t : Types) (vars0 : Nat → Str → V) (w : World V) : Prop where
  types : ∀ a, isHeap a = false → w.types.obType a = t.obType a ∧ w.types.mro a = t.mro a ∧ w.types.setattro a = t.setattro a
  pyType : ∀ n m, w.types.obType (.py n) = some m → MetaT E.ds t m
  dict : ∀ a, Builtin a → w.dict a = dict0 E a
  cache : ∀ m x e, MetaT E.ds t m → w.cache m x = some e → e = search (start E t vars0) m x

theorem inv_start (E : Env V) {t : Types} (h : Done E.ds E.ds.length t) (vars : Nat → Str → V) : Inv E t vars (start E t vars) where
  types := fun _ _ => ⟨rfl, rfl, rfl⟩
  pyType := fun n m hm => by
    have := (h.rest (.py n) (fun _ _ => ⟨by simp, by simp⟩)).1
    change t.obType (.py n) = some m at hm
    rw [this] at hm; cases hm
  dict := fun _ _ => rfl
  cache := fun _ _ _ _ h => by cases h

theorem builtin_not_heap {a : Ty} (h : Builtin a) : isHeap a = false := by cases a <;> first | rfl | cases h

theorem metaT_builtin {ds : List Decl} {t : Types} (h : Done ds ds.length t) {m : Ty} (hm : MetaT ds t m) : Builtin m := by
  rcases (metaT_facts h hm).1 with rfl | ⟨j, rfl⟩ <;> trivial

theorem findSome_congr {α β : Type} (f g : α → Option β) : ∀ (l : List α), (∀ a ∈ l, f a = g a) → l.findSome? f = l.findSome? g
  | [], _ => rfl
  | a :: l, h => by
    simp only [List.findSome?_cons, h a List.mem_cons_self]
    rw [findSome_congr f g l (fun b hb => h b (List.mem_cons_of_mem _ hb))]

theorem inv_search {E : Env V} {t : Types} (h : Done E.ds E.ds.length t) {vars0 : Nat → Str → V} {w : World V} (hw : Inv E t vars0 w)
    {m : Ty} (hm : MetaT E.ds t m) (x : Str) : search w m x = search (start E t vars0) m x := by
  obtain ⟨_, ⟨l, hl, hb⟩, _, _⟩ := metaT_facts h hm
  have hh := builtin_not_heap (metaT_builtin h hm)
  rw [search_eq w (l := l) (by rw [(hw.types m hh).2.1, hl]) x, search_eq (start E t vars0) (l := l) hl x]
  exact findSome_congr _ _ l (fun a ha => by rw [hw.dict a (hb a ha)]; rfl)

theorem inv_find {E : Env V} {t : Types} (h : Done E.ds E.ds.length t) {vars0 : Nat → Str → V} {w : World V} (hw : Inv E t vars0 w)
    {m : Ty} (hm : MetaT E.ds t m) (x : Str) : find w m x = search (start E t vars0) m x := by
  unfold find
  cases hc : w.cache m x with
  | some e => exact hw.cache m x e hm hc
  | none => exact inv_search h hw hm x

theorem inv_obType {E : Env V} {t : Types} (h : Done E.ds E.ds.length t) {vars0 : Nat → Str → V} {w : World V} (hw : Inv E t vars0 w)
    {a m : Ty} (hm : w.types.obType a = some m) : MetaT E.ds t m := by
  cases ha : isHeap a with
  | false => exact obType_metaT h ha (by rw [← (hw.types a ha).1, hm])
  | true => cases a with
    | py n => exact hw.pyType n m hm
    | _ => cases ha

theorem inv_remember {E : Env V} {t : Types} (h : Done E.ds E.ds.length t) {vars0 : Nat → Str → V} {w : World V} (hw : Inv E t vars0 w)
    (a : Ty) (x : Str) : Inv E t vars0 (remember w a x) where
  types := hw.types
  pyType := hw.pyType
  dict := hw.dict
  cache := fun m y e hm he => by
    by_cases hc : m = a ∧ y = x
    · obtain ⟨rfl, rfl⟩ := hc
      simp only [remember, and_self, if_true, Option.some.injEq] at he
      rw [← he, inv_find h hw hm]
    · simp only [remember, if_neg hc] at he
      exact hw.cache m y e hm he

/-- An assignment through `PyObject_GenericSetAttr` on a type that is not one of `object`, `type` and the
metaclasses. -/
theorem inv_genericSet {E : Env V} {t : Types} (h : Done E.ds E.ds.length t) {vars0 : Nat → Str → V} {w : World V} (hw : Inv E t vars0 w)
    {c m : Ty} (hc : ¬ Builtin c) (x : Str) (v : V) : Inv E t vars0 (genericSet E w c m x v).2 := by
  have hr := inv_remember h hw m x
  have hv : ∀ f, Inv E t vars0 { remember w m x with vars := f } := fun f => ⟨hr.types, hr.pyType, hr.dict, hr.cache⟩
  have hd : Inv E t vars0 { remember w m x with dict := fun a y => if a = c ∧ y = x then some (.stored v) else (remember w m x).dict a y } := by
    refine ⟨hr.types, hr.pyType, ?_, hr.cache⟩
    intro a ha
    funext y
    dsimp only
    rw [if_neg (fun e : a = c ∧ y = x => hc (e.1 ▸ ha)), hr.dict a ha]
  unfold genericSet
  dsimp only
  split
  · split
    · split
      · exact hv _
      · exact hr
    · exact hr
  · exact hr
  · exact hd

/-- Who may be assigned to at all. -/
theorem set_target {E : Env V} {t : Types} (h : Done E.ds E.ds.length t) {vars0 : Nat → Str → V} {w : World V} (hw : Inv E t vars0 w)
    {c m : Ty} (hc : Builtin c) (hm : w.types.obType c = some m) : w.types.setattro m = some .restrictive ∧ isHeap c = false := by
  have hh := builtin_not_heap hc
  obtain ⟨a1, a2, a3, a4⟩ := type_facts h
  have : m = .type := by
    rw [(hw.types c hh).1] at hm
    cases c with
    | object => rw [a4] at hm; cases hm; rfl
    | type => rw [a1] at hm; cases hm; rfl
    | metacls i =>
      rcases h.metas i with e | e <;> rw [e] at hm <;> cases hm
      rfl
    | _ => cases hc
  subst this
  exact ⟨by rw [(hw.types .type rfl).2.2, a3], hh⟩

theorem inv_setAttr {E : Env V} {t : Types} (h : Done E.ds E.ds.length t) {vars0 : Nat → Str → V} {w : World V} (hw : Inv E t vars0 w)
    (c : Ty) (x : Str) (v : V) : Inv E t vars0 (setAttr E w c x v).2 := by
  unfold setAttr
  cases hm : w.types.obType c with
  | none => exact hw
  | some m =>
    dsimp only
    cases hs : w.types.setattro m with
    | none => exact hw
    | some r =>
      cases r with
      | generic =>
        by_cases hc : Builtin c
        · have := (set_target h hw hc hm).1
          rw [hs] at this; cases this
        · exact inv_genericSet h hw hc x v
      | restrictive =>
        dsimp only
        split
        · rename_i hh
          have hc : ¬ Builtin c := fun hb => by rw [builtin_not_heap hb] at hh; cases hh
          have hg := inv_genericSet h hw hc (m := m) x v
          refine ⟨hg.types, hg.pyType, hg.dict, ?_⟩
          intro m' y e hm' he
          unfold modified at he
          dsimp only at he
          split at he
          · cases he
          · exact hg.cache m' y e hm' he
        · exact hw

theorem winner_metaT {E : Env V} {t : Types} (h : Done E.ds E.ds.length t) {vars0 : Nat → Str → V} {w : World V} (hw : Inv E t vars0 w) :
    ∀ (bs : List Ty) (m r : Ty), MetaT E.ds t m → winner w.types m bs = some r → MetaT E.ds t r
  | [], m, r, hm, hr => by cases hr; exact hm
  | b :: bs, m, r, hm, hr => by
    unfold winner at hr
    cases hb : w.types.obType b with
    | none => rw [hb] at hr; cases hr
    | some tb =>
      rw [hb] at hr
      dsimp only at hr
      split at hr
      · exact winner_metaT h hw bs m r hm hr
      · split at hr
        · exact winner_metaT h hw bs tb r (inv_obType h hw hb) hr
        · cases hr

theorem inv_newClass {E : Env V} {t : Types} (h : Done E.ds E.ds.length t) {vars0 : Nat → Str → V} {w : World V} (hw : Inv E t vars0 w)
    (bs : List Ty) (names : List Str) (ok : Bool) : Inv E t vars0 (newClass w bs names ok).2 := by
  unfold newClass
  dsimp only
  split
  · rename_i m l hm hl
    have hmt := winner_metaT h hw _ _ _ (.inl rfl) hm
    refine ⟨?_, ?_, ?_, hw.cache⟩
    · intro a ha
      have hne : a ≠ .py w.pys := by rintro rfl; cases ha
      simp only [upd_ne _ _ hne]
      exact hw.types a ha
    · intro n m' hm'
      by_cases hn : n = w.pys
      · subst hn
        simp only [upd_same] at hm'
        cases hm'; exact hmt
      · have hne : Ty.py n ≠ .py w.pys := by simpa using hn
        simp only [upd_ne _ _ hne] at hm'
        exact hw.pyType n m' hm'
    · intro a ha
      have hne : a ≠ .py w.pys := by rintro rfl; cases ha
      funext y
      simp only [hne, if_false]
      rw [hw.dict a ha]
  · exact ⟨hw.types, hw.pyType, hw.dict, hw.cache⟩

theorem inv_getAttr {E : Env V} {t : Types} (h : Done E.ds E.ds.length t) {vars0 : Nat → Str → V} {w : World V} (hw : Inv E t vars0 w)
    (c : Ty) (x : Str) : Inv E t vars0 (getAttr w c x).2 := by
  unfold getAttr
  split
  · exact hw
  · rename_i m hm
    dsimp only
    have h1 := inv_remember h hw m x
    have h2 := inv_remember h h1 c x
    split
    · exact h1
    · exact h1
    · split
      · exact h2
      · split
        · exact h2
        · exact h2

theorem inv_step {E : Env V} {t : Types} (h : Done E.ds E.ds.length t) {vars0 : Nat → Str → V} {w : World V} (hw : Inv E t vars0 w)
    (e : Ev V) : Inv E t vars0 (step E w e).2 := by
  cases e with
  | get c x => exact inv_getAttr h hw c x
  | inst c x =>
    unfold step getInst
    dsimp only
    split
    · exact hw
    · split <;> exact inv_remember h hw c x
  | set c x v => exact inv_setAttr h hw c x v
  | newClass bs names ok => exact inv_newClass h hw bs names ok
  | cxx d x v => exact ⟨hw.types, hw.pyType, hw.dict, hw.cache⟩
  | evict keep =>
    refine ⟨hw.types, hw.pyType, hw.dict, ?_⟩
    intro m x e hm he
    simp only [step] at he
    split at he
    · exact hw.cache m x e hm he
    · cases he

theorem inv_run {E : Env V} {t : Types} (h : Done E.ds E.ds.length t) {vars0 : Nat → Str → V} : ∀ (es : List (Ev V)) (w : World V),
    Inv E t vars0 w → Inv E t vars0 (run E w es)
  | [], _, hw => hw
  | e :: es, _, hw => inv_run h es _ (inv_step h hw e)

/-! ## Classes made by Python -/

/-- `c` is the wrapped class `i` or a Python class derived from it, directly or not. -/
inductive Derives (w : World V) : Ty → Nat → Prop where
  | self {i} : Derives w (.cls i) i
  | py {n bs b i} : w.types.bases (.py n) = some bs → b ∈ bs → Derives w b i → Derives w (.py n) i

/-- `c` is the wrapped class `i`, or a Python class derived from it with one base at each step. -/
inductive Line (w : World V) : Ty → Nat → Prop where
  | self {i} : Line w (.cls i) i
  | py {n b i} : w.types.bases (.py n) = some [b] → Line w b i → Line w (.py n) i

structure PyInv (t : Types) (w : World V) : Prop where
  fresh : ∀ n, w.pys ≤ n → w.types.obType (.py n) = none
  made : ∀ n m, w.types.obType (.py n) = some m → ∃ bs, w.types.bases (.py n) = some bs ∧ (∀ k, .py k ∈ bs → k < n) ∧
    (∃ b ∈ bs, w.types.obType b = some m) ∧ ∀ b ∈ bs, ∃ tb l, w.types.obType b = some tb ∧ t.mro m = some l ∧ tb ∈ l

theorem pyInv_start (E : Env V) {t : Types} (h : Done E.ds E.ds.length t) (vars : Nat → Str → V) : PyInv t (start E t vars) := by
  have hn : ∀ n, (start E t vars).types.obType (.py n) = none := fun n => (h.rest (.py n) (fun _ _ => ⟨by simp, by simp⟩)).1
  exact ⟨fun n _ => hn n, fun n m hm => by rw [hn n] at hm; cases hm⟩

theorem metaT_self {ds : List Decl} (ho : Ordered ds) {t : Types} (h : Done ds ds.length t) {m : Ty} (hm : MetaT ds t m) :
    ∃ l, t.mro m = some l ∧ m ∈ l := by
  obtain ⟨js, j1, j2, _⟩ := metaT_shape ho h hm
  refine ⟨_, j1, ?_⟩
  cases js with
  | nil => rw [j2]; exact List.mem_cons_self
  | cons j js => rw [j2]; exact List.mem_cons_self

theorem metaT_trans {ds : List Decl} (ho : Ordered ds) {t : Types} (h : Done ds ds.length t) {m tb u : Ty} (hm : MetaT ds t m)
    (hb : MetaT ds t tb) {l lb : List Ty} (hl : t.mro m = some l) (hlb : t.mro tb = some lb) (h1 : tb ∈ l) (h2 : u ∈ lb) : u ∈ l := by
  obtain ⟨js, j1, _, j3⟩ := metaT_shape ho h hm
  rw [j1] at hl; cases hl
  rcases List.mem_append.mp h1 with h1 | h1
  · obtain ⟨js', e1, e2⟩ := j3 tb h1
    rw [e1] at hlb; cases hlb
    rcases List.mem_append.mp h2 with h2 | h2
    · exact List.mem_append.mpr (.inl (List.map_subset _ e2.subset h2))
    · exact List.mem_append.mpr (.inr h2)
  · rcases List.mem_cons.mp h1 with rfl | h1
    · rw [(type_facts h).2.1] at hlb; cases hlb
      exact List.mem_append.mpr (.inr h2)
    · rw [List.mem_singleton.mp h1] at hb
      rcases (metaT_facts h hb).1 with e | ⟨j, e⟩ <;> cases e

theorem winner_spec {E : Env V} (ho : Ordered E.ds) {t : Types} (h : Done E.ds E.ds.length t) {vars0 : Nat → Str → V} {w : World V}
    (hw : Inv E t vars0 w) : ∀ (bs : List Ty) (m r : Ty), MetaT E.ds t m → winner w.types m bs = some r →
      (r = m ∨ ∃ b ∈ bs, w.types.obType b = some r) ∧ (∀ l, t.mro r = some l → m ∈ l) ∧
      ∀ b ∈ bs, ∃ tb l, w.types.obType b = some tb ∧ t.mro r = some l ∧ tb ∈ l
  | [], m, r, hm, hr => by
    cases hr
    obtain ⟨l, e, g⟩ := metaT_self ho h hm
    refine ⟨.inl rfl, fun l' hl' => ?_, fun b hb => by cases hb⟩
    rw [e] at hl'; cases hl'; exact g
  | b :: bs, m, r, hm, hr => by
    unfold winner at hr
    cases hb : w.types.obType b with
    | none => rw [hb] at hr; cases hr
    | some tb =>
      have htb := inv_obType h hw hb
      rw [hb] at hr
      dsimp only at hr
      have hsub : ∀ a c, MetaT E.ds t a → subtype w.types a c = true → ∃ l, t.mro a = some l ∧ c ∈ l := by
        intro a c ha hs
        obtain ⟨_, ⟨l, hl, _⟩, _, _⟩ := metaT_facts h ha
        unfold subtype at hs
        rw [(hw.types a (builtin_not_heap (metaT_builtin h ha))).2.1, hl] at hs
        exact ⟨l, hl, by simpa using hs⟩
      split at hr
      · rename_i hs
        obtain ⟨lm, e1, e2⟩ := hsub m tb hm hs
        obtain ⟨i1, i2, i3⟩ := winner_spec ho h hw bs m r hm hr
        have hrm := winner_metaT h hw bs m r hm hr
        obtain ⟨_, ⟨lr, hlr, _⟩, _, _⟩ := metaT_facts h hrm
        refine ⟨?_, i2, ?_⟩
        · rcases i1 with e | ⟨b', hb', e⟩
          · exact .inl e
          · exact .inr ⟨b', List.mem_cons_of_mem _ hb', e⟩
        · intro b' hb'
          rcases List.mem_cons.mp hb' with rfl | hb'
          · exact ⟨tb, lr, hb, hlr, metaT_trans ho h hrm hm hlr e1 (i2 lr hlr) e2⟩
          · exact i3 b' hb'
      · split at hr
        · rename_i _ hs
          obtain ⟨lt, e1, e2⟩ := hsub tb m htb hs
          obtain ⟨i1, i2, i3⟩ := winner_spec ho h hw bs tb r htb hr
          have hrm := winner_metaT h hw bs tb r htb hr
          obtain ⟨_, ⟨lr, hlr, _⟩, _, _⟩ := metaT_facts h hrm
          refine ⟨.inr ?_, ?_, ?_⟩
          · rcases i1 with rfl | ⟨b', hb', e⟩
            · exact ⟨b, List.mem_cons_self, hb⟩
            · exact ⟨b', List.mem_cons_of_mem _ hb', e⟩
          · intro l hl
            exact metaT_trans ho h hrm htb hl e1 (i2 l hl) e2
          · intro b' hb'
            rcases List.mem_cons.mp hb' with rfl | hb'
            · exact ⟨tb, lr, hb, hlr, i2 lr hlr⟩
            · exact i3 b' hb'
        · cases hr

theorem pyInv_newClass {E : Env V} (ho : Ordered E.ds) {t : Types} (h : Done E.ds E.ds.length t) {vars0 : Nat → Str → V} {w : World V}
    (hw : Inv E t vars0 w) (hp : PyInv t w) (bs : List Ty) (names : List Str) (ok : Bool) : PyInv t (newClass w bs names ok).2 := by
  unfold newClass
  dsimp only
  have hne0 : (if bs = [] then [Ty.object] else bs) ≠ [] := by split <;> simp_all
  generalize (if bs = [] then [Ty.object] else bs) = bs at hne0
  split
  · rename_i m l hm hl
    obtain ⟨s1, _, s3⟩ := winner_spec ho h hw _ _ _ (.inl rfl) hm
    have hob : ∀ b tb, w.types.obType b = some tb → b ≠ .py w.pys := by
      rintro b tb hb rfl
      rw [hp.fresh w.pys (Nat.le_refl _)] at hb; cases hb
    constructor
    · intro n hn
      have hne : Ty.py n ≠ .py w.pys := by simp; simp at hn; omega
      simp only [upd_ne _ _ hne]
      exact hp.fresh n (by simp at hn; omega)
    · intro n m' hm'
      by_cases hn : n = w.pys
      · subst hn
        simp only [upd_same] at hm'
        cases hm'
        refine ⟨bs, upd_same _ _ _, ?_, ?_, ?_⟩
        · intro k hk
          obtain ⟨tb, _, e, _⟩ := s3 _ hk
          by_contra hc
          rw [hp.fresh k (by omega)] at e; cases e
        · rcases s1 with rfl | ⟨b, hb, e⟩
          · obtain ⟨b, hb⟩ := List.exists_mem_of_ne_nil bs hne0
            obtain ⟨tb, l', e, e1, e2⟩ := s3 b hb
            rw [(type_facts h).2.1] at e1; cases e1
            have : tb = .type := by
              rcases (metaT_facts h (inv_obType h hw e)).1 with g | ⟨j, rfl⟩
              · exact g
              · simp at e2
            subst this
            exact ⟨b, hb, (upd_ne _ _ (hob b _ e)).trans e⟩
          · exact ⟨b, hb, (upd_ne _ _ (hob b _ e)).trans e⟩
        · intro b hb
          obtain ⟨tb, l', e, e1, e2⟩ := s3 b hb
          exact ⟨tb, l', (upd_ne _ _ (hob b _ e)).trans e, e1, e2⟩
      · have hne : Ty.py n ≠ .py w.pys := by simpa using hn
        simp only [upd_ne _ _ hne] at hm' ⊢
        obtain ⟨bs', b1, b2, ⟨b, hb, e⟩, b4⟩ := hp.made n m' hm'
        refine ⟨bs', b1, b2, ⟨b, hb, (upd_ne _ _ (hob b _ e)).trans e⟩, ?_⟩
        intro b' hb'
        obtain ⟨tb, l', e', e1, e2⟩ := b4 b' hb'
        exact ⟨tb, l', (upd_ne _ _ (hob b' _ e')).trans e', e1, e2⟩
  · exact ⟨fun n hn => hp.fresh n (by simp at hn; omega), hp.made⟩

theorem step_types (E : Env V) (w : World V) (e : Ev V) (h : ∀ bs names ok, e ≠ .newClass bs names ok) :
    (step E w e).2.types = w.types ∧ (step E w e).2.pys = w.pys := by
  have hg : ∀ c m x v, (genericSet E w c m x v).2.types = w.types ∧ (genericSet E w c m x v).2.pys = w.pys := by
    intro c m x v
    unfold genericSet
    dsimp only
    split
    · split
      · split <;> exact ⟨rfl, rfl⟩
      · exact ⟨rfl, rfl⟩
    · exact ⟨rfl, rfl⟩
    · exact ⟨rfl, rfl⟩
  cases e with
  | get c x =>
    unfold step getAttr
    dsimp only
    split
    · exact ⟨rfl, rfl⟩
    · split
      · exact ⟨rfl, rfl⟩
      · exact ⟨rfl, rfl⟩
      · split
        · exact ⟨rfl, rfl⟩
        · split <;> exact ⟨rfl, rfl⟩
  | inst c x =>
    unfold step getInst
    dsimp only
    split
    · exact ⟨rfl, rfl⟩
    · split <;> exact ⟨rfl, rfl⟩
  | set c x v =>
    unfold step setAttr
    dsimp only
    split
    · exact ⟨rfl, rfl⟩
    · split
      · exact hg _ _ _ _
      · split
        · exact hg _ _ _ _
        · exact ⟨rfl, rfl⟩
      · exact ⟨rfl, rfl⟩
  | newClass bs names ok => exact absurd rfl (h bs names ok)
  | cxx d x v => exact ⟨rfl, rfl⟩
  | evict keep => exact ⟨rfl, rfl⟩

theorem pyInv_run {E : Env V} (ho : Ordered E.ds) {t : Types} (h : Done E.ds E.ds.length t) {vars0 : Nat → Str → V} :
    ∀ (es : List (Ev V)) (w : World V), Inv E t vars0 w → PyInv t w → PyInv t (run E w es)
  | [], _, _, hp => hp
  | e :: es, w, hw, hp => by
    refine pyInv_run ho h es _ (inv_step h hw e) ?_
    by_cases he : ∃ bs names ok, e = .newClass bs names ok
    · obtain ⟨bs, names, ok, rfl⟩ := he
      exact pyInv_newClass ho h hw hp bs names ok
    · obtain ⟨e1, e2⟩ := step_types E w e (fun bs names ok c => he ⟨bs, names, ok, c⟩)
      exact ⟨by rw [e1, e2]; exact hp.fresh, by rw [e1]; exact hp.made⟩

end Verif.Static
