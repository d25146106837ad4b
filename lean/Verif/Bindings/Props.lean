import Verif.Bindings.Model
import Verif.Names.Props

/-!
# C113: importing a module binds the declared names
-/
namespace Verif.Bindings
open Verif Verif.Names

/-! ## Effects of statements -/

abbrev Triple := Scope × Str × Thing

/-- What a statement binds, if it does. -/
def effs : Act → List Triple
  | .create path table => table.map fun p => (.module path, p.1, p.2)
  | .ready c members => members.map fun n => (.dict c, n, .member c n)
  | .bind s n t => [(s, n, t)]

theorem set_env (w : World) (s : Scope) (n : Str) (t : Thing) (s' : Scope) (n' : Str) :
    (w.set s n t).env s' n' = if s' = s ∧ n' = n then some t else w.env s' n' := rfl

theorem set_ready (w : World) (s : Scope) (n : Str) (t : Thing) : (w.set s n t).ready = w.ready := rfl
theorem set_sys (w : World) (s : Scope) (n : Str) (t : Thing) : (w.set s n t).sys = w.sys := rfl

theorem setAll_ready (s : Scope) : ∀ (l : List (Str × Thing)) (w : World), (w.setAll s l).ready = w.ready
  | [], _ => rfl
  | p :: l, w => by simp only [World.setAll, List.foldl_cons]; exact setAll_ready s l (w.set s p.1 p.2)

theorem setAll_sys (s : Scope) : ∀ (l : List (Str × Thing)) (w : World), (w.setAll s l).sys = w.sys
  | [], _ => rfl
  | p :: l, w => by simp only [World.setAll, List.foldl_cons]; exact setAll_sys s l (w.set s p.1 p.2)

/-- After binding a list, a name has one of its values, or its old one if there are none. -/
theorem setAll_env (s : Scope) (s' : Scope) (n : Str) : ∀ (l : List (Str × Thing)) (w : World),
    (∃ t, s' = s ∧ (n, t) ∈ l ∧ (w.setAll s l).env s' n = some t) ∨
    ((∀ t, ¬ (s' = s ∧ (n, t) ∈ l)) ∧ (w.setAll s l).env s' n = w.env s' n)
  | [], _ => .inr ⟨fun _ h => by simp at h, rfl⟩
  | p :: l, w => by
    simp only [World.setAll, List.foldl_cons]
    rcases setAll_env s s' n l (w.set s p.1 p.2) with ⟨t, h1, h2, h3⟩ | ⟨h1, h2⟩
    · exact .inl ⟨t, h1, List.mem_cons_of_mem _ h2, h3⟩
    · by_cases h : s' = s ∧ n = p.1
      · refine .inl ⟨p.2, h.1, by rw [h.2]; exact List.mem_cons_self, ?_⟩
        have := h2.trans (set_env ..)
        rw [if_pos h] at this; exact this
      · refine .inr ⟨fun t ht => ?_, ?_⟩
        · rcases List.mem_cons.1 ht.2 with h' | h'
          · exact h ⟨ht.1, by rw [← h']⟩
          · exact h1 t ⟨ht.1, h'⟩
        · have := h2.trans (set_env ..)
          rw [if_neg h] at this; exact this

/-- Bound to something of `P`. -/
def Bound (P : Scope → Str → Thing → Prop) (w : World) (s : Scope) (n : Str) : Prop := ∃ t, w.env s n = some t ∧ P s n t

theorem setAll_bound {P : Scope → Str → Thing → Prop} {s : Scope} {l : List (Str × Thing)} {w : World}
    (hP : ∀ p ∈ l, P s p.1 p.2) :
    (∀ s' n, Bound P w s' n → Bound P (w.setAll s l) s' n) ∧ (∀ p ∈ l, Bound P (w.setAll s l) s p.1) := by
  constructor
  · intro s' n ⟨t, ht, hp⟩
    rcases setAll_env s s' n l w with ⟨t', h1, h2, h3⟩ | ⟨-, h2⟩
    · subst h1; exact ⟨t', h3, hP _ h2⟩
    · exact ⟨t, h2.trans ht, hp⟩
  · intro p hp
    rcases setAll_env s s p.1 l w with ⟨t', h1, h2, h3⟩ | ⟨h1, -⟩
    · exact ⟨t', h3, hP _ h2⟩
    · exact absurd ⟨rfl, hp⟩ (h1 p.2)

/-- The type objects that are ready have their members. -/
def Inv (P : Scope → Str → Thing → Prop) (all : List Act) (w : World) : Prop :=
  ∀ c ms, Act.ready c ms ∈ all → w.ready c = true → ∀ n ∈ ms, Bound P w (.dict c) n

theorem step_bound {P : Scope → Str → Thing → Prop} {all : List Act} {py2 : Bool} {a : Act} {w w' : World}
    (hall : ∀ c ms ms', Act.ready c ms ∈ all → Act.ready c ms' ∈ all → ms = ms')
    (ha : a ∈ all) (hP : ∀ x ∈ effs a, P x.1 x.2.1 x.2.2) (hi : Inv P all w) (h : step py2 w a = some w') :
    Inv P all w' ∧ (∀ s n, Bound P w s n → Bound P w' s n) ∧ (∀ x ∈ effs a, Bound P w' x.1 x.2.1) := by
  match a with
  | .create path table =>
    simp only [step, Option.some.injEq] at h
    subst h
    obtain ⟨h1, h2⟩ := setAll_bound (P := P) (s := .module path) (l := table)
      (w := { w with sys := if py2 then pyJoin ".".toList path :: w.sys else w.sys })
      (fun p hp => hP _ (List.mem_map.2 ⟨p, hp, rfl⟩))
    refine ⟨fun c ms hm hr n hn => ?_, fun s n hb => h1 s n hb, fun x hx => ?_⟩
    · rw [setAll_ready] at hr
      exact h1 _ _ (hi c ms hm hr n hn)
    · obtain ⟨p, hp, rfl⟩ := List.mem_map.1 hx
      exact h2 p hp
  | .ready c members =>
    simp only [step] at h
    split at h
    · rename_i hr
      cases h
      refine ⟨hi, fun _ _ hb => hb, fun x hx => ?_⟩
      obtain ⟨n, hn, rfl⟩ := List.mem_map.1 hx
      exact hi c members ha hr n hn
    · cases h
      obtain ⟨h1, h2⟩ := setAll_bound (P := P) (s := .dict c) (l := members.map fun n => (n, Thing.member c n))
        (w := { w with ready := fun d => if d = c then true else w.ready d })
        (fun p hp => by
          obtain ⟨n, hn, rfl⟩ := List.mem_map.1 hp
          exact hP _ (List.mem_map.2 ⟨n, hn, rfl⟩))
      refine ⟨fun d ms hm hr n hn => ?_, fun s n hb => h1 s n hb, fun x hx => ?_⟩
      · rw [setAll_ready] at hr
        by_cases hd : d = c
        · subst hd
          have := hall d ms members hm ha
          subst this
          exact h2 (n, .member d n) (List.mem_map.2 ⟨n, hn, rfl⟩)
        · simp only [hd, if_false] at hr
          exact h1 _ _ (hi d ms hm hr n hn)
      · obtain ⟨n, hn, rfl⟩ := List.mem_map.1 hx
        exact h2 (n, .member c n) (List.mem_map.2 ⟨n, hn, rfl⟩)
  | .bind s n t =>
    have hw : w' = w.set s n t := by
      match s with
      | .dict c =>
        simp only [step] at h
        split at h
        · exact (Option.some.inj h).symm
        · cases h
      | .module p => simp only [step] at h; exact (Option.some.inj h).symm
    subst hw
    have hb : ∀ s' n', Bound P w s' n' → Bound P (w.set s n t) s' n' := by
      intro s' n' ⟨t', h1, h2⟩
      by_cases he : s' = s ∧ n' = n
      · obtain ⟨rfl, rfl⟩ := he
        exact ⟨t, by rw [set_env, if_pos ⟨rfl, rfl⟩], hP (s', n', t) (by simp [effs])⟩
      · exact ⟨t', by rw [set_env, if_neg he]; exact h1, h2⟩
    refine ⟨fun c ms hm hr k hk => hb _ _ (hi c ms hm hr k hk), hb, fun x hx => ?_⟩
    simp only [effs, List.mem_singleton] at hx
    subst hx
    exact ⟨t, by rw [set_env, if_pos ⟨rfl, rfl⟩], hP (s, n, t) (by simp [effs])⟩

/-- Everything bound is bound by a statement, or was before. -/
theorem step_sound {py2 : Bool} {a : Act} {w w' : World} (h : step py2 w a = some w') {s : Scope} {n : Str} {t : Thing}
    (ht : w'.env s n = some t) : (s, n, t) ∈ effs a ∨ w.env s n = some t := by
  match a with
  | .create path table =>
    simp only [step, Option.some.injEq] at h
    subst h
    rcases setAll_env (.module path) s n table { w with sys := if py2 then pyJoin ".".toList path :: w.sys else w.sys }
      with ⟨t', h1, h2, h3⟩ | ⟨-, h2⟩
    · rw [h3] at ht
      cases ht
      exact .inl (List.mem_map.2 ⟨(n, t), h2, by rw [h1]⟩)
    · exact .inr (h2.symm.trans ht)
  | .ready c members =>
    simp only [step] at h
    split at h
    · cases h; exact .inr ht
    · cases h
      rcases setAll_env (.dict c) s n (members.map fun n => (n, Thing.member c n))
        { w with ready := fun d => if d = c then true else w.ready d } with ⟨t', h1, h2, h3⟩ | ⟨-, h2⟩
      · rw [h3] at ht
        cases ht
        obtain ⟨k, hk, e⟩ := List.mem_map.1 h2
        cases e
        exact .inl (List.mem_map.2 ⟨n, hk, by rw [h1]⟩)
      · exact .inr (h2.symm.trans ht)
  | .bind s' n' t' =>
    have hw : w' = w.set s' n' t' := by
      match s' with
      | .dict c =>
        simp only [step] at h
        split at h
        · exact (Option.some.inj h).symm
        · cases h
      | .module p => simp only [step] at h; exact (Option.some.inj h).symm
    subst hw
    rw [set_env] at ht
    split at ht
    · rename_i he
      cases ht
      exact .inl (by simp [effs, he.1, he.2])
    · exact .inr ht

theorem run_sound {py2 : Bool} : ∀ (l : List Act) {w w' : World}, run py2 w l = some w' →
    ∀ {s : Scope} {n : Str} {t : Thing}, w'.env s n = some t → (∃ a ∈ l, (s, n, t) ∈ effs a) ∨ w.env s n = some t
  | [], w, w', h, s, n, t, ht => by cases h; exact .inr ht
  | a :: l, w, w', h, s, n, t, ht => by
    simp only [run] at h
    split at h
    · cases h
    · rename_i w1 h1
      rcases run_sound l h ht with ⟨b, hb, hx⟩ | hx
      · exact .inl ⟨b, List.mem_cons_of_mem _ hb, hx⟩
      · rcases step_sound h1 hx with hx | hx
        · exact .inl ⟨a, List.mem_cons_self, hx⟩
        · exact .inr hx

theorem run_bound {P : Scope → Str → Thing → Prop} {all : List Act} {py2 : Bool}
    (hall : ∀ c ms ms', Act.ready c ms ∈ all → Act.ready c ms' ∈ all → ms = ms') :
    ∀ (l : List Act) {w w' : World}, (∀ a ∈ l, a ∈ all) → (∀ a ∈ l, ∀ x ∈ effs a, P x.1 x.2.1 x.2.2) → Inv P all w →
      run py2 w l = some w' →
      (∀ s n, Bound P w s n → Bound P w' s n) ∧ (∀ a ∈ l, ∀ x ∈ effs a, Bound P w' x.1 x.2.1)
  | [], w, w', _, _, _, h => by cases h; exact ⟨fun _ _ h => h, nofun⟩
  | a :: l, w, w', hl, hP, hi, h => by
    simp only [run] at h
    split at h
    · cases h
    · rename_i w1 h1
      obtain ⟨i1, b1, e1⟩ := step_bound hall (hl a List.mem_cons_self) (hP a List.mem_cons_self) hi h1
      obtain ⟨b2, e2⟩ := run_bound hall l (fun b hb => hl b (List.mem_cons_of_mem _ hb))
        (fun b hb => hP b (List.mem_cons_of_mem _ hb)) i1 h
      refine ⟨fun s n hb => b2 s n (b1 s n hb), fun b hb x hx => ?_⟩
      rcases List.mem_cons.1 hb with rfl | hb
      · exact b2 _ _ (e1 x hx)
      · exact e2 b hb x hx

/-- The result of running statements that agree with each other. -/
theorem run_spec {py2 : Bool} {l : List Act} {w w' : World}
    (hall : ∀ c ms ms', Act.ready c ms ∈ l → Act.ready c ms' ∈ l → ms = ms')
    (hnew : ∀ c ms, Act.ready c ms ∈ l → w.ready c = false)
    (hun : ∀ s n t t', (∃ a ∈ l, (s, n, t) ∈ effs a) → (∃ a ∈ l, (s, n, t') ∈ effs a) → t = t')
    (h : run py2 w l = some w') (s : Scope) (n : Str) (t : Thing) :
    w'.env s n = some t ↔ (∃ a ∈ l, (s, n, t) ∈ effs a) ∨
      (w.env s n = some t ∧ ∀ t', ¬ ∃ a ∈ l, (s, n, t') ∈ effs a) := by
  obtain ⟨h1, h2⟩ := run_bound (P := fun s n t => ∃ a ∈ l, (s, n, t) ∈ effs a) hall l (fun _ h => h)
    (fun a ha x hx => ⟨a, ha, hx⟩) (fun c ms hm hr => by rw [hnew c ms hm] at hr; cases hr) h
  have key : ∀ t', (∃ a ∈ l, (s, n, t') ∈ effs a) → w'.env s n = some t' := by
    intro t' ⟨a, ha, hx⟩
    obtain ⟨t2, e, hp⟩ := h2 a ha _ hx
    rw [hun s n t' t2 ⟨a, ha, hx⟩ hp]; exact e
  constructor
  · intro ht
    rcases run_sound l h ht with hx | hx
    · exact .inl hx
    · by_cases he : ∃ t', ∃ a ∈ l, (s, n, t') ∈ effs a
      · obtain ⟨t', ht'⟩ := he
        have := key t' ht'
        rw [ht] at this
        cases this
        exact .inl ht'
      · exact .inr ⟨hx, fun t' ht' => he ⟨t', ht'⟩⟩
  · rintro (hx | ⟨hx, hn⟩)
    · exact key t hx
    · -- nothing binds the name: its value is the old one
      have : ∀ (m : List Act) (w1 w2 : World), (∀ a ∈ m, a ∈ l) → run py2 w1 m = some w2 → w2.env s n = w1.env s n := by
        intro m
        induction m with
        | nil => intro w1 w2 _ h; cases h; rfl
        | cons a m ih =>
          intro w1 w2 hm h
          simp only [run] at h
          split at h
          · cases h
          · rename_i w3 h3
            rw [ih w3 w2 (fun b hb => hm b (List.mem_cons_of_mem _ hb)) h]
            have hno : ∀ t', (s, n, t') ∉ effs a := fun t' hx => hn t' ⟨a, hm a List.mem_cons_self, hx⟩
            match a with
            | .create path table =>
              simp only [step, Option.some.injEq] at h3
              subst h3
              rcases setAll_env (.module path) s n table
                { w1 with sys := if py2 then pyJoin ".".toList path :: w1.sys else w1.sys } with ⟨t', e1, e2, -⟩ | ⟨-, e⟩
              · exact absurd (List.mem_map.2 ⟨(n, t'), e2, by rw [e1]⟩) (hno t')
              · exact e
            | .ready c members =>
              simp only [step] at h3
              split at h3
              · cases h3; rfl
              · cases h3
                rcases setAll_env (.dict c) s n (members.map fun n => (n, Thing.member c n))
                  { w1 with ready := fun d => if d = c then true else w1.ready d } with ⟨t', e1, e2, -⟩ | ⟨-, e⟩
                · obtain ⟨k, hk, e⟩ := List.mem_map.1 e2
                  cases e
                  exact absurd (List.mem_map.2 ⟨n, hk, by rw [e1]⟩) (hno _)
                · exact e
            | .bind s' n' t' =>
              have hw : w3 = w1.set s' n' t' := by
                match s' with
                | .dict c =>
                  simp only [step] at h3
                  split at h3
                  · exact (Option.some.inj h3).symm
                  · cases h3
                | .module p => simp only [step] at h3; exact (Option.some.inj h3).symm
              subst hw
              rw [set_env, if_neg]
              rintro ⟨rfl, rfl⟩
              exact hno t' (by simp [effs])
      rw [this l w w' (fun _ h => h) h]; exact hx

/-! ## What the statements bind -/

theorem mem_firsts (n : Str) : ∀ (l seen : List Str), n ∈ Module.firsts seen l ↔ n ∈ l ∧ n ∉ seen
  | [], _ => by simp [Module.firsts]
  | s :: r, seen => by
    simp only [Module.firsts]
    split
    · rename_i hs
      rw [mem_firsts n r seen, List.mem_cons]
      constructor
      · exact fun h => ⟨.inr h.1, h.2⟩
      · rintro ⟨rfl | h, h'⟩
        · exact absurd hs h'
        · exact ⟨h, h'⟩
    · rename_i hs
      rw [List.mem_cons, mem_firsts n r (s :: seen), List.mem_cons, List.mem_cons, not_or]
      constructor
      · rintro (rfl | ⟨h1, h2, h3⟩)
        · exact ⟨.inl rfl, hs⟩
        · exact ⟨.inr h1, h3⟩
      · rintro ⟨rfl | h, h'⟩
        · exact .inl rfl
        · by_cases e : n = s
          · exact .inl e
          · exact .inr ⟨h, e, h'⟩

theorem mem_table (o : Own) (n : Str) (t : Thing) : (n, t) ∈ o.table ↔
    ∃ f ∈ o.fns, f.ok = true ∧ n = o.fnName f ∧
      t = .function (o.fns.filter fun g => o.fnName g = o.fnName f ∧ g.ok = true) := by
  have hm : ∀ k, (Module.members (o.fns.map fun f => (o.fnName f, f)) k).filter (·.ok) =
      o.fns.filter fun g => o.fnName g = k ∧ g.ok = true := by
    intro k
    simp only [Module.members, List.filter_map, List.map_map, List.filter_filter]
    rw [show ((fun x : Str × Fn => x.2) ∘ fun f : Fn => (o.fnName f, f)) = id from rfl, List.map_id]
    congr 1
    funext g
    simp only [Function.comp, Bool.decide_and, Bool.and_comm, Bool.decide_eq_true, id_eq]
  have hfn : o.functions = (Module.firstNames (o.fns.map fun f => (o.fnName f, f))).map fun k =>
      (k, Module.members (o.fns.map fun f => (o.fnName f, f)) k) := Module.C50_overload_sets _
  simp only [Own.table, hfn, List.filterMap_map, List.mem_filterMap, Function.comp, hm, Module.firstNames, mem_firsts,
    List.map_map, List.not_mem_nil, not_false_eq_true, and_true]
  constructor
  · rintro ⟨k, hk, h⟩
    split at h
    · cases h
    · rename_i hne
      cases h
      obtain ⟨f, hf⟩ := List.exists_mem_of_ne_nil _ hne
      obtain ⟨h1, h2⟩ := List.mem_filter.1 hf
      have h2 := of_decide_eq_true h2
      exact ⟨f, h1, h2.2, h2.1.symm, by rw [h2.1]⟩
  · rintro ⟨f, hf, hk, rfl, rfl⟩
    refine ⟨o.fnName f, List.mem_map.2 ⟨f, hf, rfl⟩, ?_⟩
    rw [if_neg]
    intro he
    have : f ∈ o.fns.filter fun g => o.fnName g = o.fnName f ∧ g.ok = true :=
      List.mem_filter.2 ⟨hf, decide_eq_true ⟨rfl, hk⟩⟩
    rw [he] at this; cases this

theorem mem_allActs {α : Type} {f : α → PyRes (List Act)} : ∀ (l : List α) {as : List Act}, allActs f l = .ok as →
    ∀ a, a ∈ as ↔ ∃ x ∈ l, ∃ b, f x = .ok b ∧ a ∈ b
  | [], as, h, a => by cases h; simp
  | x :: l, as, h, a => by
    simp only [allActs] at h
    split at h
    · cases h
    · rename_i b hb
      split at h
      · cases h
      · rename_i b' hb'
        cases h
        rw [List.mem_append, mem_allActs l hb' a]
        constructor
        · rintro (h | ⟨y, hy, c, hc⟩)
          · exact ⟨x, List.mem_cons_self, b, hb, h⟩
          · exact ⟨y, List.mem_cons_of_mem _ hy, c, hc⟩
        · rintro ⟨y, hy, c, hc, ha⟩
          rcases List.mem_cons.1 hy with rfl | hy
          · rw [hb] at hc; cases hc; exact .inl ha
          · exact .inr ⟨y, hy, c, hc, ha⟩

theorem allActs_ok {α : Type} {f : α → PyRes (List Act)} : ∀ (l : List α) {as : List Act}, allActs f l = .ok as →
    ∀ x ∈ l, ∃ b, f x = .ok b
  | [], _, _, _, hx => by cases hx
  | y :: l, as, h, x, hx => by
    simp only [allActs] at h
    split at h
    · cases h
    · rename_i b hb
      split at h
      · cases h
      · rename_i b' hb'
        rcases List.mem_cons.1 hx with rfl | hx
        · exact ⟨b, hb⟩
        · exact allActs_ok l hb' x hx

theorem mem_ordered (o : Own) (c : Class) : c ∈ o.ordered ↔ c ∈ o.classes := by
  simp only [Own.ordered, List.mem_append, List.mem_filter]
  cases h : c.cls.imported <;> simp

theorem asLong_id {v : Int} (h : -2 ^ 63 ≤ v ∧ v < 2 ^ 63) : asLong v = v := by
  unfold asLong
  rw [Int.emod_eq_of_lt (by omega) (by omega)]; omega

/-- Enum constants. -/
theorem mem_enumActs {val : Str → Int} (hv : ∀ x, -2 ^ 63 ≤ val x ∧ val x < 2 ^ 63) (path : List Str) (e : EnumDecl)
    (hp : PathOk e.path) (ho : ∀ c, e.outer = some c → c.Ok ∧ e.valuesPrefix = []) (x : Act) :
    x ∈ enumActs val path e ↔ e.imported = false ∧ ∃ v ∈ e.values, x = .bind (place path e.outer) v.name (.int (val (e.expected v))) := by
  unfold enumActs
  cases hi : e.imported with
  | true =>
    rw [C58_imported e hi]; simp
  | false =>
    obtain ⟨h1, h2, h3⟩ := C58_constants_partial e hi hp ho
    have hg : e.generate.map (fun s => (s.place, s.name, s.expr)) = e.values.map fun v => (e.outer, v.name, e.expected v) := by
      have hl : e.generate.length = e.values.length := by
        have := congrArg List.length h1; simpa using this
      apply List.ext_getElem
      · simpa using hl
      · intro i hi1 hi2
        simp only [List.getElem_map]
        have hi1' : i < e.generate.length := by simpa using hi1
        have e1 : (e.generate.map ConstStmt.name)[i]'(by simpa using hi1) = (e.values.map EnumVal.name)[i]'(by simpa using hi2) := by
          simp only [h1]
        have e2 : (e.generate.map ConstStmt.expr)[i]'(by simpa using hi1) = (e.values.map e.expected)[i]'(by simpa using hi2) := by
          simp only [h2]
        simp only [List.getElem_map] at e1 e2
        rw [e1, e2, h3 _ (List.getElem_mem hi1')]
    have hf : e.generate.map (constAct val path) =
        (e.generate.map (fun s => (s.place, s.name, s.expr))).map
          fun p => Act.bind (place path p.1) p.2.1 (.int (asLong (val p.2.2))) := by
      rw [List.map_map]
      apply List.map_congr_left
      intro s _
      cases s <;> rfl
    rw [hf, hg, List.map_map]
    simp only [true_and, List.mem_map, Function.comp]
    constructor
    · rintro ⟨v, hv', rfl⟩
      exact ⟨v, hv', by rw [asLong_id (hv _)]⟩
    · rintro ⟨v, hv', rfl⟩
      exact ⟨v, hv', by rw [asLong_id (hv _)]⟩

/-- What one module declares itself. -/
inductive OwnSays (cfg : Imports.Settings) (val : Str → Int) (path : List Str) (o : Own) : Triple → Prop where
  | function {f : Fn} (h : f ∈ o.fns) (hk : f.ok = true) :
    OwnSays cfg val path o (.module path, o.fnName f, .function (o.fns.filter fun g => o.fnName g = o.fnName f ∧ g.ok = true))
  | class {c : Class} (h : c ∈ o.classes) (hi : c.cls.imported = false) :
    OwnSays cfg val path o (place path (outerOf c.cls.decl), c.cls.pythonName, .type c.cls.decl)
  | container {c : Cont} (h : c ∈ o.conts) : OwnSays cfg val path o (place path c.outer, c.pythonName, .container c)
  | exception {e : ExcDecl} (h : e ∈ o.excs) (hs : e.isStandard = false) :
    OwnSays cfg val path o (place path e.outer, e.pythonName, .exception e)
  | typedef {c : ClassDecl} {n : Str} (h : (c, n) ∈ o.typedefs) : OwnSays cfg val path o (.module path, n, .type c)
  | enum {e : EnumDecl} {v : EnumVal} (h : e ∈ o.enums) (hi : e.imported = false) (hv : v ∈ e.values) :
    OwnSays cfg val path o (place path e.outer, v.name, .int (val (e.expected v)))
  | member {c : Class} {n : Str} (h : c ∈ o.classes) (hi : c.cls.imported = false) (hn : n ∈ c.members) :
    OwnSays cfg val path o (.dict c.cls.decl, n, .member c.cls.decl n)
  | iterator {c : Class} (h : c ∈ o.classes) (hi : c.cls.imported = false) (ht : c.iterable = true) :
    OwnSays cfg val path o (.module path, c.cls.pythonName ++ "Iter".toList, .iterator c.cls.decl)
  | containerIter {c : Cont} (h : c ∈ o.conts) :
    OwnSays cfg val path o (place path c.outer, c.pythonName ++ "Iter".toList, .containerIter c)
  | typeMap {c : Class} (h : c ∈ o.classes) (hi : c.cls.imported = false) (hn : c.cls.narrow = .self) :
    OwnSays cfg val path o (.module path, '_' :: Imports.typeMapName cfg c.cls.decl, .pointer (Imports.typeMapName cfg c.cls.decl))
  | registry {c : Class} (h : c ∈ o.classes) (hi : c.cls.imported = false) (hb : c.cls.bases = []) (hs : cfg.stdMap = true) :
    OwnSays cfg val path o (.module path, '_' :: Imports.registryName cfg c.cls.decl, .pointer (Imports.registryName cfg c.cls.decl))

def Says (cfg : Imports.Settings) (val : Str → Int) (path : List Str) (m : Mod) (x : Triple) : Prop :=
  Declares val path m x.1 x.2.1 x.2.2 ∨ Implied cfg path m x.1 x.2.1 x.2.2

theorem says_iff (cfg : Imports.Settings) (val : Str → Int) (path : List Str) (m : Mod) (x : Triple) :
    Says cfg val path m x ↔ OwnSays cfg val path m.own x ∨
      ∃ k ∈ m.subs, x = (.module path, k.own.name, .module (path ++ [k.own.name])) ∨ Says cfg val (path ++ [k.own.name]) k x := by
  obtain ⟨s, n, t⟩ := x
  unfold Says
  dsimp only
  constructor
  · rintro (h | h)
    · cases h with
      | function h hk => exact .inl (.function h hk)
      | «class» h hi => exact .inl (.class h hi)
      | container h => exact .inl (.container h)
      | exception h hs => exact .inl (.exception h hs)
      | typedef h => exact .inl (.typedef h)
      | enum h hi hv => exact .inl (.enum h hi hv)
      | submodule h => exact .inr ⟨_, h, .inl rfl⟩
      | inside h hd => exact .inr ⟨_, h, .inr (.inl hd)⟩
    · cases h with
      | member h hi hn => exact .inl (.member h hi hn)
      | iterator h hi ht => exact .inl (.iterator h hi ht)
      | containerIter h => exact .inl (.containerIter h)
      | typeMap h hi hn => exact .inl (.typeMap h hi hn)
      | registry h hi hb hs => exact .inl (.registry h hi hb hs)
      | inside h hd => exact .inr ⟨_, h, .inr (.inr hd)⟩
  · rintro (h | ⟨k, hk, h | h | h⟩)
    · cases h with
      | function h hk => exact .inl (.function h hk)
      | «class» h hi => exact .inl (.class h hi)
      | container h => exact .inl (.container h)
      | exception h hs => exact .inl (.exception h hs)
      | typedef h => exact .inl (.typedef h)
      | enum h hi hv => exact .inl (.enum h hi hv)
      | member h hi hn => exact .inr (.member h hi hn)
      | iterator h hi ht => exact .inr (.iterator h hi ht)
      | containerIter h => exact .inr (.containerIter h)
      | typeMap h hi hn => exact .inr (.typeMap h hi hn)
      | registry h hi hb hs => exact .inr (.registry h hi hb hs)
    · cases h; exact .inl (.submodule hk)
    · exact .inl (.inside hk h)
    · exact .inr (.inside hk h)

/-- The statements of a class. -/
theorem mem_classActs {cfg : Imports.Settings} {path : List Str} {c : Class} {as : List Act}
    (h : classActs cfg path c = .ok as) (a : Act) : a ∈ as ↔ c.cls.imported = false ∧
      ((c.cls.narrow = .self ∧ a = .bind (.module path) ('_' :: Imports.typeMapName cfg c.cls.decl) (.pointer (Imports.typeMapName cfg c.cls.decl))) ∨
       ((c.cls.bases = [] ∧ cfg.stdMap = true) ∧ a = .bind (.module path) ('_' :: Imports.registryName cfg c.cls.decl) (.pointer (Imports.registryName cfg c.cls.decl))) ∨
       a = .ready c.cls.decl c.members ∨
       a = .bind (place path (outerOf c.cls.decl)) c.cls.pythonName (.type c.cls.decl) ∨
       (c.iterable = true ∧ a = .bind (.module path) (c.cls.pythonName ++ "Iter".toList) (.iterator c.cls.decl))) := by
  unfold classActs at h
  split at h
  · rename_i hi
    cases h; simp [hi]
  · rename_i hi
    split at h
    · cases h
    · have hi : c.cls.imported = false := by simpa using hi
      have := Except.ok.inj h
      subst this
      generalize "Iter".toList = it
      simp only [List.mem_append, hi, true_and, Imports.hidden]
      constructor
      · rintro (((h | h) | h) | h)
        · split at h
          · rename_i hn; exact .inl ⟨hn, List.mem_singleton.1 h⟩
          · cases h
        · split at h
          · rename_i hn; exact .inr (.inl ⟨hn, List.mem_singleton.1 h⟩)
          · cases h
        · rcases List.mem_cons.1 h with h | h
          · exact .inr (.inr (.inl h))
          · exact .inr (.inr (.inr (.inl (List.mem_singleton.1 h))))
        · split at h
          · rename_i hn; exact .inr (.inr (.inr (.inr ⟨hn, List.mem_singleton.1 h⟩)))
          · cases h
      · rintro (⟨h, rfl⟩ | ⟨h, rfl⟩ | rfl | rfl | ⟨h, rfl⟩)
        · exact .inl (.inl (.inl (by rw [if_pos h]; exact List.mem_singleton.2 rfl)))
        · exact .inl (.inl (.inr (by rw [if_pos h]; exact List.mem_singleton.2 rfl)))
        · exact .inl (.inr List.mem_cons_self)
        · exact .inl (.inr (List.mem_cons_of_mem _ List.mem_cons_self))
        · exact .inr (by rw [if_pos h]; exact List.mem_singleton.2 rfl)

theorem own_effs {cfg : Imports.Settings} {val : Str → Int} (hv : ∀ x, -2 ^ 63 ≤ val x ∧ val x < 2 ^ 63)
    {path : List Str} {o : Own} (he : ∀ e ∈ o.enums, PathOk e.path ∧ ∀ c, e.outer = some c → c.Ok ∧ e.valuesPrefix = [])
    {as : List Act} (h : ownActs cfg val path o = .ok as) (x : Triple) :
    (∃ a ∈ as, x ∈ effs a) ↔ OwnSays cfg val path o x := by
  unfold ownActs at h
  split at h
  · cases h
  · rename_i cs hcs
    have := Except.ok.inj h
    subst this
    have hmc := mem_allActs _ hcs
    have hok := allActs_ok _ hcs
    constructor
    · rintro ⟨a, ha, hx⟩
      rcases List.mem_cons.1 ha with rfl | ha
      · obtain ⟨⟨n, t⟩, hp, rfl⟩ := List.mem_map.1 hx
        obtain ⟨f, h1, h2, rfl, rfl⟩ := (mem_table ..).1 hp
        exact .function h1 h2
      simp only [List.mem_append] at ha
      rcases ha with (((ha | ha) | ha) | ha) | ha
      · obtain ⟨c, hc, b, hb, hab⟩ := (hmc a).1 ha
        rw [mem_ordered] at hc
        obtain ⟨hi, h | h | rfl | rfl | h⟩ := (mem_classActs hb a).1 hab
        · obtain ⟨hn, rfl⟩ := h
          rw [List.mem_singleton.1 hx]; exact .typeMap hc hi hn
        · obtain ⟨hn, rfl⟩ := h
          rw [List.mem_singleton.1 hx]; exact .registry hc hi hn.1 hn.2
        · obtain ⟨n, hn, rfl⟩ := List.mem_map.1 hx
          exact .member hc hi hn
        · rw [List.mem_singleton.1 hx]; exact .class hc hi
        · obtain ⟨hn, rfl⟩ := h
          rw [List.mem_singleton.1 hx]; exact .iterator hc hi hn
      · obtain ⟨c, hc, hac⟩ := List.mem_flatMap.1 ha
        rcases List.mem_cons.1 hac with rfl | hac
        · rw [List.mem_singleton.1 hx]; exact .container hc
        · rw [List.mem_singleton.1 hac] at hx
          rw [List.mem_singleton.1 hx]; exact .containerIter hc
      · obtain ⟨e, hc, hac⟩ := List.mem_flatMap.1 ha
        unfold excActs at hac
        split at hac
        · cases hac
        · rename_i hs
          rw [List.mem_singleton.1 hac] at hx
          rw [List.mem_singleton.1 hx]; exact .exception hc (by simpa using hs)
      · obtain ⟨⟨c, n⟩, hc, rfl⟩ := List.mem_map.1 ha
        rw [List.mem_singleton.1 hx]; exact .typedef hc
      · obtain ⟨e, hc, hac⟩ := List.mem_flatMap.1 ha
        obtain ⟨hi, v, hv', rfl⟩ := (mem_enumActs hv path e (he e hc).1 (he e hc).2 a).1 hac
        rw [List.mem_singleton.1 hx]; exact .enum hc hi hv'
    · intro h
      have hcls : ∀ {c : Class}, c ∈ o.classes → ∃ b, classActs cfg path c = .ok b ∧ ∀ a ∈ b, a ∈
          (Act.create path o.table :: (cs ++ o.conts.flatMap (contActs path) ++ o.excs.flatMap (excActs path)
            ++ o.typedefs.map (fun t => .bind (.module path) t.2 (.type t.1)) ++ o.enums.flatMap (enumActs val path))) := by
        intro c hc
        have hc := (mem_ordered o c).2 hc
        obtain ⟨b, hb⟩ := hok c hc
        refine ⟨b, hb, fun a ha => List.mem_cons_of_mem _ ?_⟩
        simp only [List.mem_append]
        exact .inl (.inl (.inl (.inl ((hmc a).2 ⟨c, hc, b, hb, ha⟩))))
      cases h with
      | function h hk => exact ⟨_, List.mem_cons_self, List.mem_map.2 ⟨_, (mem_table o _ _).2 ⟨_, h, hk, rfl, rfl⟩, rfl⟩⟩
      | «class» h hi =>
        obtain ⟨b, hb, hin⟩ := hcls h
        exact ⟨_, hin _ ((mem_classActs hb _).2 ⟨hi, .inr (.inr (.inr (.inl rfl)))⟩), List.mem_singleton.2 rfl⟩
      | member h hi hn =>
        obtain ⟨b, hb, hin⟩ := hcls h
        exact ⟨_, hin _ ((mem_classActs hb _).2 ⟨hi, .inr (.inr (.inl rfl))⟩), List.mem_map.2 ⟨_, hn, rfl⟩⟩
      | iterator h hi ht =>
        obtain ⟨b, hb, hin⟩ := hcls h
        exact ⟨_, hin _ ((mem_classActs hb _).2 ⟨hi, .inr (.inr (.inr (.inr ⟨ht, rfl⟩)))⟩), List.mem_singleton.2 rfl⟩
      | typeMap h hi hn =>
        obtain ⟨b, hb, hin⟩ := hcls h
        exact ⟨_, hin _ ((mem_classActs hb _).2 ⟨hi, .inl ⟨hn, rfl⟩⟩), List.mem_singleton.2 rfl⟩
      | registry h hi h1 h2 =>
        obtain ⟨b, hb, hin⟩ := hcls h
        exact ⟨_, hin _ ((mem_classActs hb _).2 ⟨hi, .inr (.inl ⟨⟨h1, h2⟩, rfl⟩)⟩), List.mem_singleton.2 rfl⟩
      | @container c h =>
        refine ⟨.bind (place path c.outer) c.pythonName (.container c), List.mem_cons_of_mem _ ?_, List.mem_singleton.2 rfl⟩
        simp only [List.mem_append]
        exact .inl (.inl (.inl (.inr (List.mem_flatMap.2 ⟨c, h, List.mem_cons_self⟩))))
      | @containerIter c h =>
        refine ⟨.bind (place path c.outer) (c.pythonName ++ "Iter".toList) (.containerIter c), List.mem_cons_of_mem _ ?_, List.mem_singleton.2 rfl⟩
        simp only [List.mem_append]
        exact .inl (.inl (.inl (.inr (List.mem_flatMap.2 ⟨c, h, List.mem_cons_of_mem _ List.mem_cons_self⟩))))
      | @exception e h hs =>
        refine ⟨.bind (place path e.outer) e.pythonName (.exception e), List.mem_cons_of_mem _ ?_, List.mem_singleton.2 rfl⟩
        simp only [List.mem_append]
        refine .inl (.inl (.inr (List.mem_flatMap.2 ⟨e, h, ?_⟩)))
        unfold excActs
        rw [if_neg (by simp [hs])]; exact List.mem_singleton.2 rfl
      | @typedef c n h =>
        refine ⟨.bind (.module path) n (.type c), List.mem_cons_of_mem _ ?_, List.mem_singleton.2 rfl⟩
        simp only [List.mem_append]
        exact .inl (.inr (List.mem_map.2 ⟨_, h, rfl⟩))
      | @enum e v h hi hv' =>
        refine ⟨.bind (place path e.outer) v.name (.int (val (e.expected v))), List.mem_cons_of_mem _ ?_, List.mem_singleton.2 rfl⟩
        simp only [List.mem_append]
        exact .inr (List.mem_flatMap.2 ⟨e, h, (mem_enumActs hv path e (he e h).1 (he e h).2 _).2 ⟨hi, v, hv', rfl⟩⟩)

mutual
theorem acts_effs {cfg : Imports.Settings} {val : Str → Int} : ∀ (m : Mod) (_ : EnumsOk val m) {path : List Str}
    {as : List Act} (_ : m.acts cfg val path = .ok as) (x : Triple), (∃ a ∈ as, x ∈ effs a) ↔ Says cfg val path m x
  | .mk o subs, he, path, as, h, x => by
    simp only [Mod.acts] at h
    split at h
    · cases h
    · rename_i a ha
      split at h
      · cases h
      · rename_i b hb
        have := Except.ok.inj h
        subst this
        rw [says_iff]
        have h1 := own_effs he.1 (he.2 _ .self) ha x
        have h2 := subs_effs subs ⟨he.1, fun k hk => fun y hy => he.2 y (.sub hk hy)⟩ hb x
        constructor
        · rintro ⟨c, hc, hx⟩
          rcases List.mem_append.1 hc with hc | hc
          · exact .inl (h1.1 ⟨c, hc, hx⟩)
          · exact .inr (h2.1 ⟨c, hc, hx⟩)
        · rintro (h | h)
          · obtain ⟨c, hc, hx⟩ := h1.2 h
            exact ⟨c, List.mem_append_left _ hc, hx⟩
          · obtain ⟨c, hc, hx⟩ := h2.2 h
            exact ⟨c, List.mem_append_right _ hc, hx⟩
theorem subs_effs {cfg : Imports.Settings} {val : Str → Int} : ∀ (l : List Mod)
    (_ : (∀ x, -2 ^ 63 ≤ val x ∧ val x < 2 ^ 63) ∧ ∀ k ∈ l, ∀ y, k.Has y → ∀ e ∈ y.own.enums, PathOk e.path ∧
      ∀ c, e.outer = some c → c.Ok ∧ e.valuesPrefix = []) {path : List Str}
    {as : List Act} (_ : subActs cfg val path l = .ok as) (x : Triple), (∃ a ∈ as, x ∈ effs a) ↔
      ∃ k ∈ l, x = (.module path, k.own.name, .module (path ++ [k.own.name])) ∨ Says cfg val (path ++ [k.own.name]) k x
  | [], _, path, as, h, x => by
    cases h; simp
  | .mk o ss :: l, he, path, as, h, x => by
    simp only [subActs] at h
    split at h
    · cases h
    · rename_i a ha
      split at h
      · cases h
      · rename_i b hb
        have := Except.ok.inj h
        subst this
        have h1 := acts_effs (.mk o ss) ⟨he.1, he.2 _ List.mem_cons_self⟩ ha x
        have h2 := subs_effs l ⟨he.1, fun k hk => he.2 k (List.mem_cons_of_mem _ hk)⟩ hb x
        constructor
        · rintro ⟨c, hc, hx⟩
          rcases List.mem_append.1 hc with hc | hc
          · exact ⟨_, List.mem_cons_self, .inr (h1.1 ⟨c, hc, hx⟩)⟩
          · rcases List.mem_cons.1 hc with rfl | hc
            · exact ⟨_, List.mem_cons_self, .inl (List.mem_singleton.1 hx)⟩
            · obtain ⟨k, hk, hh⟩ := h2.1 ⟨c, hc, hx⟩
              exact ⟨k, List.mem_cons_of_mem _ hk, hh⟩
        · rintro ⟨k, hk, hh⟩
          rcases List.mem_cons.1 hk with rfl | hk
          · rcases hh with rfl | hh
            · exact ⟨_, List.mem_append_right _ List.mem_cons_self, List.mem_singleton.2 rfl⟩
            · obtain ⟨c, hc, hx⟩ := h1.2 hh
              exact ⟨c, List.mem_append_left _ hc, hx⟩
          · obtain ⟨c, hc, hx⟩ := h2.2 ⟨k, hk, hh⟩
            exact ⟨c, List.mem_append_right _ (List.mem_cons_of_mem _ hc), hx⟩
end

theorem own_ready {cfg : Imports.Settings} {val : Str → Int} {path : List Str} {o : Own} {as : List Act}
    (h : ownActs cfg val path o = .ok as) {c : ClassDecl} {ms : List Str} (hr : Act.ready c ms ∈ as) :
    ∃ x ∈ o.classes, x.cls.imported = false ∧ x.cls.decl = c ∧ x.members = ms := by
  unfold ownActs at h
  split at h
  · cases h
  · rename_i cs hcs
    have := Except.ok.inj h
    subst this
    simp only [List.mem_cons, List.mem_append, reduceCtorEq, false_or] at hr
    rcases hr with (((hr | hr) | hr) | hr) | hr
    · obtain ⟨x, hx, b, hb, hab⟩ := (mem_allActs _ hcs _).1 hr
      rw [mem_ordered] at hx
      obtain ⟨hi, h | h | h | h | h⟩ := (mem_classActs hb _).1 hab
      · cases h.2
      · cases h.2
      · cases h; exact ⟨x, hx, hi, rfl, rfl⟩
      · cases h
      · cases h.2
    · obtain ⟨x, -, hx⟩ := List.mem_flatMap.1 hr
      rcases List.mem_cons.1 hx with hx | hx
      · cases hx
      · cases List.mem_singleton.1 hx
    · obtain ⟨x, -, hx⟩ := List.mem_flatMap.1 hr
      unfold excActs at hx
      split at hx
      · cases hx
      · cases List.mem_singleton.1 hx
    · obtain ⟨x, -, hx⟩ := List.mem_map.1 hr
      cases hx
    · obtain ⟨x, -, hx⟩ := List.mem_flatMap.1 hr
      obtain ⟨y, -, hy⟩ := List.mem_map.1 hx
      cases y <;> cases hy

mutual
theorem acts_ready {cfg : Imports.Settings} {val : Str → Int} {c : ClassDecl} {ms : List Str} : ∀ (m : Mod)
    {path : List Str} {as : List Act} (_ : m.acts cfg val path = .ok as) (_ : Act.ready c ms ∈ as),
    ∃ k, m.Has k ∧ ∃ x ∈ k.own.classes, x.cls.imported = false ∧ x.cls.decl = c ∧ x.members = ms
  | .mk o subs, path, as, h, hr => by
    simp only [Mod.acts] at h
    split at h
    · cases h
    · rename_i a ha
      split at h
      · cases h
      · rename_i b hb
        have := Except.ok.inj h
        subst this
        rcases List.mem_append.1 hr with hr | hr
        · exact ⟨_, .self, own_ready ha hr⟩
        · obtain ⟨k, hk, y, hy, hx⟩ := subs_ready subs hb hr
          exact ⟨y, .sub hk hy, hx⟩
theorem subs_ready {cfg : Imports.Settings} {val : Str → Int} {c : ClassDecl} {ms : List Str} : ∀ (l : List Mod)
    {path : List Str} {as : List Act} (_ : subActs cfg val path l = .ok as) (_ : Act.ready c ms ∈ as),
    ∃ k ∈ l, ∃ y, k.Has y ∧ ∃ x ∈ y.own.classes, x.cls.imported = false ∧ x.cls.decl = c ∧ x.members = ms
  | [], path, as, h, hr => by cases h; cases hr
  | .mk o ss :: l, path, as, h, hr => by
    simp only [subActs] at h
    split at h
    · cases h
    · rename_i a ha
      split at h
      · cases h
      · rename_i b hb
        have := Except.ok.inj h
        subst this
        rcases List.mem_append.1 hr with hr | hr
        · obtain ⟨k, hk, hx⟩ := acts_ready (.mk o ss) ha hr
          exact ⟨_, List.mem_cons_self, k, hk, hx⟩
        · rcases List.mem_cons.1 hr with hr | hr
          · cases hr
          · obtain ⟨k, hk, hx⟩ := subs_ready l hb hr
            exact ⟨k, List.mem_cons_of_mem _ hk, hx⟩
end

end Verif.Bindings
