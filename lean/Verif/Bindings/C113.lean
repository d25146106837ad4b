import Verif.Bindings.Props

/-!
# C113: theorems
-/
namespace Verif.Bindings
open Verif Verif.Names

/-- The names of the module, its submodules and its classes after the import. -/
theorem C113_names_partial {cfg : Imports.Settings} {val : Str → Int} {m : Mod} {acts : List Act} {py2 : Bool} {w w' : World}
    (hgen : m.acts cfg val [m.own.name] = .ok acts) (henums : EnumsOk val m)
    (hunamb : Unambiguous cfg val [m.own.name] m) (hnew : ClassesNew w m)
    (himp : importModule py2 w m acts = some w') (s : Scope) (n : Str) (t : Thing) :
    w'.env s n = some t ↔
      (Declares val [m.own.name] m s n t ∨ Implied cfg [m.own.name] m s n t) ∨
      (w.env s n = some t ∧ ∀ t', ¬ (Declares val [m.own.name] m s n t' ∨ Implied cfg [m.own.name] m s n t')) := by
  unfold importModule at himp
  obtain ⟨w1, hrun, rfl⟩ := Option.map_eq_some_iff.1 himp
  have hs : ∀ s n t, (∃ a ∈ acts, (s, n, t) ∈ effs a) ↔
      Declares val [m.own.name] m s n t ∨ Implied cfg [m.own.name] m s n t :=
    fun s n t => acts_effs m henums hgen (s, n, t)
  have := run_spec (py2 := py2) (l := acts) (w := w) (w' := w1)
    (fun c ms ms' h1 h2 => by
      obtain ⟨k, hk, x, hx, hi, rfl, rfl⟩ := acts_ready m hgen h1
      obtain ⟨k', hk', x', hx', hi', he, rfl⟩ := acts_ready m hgen h2
      exact ((hnew k hk x hx hi).2 k' hk' x' hx' hi' he).symm)
    (fun c ms h1 => by
      obtain ⟨k, hk, x, hx, hi, rfl, -⟩ := acts_ready m hgen h1
      exact (hnew k hk x hx hi).1)
    (fun s n t t' h1 h2 => hunamb s n t t' ((hs ..).1 h1) ((hs ..).1 h2)) hrun s n t
  simp only [hs] at this
  exact this

/-- The pointers' names begin with `_Py`. -/
theorem C113_pointers_hidden {cfg : Imports.Settings} {path : List Str} {m : Mod} {s : Scope} {n : Str} {v : Str}
    (h : Implied cfg path m s n (.pointer v)) : "_Py".toList <+: n := by
  generalize ht : Thing.pointer v = t at h
  induction h with
  | typeMap h hi hn =>
    exact ⟨_, by rw [Imports.typeMapName, ClassDecl.pystruct, List.append_assoc, List.append_assoc]; rfl⟩
  | registry h hi hb hs =>
    exact ⟨_, by rw [Imports.registryName, ClassDecl.pystruct, List.append_assoc, List.append_assoc]; rfl⟩
  | inside h hd ih => exact ih ht
  | member | iterator | containerIter => cases ht

/-! ## Generation and import succeed -/

theorem allActs_iff {α : Type} {f : α → PyRes (List Act)} : ∀ (l : List α),
    (∃ as, allActs f l = .ok as) ↔ ∀ x ∈ l, ∃ b, f x = .ok b
  | [] => ⟨fun _ _ h => (by cases h), fun _ => ⟨[], rfl⟩⟩
  | x :: l => by
    constructor
    · rintro ⟨as, h⟩; exact allActs_ok _ h
    · intro h
      obtain ⟨b, hb⟩ := h x List.mem_cons_self
      obtain ⟨c, hc⟩ := (allActs_iff l).2 fun y hy => h y (List.mem_cons_of_mem _ hy)
      exact ⟨b ++ c, by simp only [allActs, hb, hc]⟩

theorem ownActs_iff (cfg : Imports.Settings) (val : Str → Int) (path : List Str) (o : Own) :
    (∃ as, ownActs cfg val path o = .ok as) ↔
      ∀ c ∈ o.classes, c.cls.imported = false → c.iterable = true → outerOf c.cls.decl = none := by
  have : (∃ as, ownActs cfg val path o = .ok as) ↔ ∃ as, allActs (classActs cfg path) o.ordered = .ok as := by
    unfold ownActs
    constructor
    · rintro ⟨as, h⟩
      split at h
      · cases h
      · rename_i cs hcs; exact ⟨cs, hcs⟩
    · rintro ⟨cs, h⟩
      rw [h]; exact ⟨_, rfl⟩
  rw [this, allActs_iff]
  constructor
  · intro h c hc hi ht
    obtain ⟨b, hb⟩ := h c ((mem_ordered o c).2 hc)
    unfold classActs at hb
    rw [if_neg (by simp [hi])] at hb
    split at hb
    · cases hb
    · rename_i hn
      by_contra hne
      exact hn ⟨ht, hne⟩
  · intro h c hc
    have hc := (mem_ordered o c).1 hc
    unfold classActs
    cases hi : c.cls.imported with
    | true => exact ⟨[], rfl⟩
    | false =>
      simp only [Bool.false_eq_true, if_false]
      rw [if_neg fun hh => hh.2 (h c hc hi hh.1)]
      exact ⟨_, rfl⟩

mutual
/-- Code is generated unless a class inside another one was declared as a container. -/
theorem C113_generation (cfg : Imports.Settings) (val : Str → Int) : ∀ (m : Mod) (path : List Str),
    (∃ acts, m.acts cfg val path = .ok acts) ↔
      ∀ k, m.Has k → ∀ c ∈ k.own.classes, c.cls.imported = false → c.iterable = true → outerOf c.cls.decl = none
  | .mk o subs, path => by
    have h1 := ownActs_iff cfg val path o
    have h2 := subs_generation cfg val subs path
    constructor
    · rintro ⟨acts, h⟩ k hk
      simp only [Mod.acts] at h
      split at h
      · cases h
      · rename_i a ha
        split at h
        · cases h
        · rename_i b hb
          cases hk with
          | self => exact h1.1 ⟨a, ha⟩
          | sub hs hx => exact h2.1 ⟨b, hb⟩ _ hs k hx
    · intro h
      obtain ⟨a, ha⟩ := h1.2 (h _ .self)
      obtain ⟨b, hb⟩ := h2.2 fun k hk x hx => h x (.sub hk hx)
      exact ⟨a ++ b, by simp only [Mod.acts, ha, hb]⟩
theorem subs_generation (cfg : Imports.Settings) (val : Str → Int) : ∀ (l : List Mod) (path : List Str),
    (∃ acts, subActs cfg val path l = .ok acts) ↔ ∀ m ∈ l,
      ∀ k, m.Has k → ∀ c ∈ k.own.classes, c.cls.imported = false → c.iterable = true → outerOf c.cls.decl = none
  | [], path => ⟨fun _ _ h => (by cases h), fun _ => ⟨[], rfl⟩⟩
  | .mk o ss :: l, path => by
    have h1 := C113_generation cfg val (.mk o ss) (path ++ [o.name])
    have h2 := subs_generation cfg val l path
    constructor
    · rintro ⟨acts, h⟩ m hm
      simp only [subActs] at h
      split at h
      · cases h
      · rename_i a ha
        split at h
        · cases h
        · rename_i b hb
          rcases List.mem_cons.1 hm with rfl | hm
          · exact h1.1 ⟨a, ha⟩
          · exact h2.1 ⟨b, hb⟩ m hm
    · intro h
      obtain ⟨a, ha⟩ := h1.2 (h _ List.mem_cons_self)
      obtain ⟨b, hb⟩ := h2.2 fun k hk => h k (List.mem_cons_of_mem _ hk)
      exact ⟨a ++ .bind (.module path) o.name (.module (path ++ [o.name])) :: b, by simp only [subActs, ha, hb]⟩
end

/-- Running the statements succeeds exactly if everything that goes into a class comes after the class. -/
theorem run_succeeds (py2 : Bool) : ∀ (l : List Act) (w : World),
    (∃ w', run py2 w l = some w') ↔
      ∀ pre c n t post, l = pre ++ .bind (.dict c) n t :: post → w.ready c = true ∨ ∃ ms, Act.ready c ms ∈ pre
  | [], w => ⟨fun _ pre c n t post h => (by cases pre <;> cases h), fun _ => ⟨w, rfl⟩⟩
  | a :: l, w => by
    have key : ∀ w1, step py2 w a = some w1 → ∀ c, w1.ready c = true ↔ w.ready c = true ∨ ∃ ms, a = .ready c ms := by
      intro w1 h c
      match a with
      | .create path table =>
        simp only [step, Option.some.injEq] at h
        subst h; rw [setAll_ready]; simp
      | .ready d ms =>
        simp only [step] at h
        split at h
        · rename_i hr
          cases h
          constructor
          · exact .inl
          · rintro (h | ⟨ms', h⟩)
            · exact h
            · cases h; exact hr
        · cases h
          rw [setAll_ready]
          by_cases hd : c = d
          · subst hd; simp
          · simp only [hd, if_false]
            constructor
            · exact .inl
            · rintro (h | ⟨ms', h⟩)
              · exact h
              · cases h; exact absurd rfl hd
      | .bind (.dict d) n t =>
        simp only [step] at h
        split at h
        · cases h; rw [set_ready]; simp
        · cases h
      | .bind (.module p) n t =>
        simp only [step, Option.some.injEq] at h
        subst h; rw [set_ready]; simp
    have hfail : step py2 w a = none ↔ ∃ c n t, a = .bind (.dict c) n t ∧ w.ready c = false := by
      match a with
      | .create path table => simp [step]
      | .ready d ms => simp only [step]; split <;> simp
      | .bind (.dict d) n t =>
        simp only [step]
        cases hd : w.ready d with
        | true =>
          simp only [if_true, reduceCtorEq, false_iff, not_exists]
          rintro c n' t' ⟨h, hc⟩
          cases h
          rw [hd] at hc; cases hc
        | false => simp only [Bool.false_eq_true, if_false, true_iff]; exact ⟨d, n, t, rfl, hd⟩
      | .bind (.module p) n t => simp [step]
    cases hs : step py2 w a with
    | none =>
      obtain ⟨c, n, t, rfl, hc⟩ := hfail.1 hs
      constructor
      · rintro ⟨w', h⟩
        simp only [run, hs] at h
        cases h
      · intro h
        rcases h [] c n t l rfl with h | ⟨ms, h⟩
        · rw [hc] at h; cases h
        · cases h
    | some w1 =>
      have ih := run_succeeds py2 l w1
      have : (∃ w', run py2 w (a :: l) = some w') ↔ ∃ w', run py2 w1 l = some w' := by simp only [run, hs]
      rw [this, ih]
      constructor
      · intro h pre c n t post e
        cases pre with
        | nil =>
          cases e
          left
          by_contra hr
          have hn := hfail.2 ⟨c, n, t, rfl, by simpa using hr⟩
          rw [hs] at hn
          cases hn
        | cons b pre =>
          cases e
          rcases h pre c n t post rfl with h | ⟨ms, h⟩
          · rcases (key w1 hs c).1 h with h | ⟨ms, h⟩
            · exact .inl h
            · exact .inr ⟨ms, by rw [h]; exact List.mem_cons_self⟩
          · exact .inr ⟨ms, List.mem_cons_of_mem _ h⟩
      · intro h pre c n t post e
        rcases h (a :: pre) c n t post (by rw [e]; rfl) with h | ⟨ms, h⟩
        · exact .inl ((key w1 hs c).2 (.inl h))
        · rcases List.mem_cons.1 h with h | h
          · exact .inl ((key w1 hs c).2 (.inr ⟨ms, h.symm⟩))
          · exact .inr ⟨ms, h⟩

/-- The import succeeds exactly if everything that goes into a class comes after the class. -/
theorem C113_import_succeeds (py2 : Bool) (w : World) (m : Mod) (acts : List Act) :
    (∃ w', importModule py2 w m acts = some w') ↔
      ∀ pre c n t post, acts = pre ++ .bind (.dict c) n t :: post → w.ready c = true ∨ ∃ ms, Act.ready c ms ∈ pre := by
  rw [← run_succeeds py2 acts w]
  unfold importModule
  constructor
  · rintro ⟨w', h⟩
    obtain ⟨w1, h1, -⟩ := Option.map_eq_some_iff.1 h
    exact ⟨w1, h1⟩
  · rintro ⟨w1, h⟩
    rw [h]; exact ⟨_, rfl⟩

/-! ## Functions -/

theorem own_create {cfg : Imports.Settings} {val : Str → Int} {path p : List Str} {o : Own} {t : List (Str × Thing)}
    {x : Act} {r : List Act} (ha : ownActs cfg val path o = .ok (x :: r)) : .create p t ∉ r := by
  intro hr
  unfold ownActs at ha
  split at ha
  · cases ha
  · rename_i cs hcs
    have := (List.cons.inj (Except.ok.inj ha)).2
    subst this
    simp only [List.mem_append] at hr
    rcases hr with (((hr | hr) | hr) | hr) | hr
    · obtain ⟨x, hx, b, hb, hab⟩ := (mem_allActs _ hcs _).1 hr
      obtain ⟨hi, h | h | h | h | h⟩ := (mem_classActs hb _).1 hab
      · cases h.2
      · cases h.2
      · cases h
      · cases h
      · cases h.2
    · obtain ⟨x, -, hx⟩ := List.mem_flatMap.1 hr
      rcases List.mem_cons.1 hx with hx | hx
      · cases hx
      · cases List.mem_singleton.1 hx
    · obtain ⟨x, -, hx⟩ := List.mem_flatMap.1 hr
      unfold excActs at hx
      split at hx
      · cases hx
      · cases List.mem_singleton.1 hx
    · obtain ⟨x, -, hx⟩ := List.mem_map.1 hr
      cases hx
    · obtain ⟨x, -, hx⟩ := List.mem_flatMap.1 hr
      obtain ⟨y, -, hy⟩ := List.mem_map.1 hx
      cases y <;> cases hy

mutual
theorem acts_create {cfg : Imports.Settings} {val : Str → Int} {p : List Str} {t : List (Str × Thing)} : ∀ (m : Mod)
    {path : List Str} {as : List Act}, m.acts cfg val path = .ok as →
    as.head? = some (.create path m.own.table) ∧ (.create p t ∈ as.tail → path.length < p.length)
  | .mk o subs, path, as, h => by
    simp only [Mod.acts] at h
    split at h
    · cases h
    · rename_i a ha
      split at h
      · cases h
      · rename_i b hb
        have := Except.ok.inj h
        subst this
        have hown : ∃ r, a = .create path o.table :: r ∧ .create p t ∉ r := by
          cases a with
          | nil => unfold ownActs at ha; split at ha <;> cases ha
          | cons x r =>
            have hx : x = .create path o.table := by
              unfold ownActs at ha
              split at ha
              · cases ha
              · cases Except.ok.inj ha; rfl
            subst hx
            exact ⟨r, rfl, own_create ha⟩
        obtain ⟨r, rfl, hr⟩ := hown
        refine ⟨rfl, fun hc => ?_⟩
        rcases List.mem_append.1 hc with hc | hc
        · exact absurd hc hr
        · exact subs_create subs hb hc
theorem subs_create {cfg : Imports.Settings} {val : Str → Int} {p : List Str} {t : List (Str × Thing)} : ∀ (l : List Mod)
    {path : List Str} {as : List Act}, subActs cfg val path l = .ok as → .create p t ∈ as → path.length < p.length
  | [], path, as, h, hc => by cases h; cases hc
  | .mk o ss :: l, path, as, h, hc => by
    simp only [subActs] at h
    split at h
    · cases h
    · rename_i a ha
      split at h
      · cases h
      · rename_i b hb
        have := Except.ok.inj h
        subst this
        obtain ⟨h1, h2⟩ := acts_create (p := p) (t := t) (.mk o ss) ha
        rcases List.mem_append.1 hc with hc | hc
        · cases a with
          | nil => cases hc
          | cons x r =>
            cases h1
            rcases List.mem_cons.1 hc with hc | hc
            · cases hc; simp
            · have := h2 hc
              simp at this; omega
        · rcases List.mem_cons.1 hc with hc | hc
          · cases hc
          · exact subs_create l hb hc
end

theorem run_append (py2 : Bool) : ∀ (l r : List Act) (w : World), run py2 w (l ++ r) = (run py2 w l).bind (run py2 · r)
  | [], r, w => rfl
  | a :: l, r, w => by
    simp only [List.cons_append, run]
    cases h : step py2 w a with
    | none => rfl
    | some w1 => exact run_append py2 l r w1

theorem function_hidden {cfg : Imports.Settings} {val : Str → Int} {m : Mod} {acts : List Act} {py2 : Bool}
    {w w' : World} (hgen : m.acts cfg val [m.own.name] = .ok acts) (himp : importModule py2 w m acts = some w')
    {n : Str} {t : Thing} (ht : ∀ fs, t ≠ .function fs) (hdecl : Act.bind (.module [m.own.name]) n t ∈ acts) (fs : List Fn) :
    w'.env (.module [m.own.name]) n ≠ some (.function fs) := by
  unfold importModule at himp
  obtain ⟨w1, hrun, rfl⟩ := Option.map_eq_some_iff.1 himp
  intro he
  have he : w1.env (.module [m.own.name]) n = some (.function fs) := he
  obtain ⟨pre, post, rfl⟩ := List.append_of_mem hdecl
  have hc : ∀ tb, Act.create [m.own.name] tb ∉ post := by
    intro tb hin
    obtain ⟨h1, h2⟩ := acts_create (p := [m.own.name]) (t := tb) m hgen
    have hmem : Act.create [m.own.name] tb ∈ (pre ++ .bind (.module [m.own.name]) n t :: post).tail := by
      cases pre with
      | nil => exact hin
      | cons a pre => exact List.mem_append_right _ (List.mem_cons_of_mem _ hin)
    exact Nat.lt_irrefl _ (h2 hmem)
  rw [run_append] at hrun
  obtain ⟨w2, -, hrun⟩ := Option.bind_eq_some_iff.1 hrun
  simp only [run, step] at hrun
  rcases run_sound post hrun he with ⟨a, ha, hx⟩ | hx
  · match a with
    | .create p tb =>
      obtain ⟨q, hq, e⟩ := List.mem_map.1 hx
      have : p = [m.own.name] := by injection (congrArg Prod.fst e)
      subst this
      exact hc tb ha
    | .ready c ms =>
      obtain ⟨q, hq, e⟩ := List.mem_map.1 hx
      cases e
    | .bind s' n' t' =>
      rw [effs, List.mem_singleton] at hx
      cases hx
      -- no statement binds a function
      have hno : ∀ (s : Scope) (k : Str) (gs : List Fn), Act.bind s k (.function gs) ∉ post := by
        intro s k gs hin
        exact bind_function m hgen (List.mem_append_right _ (List.mem_cons_of_mem _ hin))
      exact hno _ _ _ ha
  · rw [set_env, if_pos ⟨rfl, rfl⟩] at hx
    exact ht fs (Option.some.inj hx)
where
  own_bind {cfg : Imports.Settings} {val : Str → Int} {s : Scope} {k : Str} {gs : List Fn} {o : Own} {path : List Str}
      {as : List Act} (h : ownActs cfg val path o = .ok as) (hr : Act.bind s k (.function gs) ∈ as) : False := by
    unfold ownActs at h
    split at h
    · cases h
    · rename_i cs hcs
      have := Except.ok.inj h
      subst this
      simp only [List.mem_cons, List.mem_append, reduceCtorEq, false_or] at hr
      rcases hr with (((hr | hr) | hr) | hr) | hr
      · obtain ⟨x, hx, b, hb, hab⟩ := (mem_allActs _ hcs _).1 hr
        obtain ⟨hi, h | h | h | h | h⟩ := (mem_classActs hb _).1 hab
        · cases h.2
        · cases h.2
        · cases h
        · cases h
        · cases h.2
      · obtain ⟨x, -, hx⟩ := List.mem_flatMap.1 hr
        rcases List.mem_cons.1 hx with hx | hx
        · cases hx
        · cases List.mem_singleton.1 hx
      · obtain ⟨x, -, hx⟩ := List.mem_flatMap.1 hr
        unfold excActs at hx
        split at hx
        · cases hx
        · cases List.mem_singleton.1 hx
      · obtain ⟨x, -, hx⟩ := List.mem_map.1 hr
        cases hx
      · obtain ⟨x, -, hx⟩ := List.mem_flatMap.1 hr
        obtain ⟨y, -, hy⟩ := List.mem_map.1 hx
        cases y <;> cases hy
  bind_function {cfg : Imports.Settings} {val : Str → Int} {s : Scope} {k : Str} {gs : List Fn} : ∀ (m : Mod)
      {path : List Str} {as : List Act}, m.acts cfg val path = .ok as → Act.bind s k (.function gs) ∈ as → False
    | .mk o subs, path, as, h, hr => by
      simp only [Mod.acts] at h
      split at h
      · cases h
      · rename_i a ha
        split at h
        · cases h
        · rename_i b hb
          have := Except.ok.inj h
          subst this
          rcases List.mem_append.1 hr with hr | hr
          · exact own_bind ha hr
          · exact sub_function subs hb hr
  sub_function {cfg : Imports.Settings} {val : Str → Int} {s : Scope} {k : Str} {gs : List Fn} : ∀ (l : List Mod)
      {path : List Str} {as : List Act}, subActs cfg val path l = .ok as → Act.bind s k (.function gs) ∈ as → False
    | [], path, as, h, hr => by cases h; cases hr
    | .mk o ss :: l, path, as, h, hr => by
      simp only [subActs] at h
      split at h
      · cases h
      · rename_i a ha
        split at h
        · cases h
        · rename_i b hb
          have := Except.ok.inj h
          subst this
          rcases List.mem_append.1 hr with hr | hr
          · exact bind_function (.mk o ss) ha hr
          · rcases List.mem_cons.1 hr with hr | hr
            · cases hr
            · exact sub_function l hb hr

/-- If a function has the Python name of a class, typedef, container, exception, enum constant or submodule of the same
module, it cannot be called: the name does not stand for a function. -/
theorem C113_function_lost_counterexample {cfg : Imports.Settings} {val : Str → Int} {m : Mod} {acts : List Act} {py2 : Bool}
    {w w' : World} (hgen : m.acts cfg val [m.own.name] = .ok acts) (henums : EnumsOk val m)
    (himp : importModule py2 w m acts = some w') {n : Str} {t : Thing} (ht : ∀ fs, t ≠ .function fs)
    (hdecl : Declares val [m.own.name] m (.module [m.own.name]) n t) (fs : List Fn) :
    w'.env (.module [m.own.name]) n ≠ some (.function fs) := by
  obtain ⟨a, ha, hx⟩ := (acts_effs m henums hgen (.module [m.own.name], n, t)).2 (.inl hdecl)
  match a with
  | .create p tb =>
    obtain ⟨q, hq, e⟩ := List.mem_map.1 hx
    obtain ⟨o, ho⟩ := create_table m hgen ha
    rw [ho] at hq
    obtain ⟨f, -, -, -, h⟩ := (mem_table o q.1 q.2).1 hq
    exact absurd ((congrArg (·.2.2) e).symm.trans h) (ht _)
  | .ready c ms =>
    obtain ⟨q, hq, e⟩ := List.mem_map.1 hx
    cases e
  | .bind s' n' t' =>
    rw [effs, List.mem_singleton] at hx
    cases hx
    exact function_hidden hgen himp ht ha fs
where
  create_table {cfg : Imports.Settings} {val : Str → Int} {p : List Str} {tb : List (Str × Thing)} : ∀ (m : Mod)
      {path : List Str} {as : List Act}, m.acts cfg val path = .ok as → Act.create p tb ∈ as → ∃ o : Own, tb = o.table
    | .mk o subs, path, as, h, hr => by
      simp only [Mod.acts] at h
      split at h
      · cases h
      · rename_i a ha
        split at h
        · cases h
        · rename_i b hb
          have := Except.ok.inj h
          subst this
          rcases List.mem_append.1 hr with hr | hr
          · have hm : (Mod.mk o []).acts cfg val path = .ok (a ++ []) := by simp only [Mod.acts, ha, subActs]
            obtain ⟨h1, h2⟩ := acts_create (p := p) (t := tb) (.mk o []) hm
            rw [List.append_nil] at h1 h2
            cases a with
            | nil => cases hr
            | cons x r =>
              cases h1
              rcases List.mem_cons.1 hr with hr | hr
              · cases hr; exact ⟨o, rfl⟩
              · exact absurd hr (own_create ha)
          · exact subs_table subs hb hr
  subs_table {cfg : Imports.Settings} {val : Str → Int} {p : List Str} {tb : List (Str × Thing)} : ∀ (l : List Mod)
      {path : List Str} {as : List Act}, subActs cfg val path l = .ok as → Act.create p tb ∈ as → ∃ o : Own, tb = o.table
    | [], path, as, h, hr => by cases h; cases hr
    | .mk o ss :: l, path, as, h, hr => by
      simp only [subActs] at h
      split at h
      · cases h
      · rename_i a ha
        split at h
        · cases h
        · rename_i b hb
          have := Except.ok.inj h
          subst this
          rcases List.mem_append.1 hr with hr | hr
          · exact create_table (.mk o ss) ha hr
          · rcases List.mem_cons.1 hr with hr | hr
            · cases hr
            · exact subs_table l hb hr

/-! ## Submodules in import statements -/

/-- `sys.modules` after a statement. -/
def sysAfter (py2 : Bool) (sys : List Str) : Act → List Str
  | .create p _ => if py2 then pyJoin ".".toList p :: sys else sys
  | _ => sys

theorem step_sys {py2 : Bool} {w w' : World} {a : Act} (h : step py2 w a = some w') :
    w'.sys = sysAfter py2 w.sys a := by
  match a with
  | .create path table =>
    simp only [step, Option.some.injEq] at h
    subst h; rw [setAll_sys]; rfl
  | .ready d ms =>
    simp only [step] at h
    split at h
    · cases h; rfl
    · cases h; rw [setAll_sys]; rfl
  | .bind (.dict d) n t =>
    simp only [step] at h
    split at h
    · cases h; rfl
    · cases h
  | .bind (.module p) n t =>
    simp only [step, Option.some.injEq] at h
    subst h; rfl

theorem run_sys3 : ∀ (l : List Act) {w w' : World}, run false w l = some w' → w'.sys = w.sys
  | [], w, w', h => by cases h; rfl
  | a :: l, w, w', h => by
    simp only [run] at h
    split at h
    · cases h
    · rename_i w1 h1
      rw [run_sys3 l h, step_sys h1]
      cases a <;> rfl

theorem run_sys2 (x : Str) : ∀ (l : List Act) {w w' : World}, run true w l = some w' →
    (x ∈ w'.sys ↔ x ∈ w.sys ∨ ∃ p t, Act.create p t ∈ l ∧ x = pyJoin ".".toList p)
  | [], w, w', h => by cases h; simp
  | a :: l, w, w', h => by
    simp only [run] at h
    split at h
    · cases h
    · rename_i w1 h1
      rw [run_sys2 x l h, step_sys h1]
      match a with
      | .create p t =>
        simp only [sysAfter, if_true, List.mem_cons]
        constructor
        · rintro ((h | h) | ⟨q, u, h, e⟩)
          · exact .inr ⟨p, t, .inl rfl, h⟩
          · exact .inl h
          · exact .inr ⟨q, u, .inr h, e⟩
        · rintro (h | ⟨q, u, h | h, e⟩)
          · exact .inl (.inr h)
          · cases h; exact .inl (.inl e)
          · exact .inr ⟨q, u, h, e⟩
      | .ready c ms => simp [sysAfter]
      | .bind s n t => simp [sysAfter]

/-- The module at a path below a module. -/
inductive Mod.At : List Str → Mod → List Str → Mod → Prop where
  | self {path : List Str} {m : Mod} : Mod.At path m path m
  | sub {path p : List Str} {m k x : Mod} (h : k ∈ m.subs) (hx : Mod.At (path ++ [k.own.name]) k p x) : Mod.At path m p x

theorem subActs_mem {cfg : Imports.Settings} {val : Str → Int} {path : List Str} : ∀ {l : List Mod} {as : List Act},
    subActs cfg val path l = .ok as → ∀ k ∈ l, ∃ b, k.acts cfg val (path ++ [k.own.name]) = .ok b ∧ ∀ a ∈ b, a ∈ as
  | [], _, _, _, hk => by cases hk
  | .mk o ss :: l, as, h, k, hk => by
    simp only [subActs] at h
    split at h
    · cases h
    · rename_i a ha
      split at h
      · cases h
      · rename_i b hb
        have := Except.ok.inj h
        subst this
        rcases List.mem_cons.1 hk with rfl | hk
        · exact ⟨a, ha, fun x hx => List.mem_append_left _ hx⟩
        · obtain ⟨c, hc, hin⟩ := subActs_mem hb k hk
          exact ⟨c, hc, fun x hx => List.mem_append_right _ (List.mem_cons_of_mem _ (hin x hx))⟩

theorem at_create {cfg : Imports.Settings} {val : Str → Int} {path p : List Str} {m k : Mod} (h : Mod.At path m p k)
    {as : List Act} (hg : m.acts cfg val path = .ok as) : Act.create p k.own.table ∈ as := by
  induction h generalizing as with
  | @self path m =>
    obtain ⟨h1, -⟩ := acts_create (p := []) (t := []) m hg
    cases as with
    | nil => cases h1
    | cons a as => cases h1; exact List.mem_cons_self
  | @sub path p m k x h hx ih =>
    match m with
    | .mk o subs =>
      simp only [Mod.acts] at hg
      split at hg
      · cases hg
      · rename_i a ha
        split at hg
        · cases hg
        · rename_i b hb
          have := Except.ok.inj hg
          subst this
          obtain ⟨c, hc, hin⟩ := subActs_mem hb k h
          exact List.mem_append_right _ (hin _ (ih hc))

/-- With Python 2, submodules can be named in `import` statements. -/
theorem C113_submodules_py2_partial {cfg : Imports.Settings} {val : Str → Int} {m k : Mod} {acts : List Act} {w w' : World}
    (hgen : m.acts cfg val [m.own.name] = .ok acts) (himp : importModule true w m acts = some w') {path : List Str}
    (hk : Mod.At [m.own.name] m path k) : importable w' path := by
  unfold importModule at himp
  obtain ⟨w1, hrun, rfl⟩ := Option.map_eq_some_iff.1 himp
  have := (run_sys2 (pyJoin ".".toList path) acts hrun).2 (.inr ⟨path, _, at_create hk hgen, rfl⟩)
  show _ ∈ (if m.own.name ∈ w1.sys then w1.sys else m.own.name :: w1.sys)
  split
  · exact this
  · exact List.mem_cons_of_mem _ this

/-- With Python 3 they cannot: after `import m`, `import m.sub` fails for every submodule. -/
theorem C113_submodules_py3_counterexample {m k : Mod} {acts : List Act} {w w' : World} (hw : w.sys = [])
    (himp : importModule false w m acts = some w') (_hk : k ∈ m.subs) : ¬ importable w' [m.own.name, k.own.name] := by
  unfold importModule at himp
  obtain ⟨w1, hrun, rfl⟩ := Option.map_eq_some_iff.1 himp
  have h1 := run_sys3 acts hrun
  rw [hw] at h1
  intro h
  have h : pyJoin ".".toList [m.own.name, k.own.name] ∈ (if m.own.name ∈ w1.sys then w1.sys else m.own.name :: w1.sys) := h
  rw [h1, if_neg (by simp)] at h
  have := congrArg List.length (List.mem_singleton.1 h)
  simp [pyJoin] at this

/-! ## Examples -/

theorem unambiguous_of {cfg : Imports.Settings} {val : Str → Int} {path : List Str} {m : Mod} {acts : List Act}
    (he : EnumsOk val m) (hg : m.acts cfg val path = .ok acts)
    (h : ∀ x ∈ acts.flatMap effs, ∀ y ∈ acts.flatMap effs, x.1 = y.1 → x.2.1 = y.2.1 → x.2.2 = y.2.2) :
    Unambiguous cfg val path m := by
  intro s n t t' h1 h2
  obtain ⟨a, ha, hx⟩ := (acts_effs m he hg (s, n, t)).2 h1
  obtain ⟨b, hb, hy⟩ := (acts_effs m he hg (s, n, t')).2 h2
  exact h _ (List.mem_flatMap.2 ⟨a, ha, hx⟩) _ (List.mem_flatMap.2 ⟨b, hb, hy⟩) rfl rfl

def w0 : World := { env := fun _ _ => none, ready := fun _ => false, sys := [] }

def top (n : String) : ClassDecl := .top [] [] n.toList []
def cls (n : String) (members : List String := []) : Class := { cls := { decl := top n }, members := members.map String.toList }

/-- A module `geo` with overloaded functions `geo_area` and `area`, class `Shape` with method `draw` and inner class
`Kind`, container `vec`, exception `Bad`, typedef `Figure`, an enum, and submodule `fast` with a class of its own. -/
def exMod : Mod := .mk {
  name := "geo".toList, strip := "geo_".toList
  fns := [{ cName := "geo_area".toList }, { cName := "skip".toList, ok := false }, { cName := "area".toList }]
  classes := [cls "Shape" ["draw"], { cls := { decl := .nested (top "Shape") "Kind".toList [] } }]
  conts := [{ name := "vec".toList }]
  excs := [{ name := "Bad".toList, path := [] }, { name := "KeyError".toList, path := [], isStandard := true }]
  typedefs := [(top "Shape", "Figure".toList)]
  enums := [{ name := "Color".toList, values := [.plain "RED".toList, .expr "BLUE".toList "7".toList], path := [] }] }
  [.mk { name := "fast".toList, strip := [], classes := [cls "Shape2"] } []]

def exVal : Str → Int := fun x => if x = "7".toList then 7 else 1

def exActs : List Act :=
  [.create ["geo".toList] [("area".toList, .function [{ cName := "geo_area".toList }, { cName := "area".toList }])],
   .ready (top "Shape") ["draw".toList], .bind (.module ["geo".toList]) "Shape".toList (.type (top "Shape")),
   .ready (.nested (top "Shape") "Kind".toList []) [],
   .bind (.dict (top "Shape")) "Kind".toList (.type (.nested (top "Shape") "Kind".toList [])),
   .bind (.module ["geo".toList]) "Vec".toList (.container { name := "vec".toList }),
   .bind (.module ["geo".toList]) "VecIter".toList (.containerIter { name := "vec".toList }),
   .bind (.module ["geo".toList]) "Bad".toList (.exception { name := "Bad".toList, path := [] }),
   .bind (.module ["geo".toList]) "Figure".toList (.type (top "Shape")),
   .bind (.module ["geo".toList]) "RED".toList (.int 1), .bind (.module ["geo".toList]) "BLUE".toList (.int 7),
   .create ["geo".toList, "fast".toList] [], .ready (top "Shape2") [],
   .bind (.module ["geo".toList, "fast".toList]) "Shape2".toList (.type (top "Shape2")),
   .bind (.module ["geo".toList]) "fast".toList (.module ["geo".toList, "fast".toList])]

theorem exMod_acts : exMod.acts {} exVal ["geo".toList] = .ok exActs := by decide +kernel

theorem exMod_has {k : Mod} (h : exMod.Has k) :
    k = exMod ∨ k = .mk { name := "fast".toList, strip := [], classes := [cls "Shape2"] } [] := by
  cases h with
  | self => exact .inl rfl
  | sub h hx =>
    cases List.mem_singleton.1 h
    cases hx with
    | self => exact .inr rfl
    | sub h _ => cases h

theorem exMod_enums : EnumsOk exVal exMod := by
  refine ⟨fun x => ?_, fun k hk e he => ?_⟩
  · unfold exVal; split <;> decide
  · rcases exMod_has hk with rfl | rfl
    · cases List.mem_singleton.1 he
      exact ⟨nofun, nofun⟩
    · cases he

theorem exMod_new : ClassesNew w0 exMod := by
  intro k hk c hc _
  refine ⟨rfl, fun k' hk' c' hc' _ => ?_⟩
  have hall : ∀ k, exMod.Has k → ∀ c ∈ k.own.classes, c ∈ [cls "Shape" ["draw"], { cls := { decl := .nested (top "Shape") "Kind".toList [] } }, cls "Shape2"] := by
    intro k hk c hc
    rcases exMod_has hk with rfl | rfl
    · simp only [exMod, Mod.own, List.mem_cons, List.not_mem_nil, or_false] at hc
      rcases hc with rfl | rfl <;> simp
    · simp only [Mod.own, List.mem_cons, List.not_mem_nil, or_false] at hc
      subst hc; simp
  have hd : ∀ c ∈ [cls "Shape" ["draw"], { cls := { decl := .nested (top "Shape") "Kind".toList [] } }, cls "Shape2"],
      ∀ c' ∈ [cls "Shape" ["draw"], { cls := { decl := .nested (top "Shape") "Kind".toList [] } }, cls "Shape2"],
      c'.cls.decl = c.cls.decl → c'.members = c.members := by decide +kernel
  exact hd c (hall k hk c hc) c' (hall k' hk' c' hc')

/-- Nothing is ambiguous in the example. -/
theorem exMod_unambiguous : Unambiguous {} exVal ["geo".toList] exMod :=
  unambiguous_of exMod_enums exMod_acts (by decide +kernel)

/-- The hypotheses of `C113_names_partial` are met by the example, under both versions of Python. -/
example (py2 : Bool) : ∃ w', importModule py2 w0 exMod exActs = some w' ∧
    w'.env (.module ["geo".toList]) "Figure".toList = some (.type (top "Shape")) ∧
    w'.env (.dict (top "Shape")) "Kind".toList = some (.type (.nested (top "Shape") "Kind".toList [])) ∧
    w'.env (.module ["geo".toList]) "skip".toList = none ∧
    w'.env (.module ["geo".toList, "fast".toList]) "Shape2".toList = some (.type (top "Shape2")) := by
  cases py2 <;> exact ⟨_, rfl, by decide +kernel, by decide +kernel, by decide +kernel, by decide +kernel⟩

example {w' : World} (h : importModule false w0 exMod exActs = some w') (n : Str) (t : Thing) :
    w'.env (.module ["geo".toList]) n = some t ↔ Declares exVal ["geo".toList] exMod (.module ["geo".toList]) n t ∨
      Implied {} ["geo".toList] exMod (.module ["geo".toList]) n t := by
  rw [C113_names_partial exMod_acts exMod_enums exMod_unambiguous exMod_new h]
  simp only [w0, reduceCtorEq, false_and, or_false]
  exact Iff.rfl

/-- `import geo.fast` works with Python 2 only. -/
example : ∃ w', importModule true w0 exMod exActs = some w' ∧ "geo.fast".toList ∈ w'.sys := ⟨_, rfl, by decide +kernel⟩
example : ∃ w', importModule false w0 exMod exActs = some w' ∧ w'.sys = ["geo".toList] := ⟨_, rfl, rfl⟩

/-! ## Counterexamples -/

def flat (o : Own) : Mod := .mk { o with name := "m".toList, strip := "m_".toList } []

/-- The value of a name after importing a module `m`. -/
def after (val : Str → Int) (o : Own) (s : Scope) (n : String) : Option (Option Thing) :=
  match (flat o).acts {} val ["m".toList] with
  | .ok acts => (importModule false w0 (flat o) acts).map fun w => w.env s n.toList
  | .error _ => none

/-- A function `m_Shape`, whose prefix is dropped, and a class `Shape`: the function is lost. -/
theorem C113_prefix_counterexample :
    after exVal { name := [], strip := [], fns := [{ cName := "m_Shape".toList }], classes := [cls "Shape"] }
      (.module ["m".toList]) "Shape" = some (some (.type (top "Shape"))) := by decide +kernel

/-- A container `Vec` brings `VecIter` with it, which hides the class `VecIter`. -/
theorem C113_iterator_counterexample :
    after exVal { name := [], strip := [], classes := [cls "VecIter"], conts := [{ name := "Vec".toList }] }
      (.module ["m".toList]) "VecIter" = some (some (.containerIter { name := "Vec".toList })) := by decide +kernel

/-- Enumerators of two scoped enums (told apart by the prefix) have one name in Python: the second hides the first. -/
theorem C113_scoped_enum_counterexample :
    after (fun x => if x = "Color::RED".toList then 1 else 2)
      { name := [], strip := [], enums :=
        [{ name := "Color".toList, values := [.plain "RED".toList], valuesPrefix := "Color::".toList, path := [] },
         { name := "Light".toList, values := [.plain "RED".toList], valuesPrefix := "Light::".toList, path := [] }] }
      (.module ["m".toList]) "RED" = some (some (.int 2)) := by decide +kernel

/-- A constant that does not fit in a `long` has another value in Python. -/
theorem C113_long_counterexample :
    after (fun _ => 2 ^ 63) { name := [], strip := [], enums :=
        [{ name := "Big".toList, values := [.plain "TOP".toList], path := [] }] }
      (.module ["m".toList]) "TOP" = some (some (.int (-2 ^ 63))) := by decide +kernel

/-- An enum constant of a class takes the place of a method of the same Python name. -/
theorem C113_member_counterexample :
    after exVal { name := [], strip := [], classes := [cls "Shape" ["draw"]], enums :=
        [{ name := "Mode".toList, values := [.expr "draw".toList "7".toList], outer := some (top "Shape"), path := [] }] }
      (.dict (top "Shape")) "draw" = some (some (.int 7)) := by decide +kernel

/-- A class inside another one, declared as a container: no code is generated at all. -/
theorem C113_inner_container_counterexample :
    (flat { name := [], strip := [], classes :=
      [cls "Shape", { cls := { decl := .nested (top "Shape") "Points".toList [] }, iterable := true }] }).acts {} exVal
        ["m".toList] = .error .attributeError := by decide +kernel

/-- A class inside a class that comes later: the import crashes. -/
theorem C113_order_counterexample :
    after exVal { name := [], strip := [], classes :=
      [{ cls := { decl := .nested (top "Shape") "Kind".toList [] } }, cls "Shape"] } (.module ["m".toList]) "Shape" = none := by
  decide +kernel

end Verif.Bindings
