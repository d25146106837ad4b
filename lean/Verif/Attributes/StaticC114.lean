import Verif.Attributes.StaticHistory

/-!
# C114: static attributes are the static variables

Classes are numbered in the order of registration; `Nearest`, `Inherits` and `Ordered` are the
specification in `StaticProps`, `Derives` and `Line` in `StaticHistory`.
-/
namespace Verif.Static
open Verif

variable {V : Type}

/-! ## What is found -/

/-- A class whose type lies above the type of another: what the first finds, or something nearer, the second finds. -/
theorem present {E : Env V} (ho : Ordered E.ds) {t : Types} (h : Done E.ds E.ds.length t) (vars : Nat → Str → V) {m tb : Ty}
    (hm : MetaT E.ds t m) (hb : MetaT E.ds t tb) {l : List Ty} (hl : t.mro m = some l) (hin : tb ∈ l) {x : Str} {d : Nat} {s : StaticAttr}
    (hs : search (start E t vars) tb x = some (.getset d s)) : ∃ d' s', search (start E t vars) m x = some (.getset d' s') := by
  obtain ⟨js, j1, _, _⟩ := metaT_shape ho h hm
  obtain ⟨jb, b1, _, _⟩ := metaT_shape ho h hb
  rw [j1] at hl; cases hl
  rw [search_eq (start E t vars) b1 x] at hs
  rw [search_eq (start E t vars) j1 x]
  have hti : ∀ d s, [Ty.type, .object].findSome? (fun b => (start E t vars).dict b x) ≠ some (.getset d s) := by
    intro d s e
    simp only [List.findSome?_cons, List.findSome?_nil, start, dict0] at e
    cases h1 : E.builtin .type x <;> cases h2 : E.builtin .object x <;> rw [h1, h2] at e <;> cases e
  unfold metaMro at hs ⊢
  rw [List.findSome?_append] at hs ⊢
  cases hf : (jb.map Ty.metacls).findSome? (fun b => (start E t vars).dict b x) with
  | none => rw [hf] at hs; exact absurd hs (hti d s)
  | some r =>
    obtain ⟨a, ha, hr⟩ := List.exists_of_findSome?_eq_some hf
    have hal : a ∈ metaMro js := metaT_trans ho h hm hb j1 b1 hin (List.mem_append.mpr (.inl ha))
    obtain ⟨j, _, rfl⟩ := List.mem_map.mp ha
    have haj : Ty.metacls j ∈ js.map Ty.metacls := by
      rcases List.mem_append.mp hal with g | g
      · exact g
      · simp at g
    cases hg : (js.map Ty.metacls).findSome? (fun b => (start E t vars).dict b x) with
    | none =>
      rw [List.findSome?_eq_none_iff] at hg
      rw [hg _ haj] at hr; cases hr
    | some q =>
      obtain ⟨a', ha', hq⟩ := List.exists_of_findSome?_eq_some hg
      obtain ⟨j', _, rfl⟩ := List.mem_map.mp ha'
      simp only [start, dict0] at hq
      split at hq
      · rename_i D _
        cases hfd : D.statics.find? (fun s => s.name = x) with
        | none => rw [hfd] at hq; cases hq
        | some s' => rw [hfd] at hq; cases hq; exact ⟨j', s', rfl⟩
      · cases hq

theorem nearest_lt {ds : List Decl} {c : Nat} {x : Str} {d : Nat} {s : StaticAttr} (h : Nearest ds c x d s) : c < ds.length := by
  cases h with
  | here e _ => exact (List.getElem?_eq_some_iff.mp e).1
  | up e _ _ _ => exact (List.getElem?_eq_some_iff.mp e).1

theorem nearest_name {ds : List Decl} {c : Nat} {x : Str} {d : Nat} {s : StaticAttr} (h : Nearest ds c x d s) : s.name = x := by
  induction h with
  | here _ e => simpa using List.find?_some e
  | up _ _ _ _ ih => exact ih

/-- What a reachable state knows of the type of a class. -/
structure Known (E : Env V) (t : Types) (vars : Nat → Str → V) (w : World V) : Prop where
  done : Done E.ds E.ds.length t
  inv : Inv E t vars w
  py : PyInv t w

theorem known (E : Env V) (ho : Ordered E.ds) {t : Types} (hi : initTypes E.ds = .ok t) (vars : Nat → Str → V) (es : List (Ev V)) :
    Known E t vars (run E (start E t vars) es) :=
  ⟨init_ok ho hi, inv_run (init_ok ho hi) es _ (inv_start E (init_ok ho hi) vars),
    pyInv_run ho (init_ok ho hi) es _ (inv_start E (init_ok ho hi) vars) (pyInv_start E (init_ok ho hi) vars)⟩

/-- The type of a class that derives from `i` lies below the type of `i`. -/
theorem derives_type {E : Env V} (ho : Ordered E.ds) {t : Types} {vars : Nat → Str → V} {w : World V} (K : Known E t vars w) {c : Ty} {i : Nat}
    (hd : Derives w c i) (hi : i < E.ds.length) : ∀ m, w.types.obType c = some m →
      ∃ mi l, t.obType (.cls i) = some mi ∧ t.mro m = some l ∧ mi ∈ l := by
  induction hd with
  | self =>
    intro m hm
    rw [(K.inv.types _ rfl).1] at hm
    obtain ⟨l, e1, e2⟩ := metaT_self ho K.done (.inr ⟨_, hi, hm⟩)
    exact ⟨m, l, hm, e1, e2⟩
  | @py n bs b i hb hmem _ ih =>
    intro m hm
    obtain ⟨bs', e, _, _, hall⟩ := K.py.made n m hm
    rw [hb] at e; cases e
    obtain ⟨tb, l, e1, e2, e3⟩ := hall b hmem
    obtain ⟨mi, lb, g1, g2, g3⟩ := ih hi tb e1
    exact ⟨mi, l, g1, e2, metaT_trans ho K.done (inv_obType K.done K.inv hm) (inv_obType K.done K.inv e1) e2 g2 e3 g3⟩

/-- A class whose type is a metaclass takes it from one wrapped class. -/
theorem type_from {E : Env V} {t : Types} {vars : Nat → Str → V} {w : World V} (K : Known E t vars w) : ∀ (n : Nat) (c : Ty) (m : Ty),
    (∀ k, c = .py k → k < n) → w.types.obType c = some m → m = .type ∨ ∃ j, j < E.ds.length ∧ Derives w c j ∧ t.obType (.cls j) = some m := by
  intro n
  induction n with
  | zero =>
    intro c m hc hm
    cases c with
    | py k => exact absurd (hc k rfl) (Nat.not_lt_zero k)
    | object => rw [(K.inv.types _ rfl).1, (type_facts K.done).2.2.2] at hm; cases hm; exact .inl rfl
    | type => rw [(K.inv.types _ rfl).1, (type_facts K.done).1] at hm; cases hm; exact .inl rfl
    | metacls i =>
      rw [(K.inv.types _ rfl).1] at hm
      rcases K.done.metas i with e | e <;> rw [e] at hm <;> cases hm
      exact .inl rfl
    | cls i =>
      rw [(K.inv.types _ rfl).1] at hm
      by_cases hi : i < E.ds.length
      · exact .inr ⟨i, hi, .self, hm⟩
      · rw [(K.done.rest (.cls i) (fun j hj => ⟨by simp; omega, by simp⟩)).1] at hm; cases hm
  | succ n ih =>
    intro c m hc hm
    by_cases hp : ∃ k, c = .py k
    · obtain ⟨k, rfl⟩ := hp
      obtain ⟨bs, e, hlt, ⟨b, hb, eb⟩, _⟩ := K.py.made k m hm
      have hk := hc k rfl
      rcases ih b m (fun k' e' => by subst e'; have := hlt k' hb; omega) eb with g | ⟨j, hj, g1, g2⟩
      · exact .inl g
      · exact .inr ⟨j, hj, .py e hb g1, g2⟩
    · exact ih c m (fun k e => absurd ⟨k, e⟩ hp) hm

theorem type_from' {E : Env V} {t : Types} {vars : Nat → Str → V} {w : World V} (K : Known E t vars w) {c m : Ty} (hm : w.types.obType c = some m) :
    m = .type ∨ ∃ j, j < E.ds.length ∧ Derives w c j ∧ t.obType (.cls j) = some m := by
  cases c with
  | py k => exact type_from K (k + 1) _ m (fun k' e => by cases e; omega) hm
  | _ => exact type_from K 0 _ m (fun k' e => by cases e) hm

/-- The static attribute that a class means by a name, in a reachable state. -/
theorem find_static {E : Env V} (ho : Ordered E.ds) {t : Types} {vars : Nat → Str → V} {w : World V} (K : Known E t vars w) {c m : Ty}
    (hm : w.types.obType c = some m) {x : Str} {d : Nat} {s : StaticAttr} (hf : find w m x = some (.getset d s)) :
    ∃ j, Derives w c j ∧ Nearest E.ds j x d s := by
  rw [inv_find K.done K.inv (inv_obType K.done K.inv hm)] at hf
  rcases type_from' K hm with rfl | ⟨j, hj, g1, g2⟩
  · rw [search_eq (l := [.type, .object]) (start E t vars) (type_facts K.done).2.1 x] at hf
    simp only [List.findSome?_cons, List.findSome?_nil, start, dict0] at hf
    cases h1 : E.builtin .type x <;> cases h2 : E.builtin .object x <;> rw [h1, h2] at hf <;> cases hf
  · exact ⟨j, g1, (search_nearest E ho K.done vars x j m hj g2 d s).mp hf⟩

theorem static_found {E : Env V} (ho : Ordered E.ds) {t : Types} {vars : Nat → Str → V} {w : World V} (K : Known E t vars w) {c m : Ty}
    (hm : w.types.obType c = some m) {i : Nat} (hd : Derives w c i) {x : Str} {d : Nat} {s : StaticAttr} (hn : Nearest E.ds i x d s) :
    ∃ j d' s', Derives w c j ∧ Nearest E.ds j x d' s' ∧ find w m x = some (.getset d' s') := by
  have hi := nearest_lt hn
  obtain ⟨mi, l, g1, g2, g3⟩ := derives_type ho K hd hi m hm
  have hmt := inv_obType K.done K.inv hm
  obtain ⟨d', s', e⟩ := present ho K.done vars hmt (.inr ⟨i, hi, g1⟩) g2 g3
    ((search_nearest E ho K.done vars x i mi hi g1 d s).mpr hn)
  have hf : find w m x = some (.getset d' s') := by rw [inv_find K.done K.inv hmt]; exact e
  obtain ⟨j, j1, j2⟩ := find_static ho K hm hf
  exact ⟨j, d', s', j1, j2, hf⟩

/-- Along single bases the type of the class is the type of the wrapped class. -/
theorem line_type {E : Env V} {t : Types} {vars : Nat → Str → V} {w : World V} (K : Known E t vars w) {c : Ty} {i : Nat} (hd : Line w c i) :
    ∀ m, w.types.obType c = some m → t.obType (.cls i) = some m := by
  induction hd with
  | self => intro m hm; rwa [(K.inv.types _ rfl).1] at hm
  | @py n b i hb _ ih =>
    intro m hm
    obtain ⟨bs', e, _, ⟨b', hb', eb⟩, _⟩ := K.py.made n m hm
    rw [hb] at e; cases e
    rw [List.mem_singleton.mp hb'] at eb
    exact ih m eb

theorem line_find {E : Env V} (ho : Ordered E.ds) {t : Types} {vars : Nat → Str → V} {w : World V} (K : Known E t vars w) {c m : Ty}
    (hm : w.types.obType c = some m) {i : Nat} (hd : Line w c i) {x : Str} {d : Nat} {s : StaticAttr} (hn : Nearest E.ds i x d s) :
    find w m x = some (.getset d s) := by
  rw [inv_find K.done K.inv (inv_obType K.done K.inv hm)]
  exact (search_nearest E ho K.done vars x i m (nearest_lt hn) (line_type K hd m hm) d s).mpr hn

theorem nearest_generic {ds : List Decl} {t : Types} (h : Done ds ds.length t) {i : Nat} {x : Str} {d : Nat} {s : StaticAttr}
    (hn : Nearest ds i x d s) : ∀ m, t.obType (.cls i) = some m → t.setattro m = some .generic := by
  induction hn with
  | @here c x D s e1 e2 =>
    intro m hm
    have hl := (List.getElem?_eq_some_iff.mp e1).1
    have hs : D.statics ≠ [] := by intro e; rw [e] at e2; cases e2
    obtain ⟨_, _, _, _, o3, _, o5⟩ := h.own c D hl e1 hs
    rw [o3] at hm; cases hm; exact o5
  | @up c x D p qs d s e1 e2 e3 _ ih =>
    intro m hm
    have hl := (List.getElem?_eq_some_iff.mp e1).1
    by_cases hs : D.statics = []
    · rw [h.inherited c D hl e1 hs] at hm
      unfold metaParent at hm
      rw [e3] at hm
      exact ih m hm
    · obtain ⟨_, _, _, _, o3, _, o5⟩ := h.own c D hl e1 hs
      rw [o3] at hm; cases hm; exact o5

/-! ## C114 -/

/-- The import itself never dereferences a null metatype; it can fail only because Python refuses the
order of the bases, and never with single inheritance. -/
theorem C114_import {ds : List Decl} (ho : Ordered ds) : initTypes ds ≠ .error .crash := by
  rcases init_done ho with e | ⟨t, e, _⟩ <;> rw [e] <;> simp

/-- With at most one base per class the import succeeds. -/
theorem C114_import_single {ds : List Decl} (ho : Ordered ds) (h1 : ∀ D ∈ ds, D.bases.length ≤ 1) : ∃ t, initTypes ds = .ok t := by
  have hmro : ∀ (k : Nat) (s : Types) (D : Decl), Done ds k s → ds[k]? = some D → (classMro s k D).isSome := by
    intro k s D hd hD
    have hb := ho k D hD
    have hl := h1 D (List.mem_of_getElem? hD)
    unfold classMro
    match hDb : D.bases with
    | [] =>
      have := (hd.rest .object (fun i _ => ⟨by simp, by simp⟩)).2.2.2.1
      simp only [mroOf, this, types0, Option.map_some, Option.isSome_some]
    | [p] =>
      have hp := hd.ready p (hb p (by rw [hDb]; exact List.mem_cons_self))
      simp only [List.map_cons, List.map_nil, mroOf, Option.isSome_map, hp]
    | _ :: _ :: _ => rw [hDb] at hl; simp at hl
  have : ∀ (n : Nat) (l : List Decl) (k : Nat) (s : Types), ds.drop k = l → Done ds k s → ∃ s', execAll (n + 2) s (genFrom k l) = .ok s' := by
    intro n l
    induction l with
    | nil => intro k s _ _; exact ⟨s, rfl⟩
    | cons D l ih =>
      intro k s hl hd
      have hD : ds[k]? = some D := by
        have : (ds.drop k)[0]? = some D := by rw [hl]; rfl
        simpa using this
      have hl' : ds.drop (k + 1) = l := by rw [← List.drop_drop, hl]; rfl
      rcases genClass_exec n ho hd hD with ⟨e, _⟩ | ⟨s', _, e, d⟩
      · have := hmro k s D hd hD; rw [e] at this; cases this
      · obtain ⟨s'', e'⟩ := ih (k + 1) s' hl' d
        exact ⟨s'', by simp only [genFrom, execAll_append, e, e']⟩
  exact this (2 * ds.length + 1) ds 0 types0 rfl (done_zero ds)

/-- Reading a static attribute through a wrapped class, or through a Python class that extends it by
single inheritance, gives the value the C++ variable has at that moment: after every history. -/
theorem C114_read_partial (E : Env V) (ho : Ordered E.ds) {t : Types} (hi : initTypes E.ds = .ok t) (vars : Nat → Str → V) (es : List (Ev V))
    {c : Ty} {i : Nat} {x : Str} {d : Nat} {s : StaticAttr} (hn : Nearest E.ds i x d s)
    (hc : Line (run E (start E t vars) es) c i) (hm : (run E (start E t vars) es).types.obType c ≠ none) :
    (getAttr (run E (start E t vars) es) c x).1 =
      if s.readable then .value ((run E (start E t vars) es).vars d x) else .attributeError := by
  have K := known E ho hi vars es
  obtain ⟨m, hm⟩ := Option.ne_none_iff_exists'.mp hm
  have hf := line_find ho K hm hc hn
  unfold getAttr
  rw [hm]
  simp only [hf, nearest_name hn]

/-- Wrapped classes always exist. -/
theorem C114_exists (E : Env V) (ho : Ordered E.ds) {t : Types} (hi : initTypes E.ds = .ok t) (vars : Nat → Str → V) (es : List (Ev V))
    {i : Nat} (h : i < E.ds.length) : (run E (start E t vars) es).types.obType (.cls i) ≠ none := by
  have K := known E ho hi vars es
  obtain ⟨m, _, _, e, _⟩ := K.done.metaKind i h
  rw [(K.inv.types _ rfl).1, e]; simp

/-- Assigning through the class writes the C++ variable and nothing else; a `const` one is refused with
an `AttributeError`, and nothing changes. -/
theorem C114_write_partial (E : Env V) (ho : Ordered E.ds) {t : Types} (hi : initTypes E.ds = .ok t) (vars : Nat → Str → V) (es : List (Ev V))
    {c : Ty} {i : Nat} {x : Str} {d : Nat} {s : StaticAttr} (hn : Nearest E.ds i x d s)
    (hc : Line (run E (start E t vars) es) c i) (hm : (run E (start E t vars) es).types.obType c ≠ none) (v : V) :
    let w := run E (start E t vars) es
    let r := setAttr E w c x v
    r.2.dict = w.dict ∧ r.2.types = w.types ∧
    (s.writable = false → (r.1 = .attributeError ∧ r.2.vars = w.vars)) ∧
    (s.writable = true → E.toC d x v = none → (r.1 = .conversionError ∧ r.2.vars = w.vars)) ∧
    (∀ u, s.writable = true → E.toC d x v = some u →
      (r.1 = .done ∧ r.2.vars = fun d' y => if d' = d ∧ y = x then u else w.vars d' y)) := by
  have K := known E ho hi vars es
  dsimp only
  obtain ⟨m, hm⟩ := Option.ne_none_iff_exists'.mp hm
  have hf := line_find ho K hm hc hn
  have hlt := line_type K hc m hm
  have hname := nearest_name hn
  -- the metatype is a metaclass, and its `tp_setattro` is the generic one
  have hgen : (run E (start E t vars) es).types.setattro m = some .generic := by
    have hmt : MetaT E.ds t m := .inr ⟨i, nearest_lt hn, hlt⟩
    rw [(K.inv.types m (builtin_not_heap (metaT_builtin K.done hmt))).2.2]
    exact nearest_generic K.done hn m hlt
  unfold setAttr
  rw [hm]
  dsimp only
  rw [hgen]
  dsimp only
  unfold genericSet
  dsimp only
  rw [hf]
  dsimp only
  rw [hname]
  cases hw : s.writable with
  | false =>
    rw [if_neg (by simp)]
    exact ⟨rfl, rfl, fun _ => ⟨rfl, rfl⟩, fun e => (by cases e), fun _ e => (by cases e)⟩
  | true =>
    rw [if_pos rfl]
    cases hu : E.toC d x v with
    | none => exact ⟨rfl, rfl, fun e => (by cases e), fun _ _ => ⟨rfl, rfl⟩, fun _ _ e => (by cases e)⟩
    | some u =>
      refine ⟨rfl, rfl, fun e => (by cases e), fun _ e => (by cases e), ?_⟩
      intro u' _ e
      cases e
      exact ⟨rfl, rfl⟩

/-- With any bases: a Python class derived from a class with a static attribute reads a static variable of
that name of a class it derives from; whatever value is read this way, is one. -/
theorem C114_python_classes (E : Env V) (ho : Ordered E.ds) {t : Types} (hi : initTypes E.ds = .ok t) (vars : Nat → Str → V) (es : List (Ev V))
    {c : Ty} {i : Nat} {x : Str} {d : Nat} {s : StaticAttr} (hn : Nearest E.ds i x d s)
    (hc : Derives (run E (start E t vars) es) c i) (hm : (run E (start E t vars) es).types.obType c ≠ none) :
    ∃ j d' s', Derives (run E (start E t vars) es) c j ∧ Nearest E.ds j x d' s' ∧
      (getAttr (run E (start E t vars) es) c x).1 =
        if s'.readable then .value ((run E (start E t vars) es).vars d' x) else .attributeError := by
  have K := known E ho hi vars es
  obtain ⟨m, hm⟩ := Option.ne_none_iff_exists'.mp hm
  obtain ⟨j, d', s', h1, h2, hf⟩ := static_found ho K hm hc hn
  refine ⟨j, d', s', h1, h2, ?_⟩
  unfold getAttr
  rw [hm]
  simp only [hf, nearest_name h2]

/-- Nothing else changes a static variable: the C++ program does, or an assignment to a writable static
attribute of that name through a class that derives from a class in which the name means the variable. -/
theorem C114_only_assignments (E : Env V) (ho : Ordered E.ds) {t : Types} (hi : initTypes E.ds = .ok t) (vars : Nat → Str → V)
    (es : List (Ev V)) (e : Ev V) (d : Nat) (x : Str) :
    let w := run E (start E t vars) es
    (step E w e).2.vars d x = w.vars d x ∨ (∃ u, e = .cxx d x u ∧ (step E w e).2.vars d x = u) ∨
      ∃ c v u j s, e = .set c x v ∧ Derives w c j ∧ Nearest E.ds j x d s ∧ s.writable = true ∧ E.toC d x v = some u ∧
        (step E w e).2.vars d x = u := by
  have K := known E ho hi vars es
  dsimp only
  generalize run E (start E t vars) es = w at K
  cases e with
  | get c x' =>
    left
    unfold step getAttr
    dsimp only
    split
    · rfl
    · split
      · rfl
      · rfl
      · split
        · rfl
        · split <;> rfl
  | inst c x' =>
    left
    unfold step getInst
    dsimp only
    split
    · rfl
    · split <;> rfl
  | newClass bs names ok =>
    left
    unfold step newClass
    dsimp only
    split <;> rfl
  | evict keep => exact .inl rfl
  | cxx d' x' v =>
    by_cases hx : d = d' ∧ x = x'
    · obtain ⟨rfl, rfl⟩ := hx
      exact .inr (.inl ⟨v, rfl, by simp [step]⟩)
    · left
      simp only [step, if_neg hx]
  | set c x' v =>
    have hg : ∀ m, w.types.obType c = some m → (genericSet E w c m x' v).2.vars d x = w.vars d x ∨
        ∃ u j s, x = x' ∧ Derives w c j ∧ Nearest E.ds j x d s ∧ s.writable = true ∧ E.toC d x v = some u ∧
          (genericSet E w c m x' v).2.vars d x = u := by
      intro m hm
      unfold genericSet
      dsimp only
      split
      · rename_i d' s hf
        obtain ⟨j, j1, j2⟩ := find_static ho K hm hf
        split
        · rename_i hw
          cases hu : E.toC d' s.name v with
          | none => exact .inl rfl
          | some u =>
            by_cases hx : d = d' ∧ x = s.name
            · obtain ⟨rfl, hx⟩ := hx
              have hnm := nearest_name j2
              rw [hnm] at hx hu
              subst hx
              exact .inr ⟨u, j, s, rfl, j1, j2, hw, hu, by simp [hnm]⟩
            · left
              simp only [if_neg hx]
              rfl
        · exact .inl rfl
      · exact .inl rfl
      · exact .inl rfl
    have hset : ∀ m, w.types.obType c = some m → (setAttr E w c x' v).2.vars d x = w.vars d x ∨
        (setAttr E w c x' v).2.vars d x = (genericSet E w c m x' v).2.vars d x := by
      intro m hm
      unfold setAttr
      rw [hm]
      dsimp only
      split
      · exact .inr rfl
      · split
        · exact .inr rfl
        · exact .inl rfl
      · exact .inl rfl
    cases hm : w.types.obType c with
    | none =>
      left
      simp only [step, setAttr, hm]
    | some m =>
      rcases hset m hm with e | e
      · exact .inl e
      · rcases hg m hm with g | ⟨u, j, s, rfl, g1, g2, g3, g4, g5⟩
        · exact .inl (e.trans g)
        · exact .inr (.inr ⟨c, v, u, j, s, rfl, g1, g2, g3, g4, e.trans g5⟩)

theorem run_append (E : Env V) : ∀ (es es' : List (Ev V)) (w : World V), run E w (es ++ es') = run E (run E w es) es'
  | [], _, _ => rfl
  | e :: es, es', w => run_append E es es' (step E w e).2

/-- Whatever goes on between, a variable keeps its value until the C++ program or an assignment to an
attribute of its name changes it. -/
theorem C114_kept (E : Env V) (ho : Ordered E.ds) {t : Types} (hi : initTypes E.ds = .ok t) (vars : Nat → Str → V) (d : Nat) (x : Str) :
    ∀ (es' es : List (Ev V)), (∀ u, .cxx d x u ∉ es') → (∀ c v, .set c x v ∉ es') →
      (run E (start E t vars) (es ++ es')).vars d x = (run E (start E t vars) es).vars d x
  | [], es, _, _ => by rw [List.append_nil]
  | e :: es', es, h1, h2 => by
    have hone : (run E (start E t vars) (es ++ [e])).vars d x = (run E (start E t vars) es).vars d x := by
      rw [run_append]
      rcases C114_only_assignments E ho hi vars es e d x with g | ⟨u, rfl, _⟩ | ⟨c, v, u, j, s, rfl, _⟩
      · exact g
      · exact absurd List.mem_cons_self (h1 u)
      · exact absurd List.mem_cons_self (h2 c v)
    have := C114_kept E ho hi vars d x es' (es ++ [e]) (fun u hu => h1 u (List.mem_cons_of_mem _ hu)) (fun c v hu => h2 c v (List.mem_cons_of_mem _ hu))
    rw [List.append_assoc] at this
    exact this.trans hone

/-- What is assigned through one class is read through every class in which the name means the same
variable, after everything that may happen between. -/
theorem C114_roundtrip_partial (E : Env V) (ho : Ordered E.ds) {t : Types} (hi : initTypes E.ds = .ok t) (vars : Nat → Str → V)
    (es es' : List (Ev V)) {c c' : Ty} {i i' : Nat} {x : Str} {d : Nat} {s s' : StaticAttr}
    (hn : Nearest E.ds i x d s) (hc : Line (run E (start E t vars) es) c i) (hm : (run E (start E t vars) es).types.obType c ≠ none)
    (hw : s.writable = true) {v u : V} (hu : E.toC d x v = some u)
    (h1 : ∀ u, .cxx d x u ∉ es') (h2 : ∀ c v, .set c x v ∉ es')
    (hn' : Nearest E.ds i' x d s') (hc' : Line (run E (start E t vars) (es ++ .set c x v :: es')) c' i')
    (hm' : (run E (start E t vars) (es ++ .set c x v :: es')).types.obType c' ≠ none) (hr : s'.readable = true) :
    (getAttr (run E (start E t vars) (es ++ .set c x v :: es')) c' x).1 = .value u := by
  rw [C114_read_partial E ho hi vars _ hn' hc' hm', if_pos hr]
  have e1 : es ++ Ev.set c x v :: es' = (es ++ [Ev.set c x v]) ++ es' := by simp
  rw [e1, C114_kept E ho hi vars d x es' _ h1 h2, run_append]
  have := (C114_write_partial E ho hi vars es hn hc hm v).2.2.2.2 u hw hu
  show Got.value ((setAttr E (run E (start E t vars) es) c x v).2.vars d x) = _
  rw [this.2]
  simp

/-! ## A small module -/

/-- Two unrelated classes with a static `count`, and `limit`, which is const; a class derived from the
first without statics; a class derived from both; a class without statics. -/
def demo : List Decl :=
  [⟨[], [⟨"count".toList, true, true⟩, ⟨"limit".toList, true, false⟩], ["run".toList]⟩,
   ⟨[], [⟨"total".toList, true, true⟩], []⟩,
   ⟨[0], [], []⟩,
   ⟨[0, 1], [], []⟩,
   ⟨[], [], []⟩]

def demoEnv : Env Nat := { ds := demo, builtin := fun _ _ => none, toC := fun _ _ v => if v < 256 then some v else none }

theorem demo_ordered : Ordered demo := by
  intro i D h b hb
  match i with
  | 0 => cases h; cases hb
  | 1 => cases h; cases hb
  | 2 => cases h; rw [List.mem_singleton.mp hb]; decide
  | 3 => cases h; rcases List.mem_cons.mp hb with rfl | hb
         · decide
         · rw [List.mem_singleton.mp hb]; decide
  | 4 => cases h; cases hb
  | n + 5 => cases h

/-- The types of the demo after the import. -/
def demoTypes : Types := match initTypes demo with | .ok t => t | .error _ => types0

theorem demo_ok : initTypes demo = .ok demoTypes := by
  have : ∀ e, initTypes demo ≠ .error e := by
    intro e h
    have h1 : (match initTypes demo with | .ok _ => true | .error _ => false) = true := by decide +kernel
    rw [h] at h1; cases h1
  unfold demoTypes
  cases h : initTypes demo with
  | ok t => rfl
  | error e => exact absurd h (this e)

theorem demo_nearest0 : Nearest demo 0 "count".toList 0 ⟨"count".toList, true, true⟩ :=
  .here (D := ⟨[], [⟨"count".toList, true, true⟩, ⟨"limit".toList, true, false⟩], ["run".toList]⟩) rfl (by decide)

theorem demo_nearest : Nearest demo 2 "count".toList 0 ⟨"count".toList, true, true⟩ :=
  .up (D := ⟨[0], [], []⟩) rfl rfl rfl demo_nearest0

def demoWorld : World Nat := start demoEnv demoTypes (fun _ _ => 0)

def gotNat : Got Nat → Option Nat
  | .value v => some v
  | _ => none

def isAttributeError : Got V → Bool
  | .attributeError => true
  | _ => false

def isTypeError : Got V → Bool
  | .typeError => true
  | _ => false

/-- `class P(C2): pass`, `P.count = 7`, and the value is there in the first class, in the C++ variable,
and in the classes derived. -/
def demoHistory : List (Ev Nat) := [.newClass [.cls 2] [] true, .get (.py 0) "count".toList, .set (.py 0) "count".toList 7]

theorem demo_history_line : Line (run demoEnv demoWorld demoHistory) (.py 0) 2 :=
  .py (b := .cls 2) (by decide +kernel) .self

example : (getAttr (run demoEnv demoWorld demoHistory) (.cls 0) "count".toList).1 =
    .value ((run demoEnv demoWorld demoHistory).vars 0 "count".toList) :=
  C114_read_partial demoEnv demo_ordered demo_ok (fun _ _ => 0) demoHistory demo_nearest0 .self
    (C114_exists demoEnv demo_ordered demo_ok (fun _ _ => 0) demoHistory (by decide))

example : (run demoEnv demoWorld demoHistory).vars 0 "count".toList = 7 := by decide +kernel

example : (getAttr (run demoEnv demoWorld demoHistory) (.py 0) "count".toList).1 =
    .value ((run demoEnv demoWorld demoHistory).vars 0 "count".toList) :=
  C114_read_partial demoEnv demo_ordered demo_ok (fun _ _ => 0) demoHistory demo_nearest demo_history_line (by decide +kernel)

/-- Assigned through the Python class, read through the wrapped base, with a lookup and a new class between. -/
example : (getAttr (run demoEnv demoWorld ([.newClass [.cls 2] [] true] ++ .set (.py 0) "count".toList 7 ::
    [.get (.py 0) "count".toList, .newClass [.py 0] ["count".toList] true])) (.cls 0) "count".toList).1 = .value 7 :=
  C114_roundtrip_partial demoEnv demo_ordered demo_ok (fun _ _ => 0) [.newClass [.cls 2] [] true]
    [.get (.py 0) "count".toList, .newClass [.py 0] ["count".toList] true] demo_nearest
    (.py (b := .cls 2) (by decide +kernel) .self) (by decide +kernel) rfl (by decide) (by simp) (by simp) demo_nearest0 .self
    (C114_exists demoEnv demo_ordered demo_ok (fun _ _ => 0) _ (by decide)) rfl

example : ∃ t, initTypes [⟨[], [⟨"a".toList, true, true⟩], []⟩, ⟨[0], [], []⟩] = .ok t :=
  C114_import_single (fun i D h b hb => by
    match i with
    | 0 => cases h; cases hb
    | 1 => cases h; rw [List.mem_singleton.mp hb]; decide
    | n + 2 => cases h) (fun D hD => by
      rcases List.mem_cons.mp hD with rfl | hD
      · decide
      · rw [List.mem_singleton.mp hD]; decide)

/-! ## Where the static attributes are not those of C++ -/

/-- The class with two bases inherits in C++ the static variable of the second; in Python the attribute
does not exist. -/
theorem C114_second_base_counterexample : Inherits demo 3 "total".toList 1 ∧
    isAttributeError (getAttr demoWorld (.cls 3) "total".toList).1 = true ∧
    gotNat (getAttr demoWorld (.cls 3) "count".toList).1 = some 0 := by
  refine ⟨.up (D := ⟨[0, 1], [], []⟩) (p := 1) rfl (by decide) (.here (D := ⟨[], [⟨"total".toList, true, true⟩], []⟩) (s := ⟨"total".toList, true, true⟩) rfl (by decide) rfl), ?_, ?_⟩ <;> decide +kernel

/-- On an instance the static attribute does not exist. -/
theorem C114_instance_counterexample : isAttributeError (getInst demoWorld (.cls 0) "count".toList).1 = true := by
  decide +kernel

/-- A Python class cannot have both classes with static attributes as bases; without the static attributes
it could. -/
theorem C114_metaclass_conflict_counterexample : isTypeError (newClass demoWorld [.cls 0, .cls 1] [] true).1 = true ∧
    isTypeError (newClass demoWorld [.cls 2, .cls 4] [] true).1 = false := by
  refine ⟨?_, ?_⟩ <;> decide +kernel

/-- A class with static attributes accepts other assignments, but the assigned value need not be found: the
lookup that failed before is remembered. -/
theorem C114_stale_counterexample :
    isAttributeError (getAttr (run demoEnv demoWorld [.get (.cls 0) "y".toList, .set (.cls 0) "y".toList 3]) (.cls 0) "y".toList).1 = true ∧
    isAttributeError (getAttr (run demoEnv demoWorld [.set (.cls 0) "y".toList 3]) (.cls 0) "y".toList).1 = false ∧
    isTypeError (setAttr demoEnv demoWorld (.cls 4) "y".toList 3).1 = true := by
  refine ⟨?_, ?_, ?_⟩ <;> decide +kernel

end Verif.Static
