import Verif.Parser.Throws
import Verif.Parser.MemberProps

/-! # C125: a scanned wrapper catches the exceptions its declaration names -/
namespace Verif.Throws
open Verif Verif.CType Verif.Scan Verif.Pygen
open Verif.Annot (ODict)

/-! ## Spec vocabulary -/

def amp : CType.Item := .tok ⟨.syntax_, ['&']⟩

/-- `s` is a way to write, in C++, that the exception class registered under the full name `f` is thrown: its name, or a
reference to it with any `const` and `volatile`; any spacing, with or without a leading `::`; also for instances of
templates. -/
def Names (root : Root) (s f : Str) : Prop :=
  ∃ name n K l, Denotes name K ∧ (∀ i ∈ K, i.isMod = false ∧ i.isPtrRef = false) ∧ normalize name = .ok n ∧
    root n = some (.exc f) ∧ Denotes s l ∧ ProperColons s ∧ (l = K ∨ unqualified l = K ++ [amp])

/-! ## Looking up one type -/

theorem mod_of_ptr {i : CType.Item} (h : i.isPtrRef = true) : i.isMod = false := by
  cases i with
  | sub c => rfl
  | tok t =>
    simp only [Item.isPtrRef, Item.isNamed, Bool.or_eq_true, beq_iff_eq] at h
    simp only [Item.isMod, Item.isNamed]
    rcases h with h | h <;> rw [h] <;> decide

theorem excName_of {s : Str} {l : List CType.Item} (hd : Denotes s l) (hp : ProperColons s) {t : Traits}
    (ht : traits (render (deepCanon l)) = .ok t) :
    excName s = .ok (if t.isRef then render (t.target.getD []) else render t.ctype) := by
  unfold excName
  rw [(normalize_iff s _).2 ⟨l, hd, rfl⟩]
  simp only
  rw [ht]

theorem deepCanon_plain {K : List CType.Item} (h : ∀ i ∈ K, i.isMod = false ∧ i.isPtrRef = false) :
    deepCanon K = deepList K := by
  unfold deepCanon
  refine Matcher.canon_unqualified ?_
  intro i hi
  rw [deepList_map] at hi
  obtain ⟨a, ha, rfl⟩ := List.mem_map.mp hi
  rw [deepItem_mod]
  exact (h a ha).1

theorem name_value {s : Str} {K : List CType.Item} (hd : Denotes s K) (hp : ProperColons s)
    (h : ∀ i ∈ K, i.isPtrRef = false) : excName s = .ok (render (deepCanon K)) := by
  have hv : ∀ i ∈ deepCanon K, i.isPtrRef = false := by
    intro i hi
    rcases split_or (deepCanon K) with h1 | ⟨pre, d, seg, h1, h2, h3⟩
    · exact h1 i hi
    · exfalso
      have hd' : d ∈ unqualified (deepCanon K) := by
        unfold unqualified
        rw [List.mem_filter, h1]
        exact ⟨by simp, by rw [mod_of_ptr h2]; rfl⟩
      unfold deepCanon at hd'
      rw [unqualified_canon, Matcher.unqualified_deep, deepList_map] at hd'
      obtain ⟨a, ha, rfl⟩ := List.mem_map.mp hd'
      rw [deepItem_ptr, h a (List.mem_of_mem_filter ha)] at h2
      cases h2
  obtain ⟨t, ht, hc, _, hr, _⟩ := C16_traits_value _ _ (denotes_render hd hp) hv
  rw [excName_of hd hp ht, hr, hc, deepCanon_idem]
  rfl

theorem name_ref {s : Str} {l K : List CType.Item} (hd : Denotes s l) (hp : ProperColons s)
    (hK : ∀ i ∈ K, i.isMod = false ∧ i.isPtrRef = false) (hu : unqualified l = K ++ [amp]) :
    excName s = .ok (render (deepCanon K)) := by
  have hu' : unqualified (deepCanon l) = deepList K ++ [amp] := by
    unfold deepCanon
    rw [unqualified_canon, Matcher.unqualified_deep, hu, deepList_map, deepList_map, List.map_append]
    rfl
  have hKp : ∀ i ∈ deepList K, i.isPtrRef = false := by
    intro i hi
    rw [deepList_map] at hi
    obtain ⟨a, ha, rfl⟩ := List.mem_map.mp hi
    rw [deepItem_ptr]; exact (hK a ha).2
  rcases split_or (deepCanon l) with h1 | ⟨pre, d, seg, h1, h2, h3⟩
  · have : amp ∈ unqualified (deepCanon l) := by rw [hu']; simp
    have := h1 amp (List.mem_of_mem_filter this)
    exact absurd this (by decide)
  · have hdm : unqualified [d] = [d] := by
      unfold unqualified
      rw [List.filter_eq_self]
      intro i hi
      rw [List.mem_singleton] at hi
      rw [hi, mod_of_ptr h2]; rfl
    have hsp : unqualified pre ++ d :: unqualified seg = deepList K ++ [amp] := by
      rw [← hu', h1, show pre ++ d :: seg = pre ++ ([d] ++ seg) from rfl, unqualified_append, unqualified_append, hdm]
      rfl
    have hd0 : d = amp ∧ unqualified pre = deepList K := by
      rcases List.append_eq_append_iff.1 hsp with ⟨x, hx1, hx2⟩ | ⟨x, hx1, hx2⟩
      · cases x with
        | nil => simp at hx1 hx2; exact ⟨hx2.1, hx1.symm⟩
        | cons y x =>
          exfalso
          have hy : d = y := by simpa using (List.cons.inj hx2).1
          have := hKp y (by rw [hx1]; simp)
          rw [← hy, h2] at this; cases this
      · cases x with
        | nil => simp at hx1 hx2; exact ⟨hx2.1.symm, hx1⟩
        | cons y x => simp at hx2
    obtain ⟨t, ht, _, _, hr, _, _, htg, _⟩ := C16_traits_pointer _ pre seg d (h1 ▸ denotes_render hd hp) h2 h3
    rw [← h1] at ht
    rw [excName_of hd hp ht, hr, htg, hd0.1, Matcher.unqualified_deep, hd0.2]
    rw [deepCanon_plain hK]
    have : deepList (deepList K) = deepList K := by
      rw [← deepCanon_plain (K := deepList K), ← deepCanon_plain hK, deepCanon_idem]
      intro i hi
      refine ⟨?_, hKp i hi⟩
      rw [deepList_map] at hi
      obtain ⟨a, ha, rfl⟩ := List.mem_map.mp hi
      rw [deepItem_mod]; exact (hK a ha).1
    rw [this]
    rfl

theorem find_names {root : Root} {s f : Str} (h : Names root s f) : find root s = some f := by
  obtain ⟨name, n, K, l, h1, h2, h3, h4, h5, h6, h7⟩ := h
  have hn : n = render (deepCanon K) := by
    rw [(normalize_iff name _).2 ⟨K, h1, rfl⟩] at h3
    injection h3 with h; exact h.symm
  have : excName s = .ok n := by
    rw [hn]
    rcases h7 with rfl | h7
    · exact name_value h5 h6 (fun i hi => (h2 i hi).2)
    · exact name_ref h5 h6 h2 h7
  unfold find
  rw [this]
  simp only
  rw [h4]

/-- What is found is an exception class of the module. -/
theorem find_sound {root : Root} {s f : Str} (h : find root s = some f) : ∃ n, excName s = .ok n ∧ root n = some (.exc f) := by
  unfold find at h
  split at h
  · rename_i n hn
    split at h
    · rename_i g hg
      cases h
      exact ⟨n, hn, hg⟩
    · cases h
  · cases h

theorem found_names {root : Root} {ss fs : List Str} (h : List.Forall₂ (Names root) ss fs) :
    found (throwsOf root ss) = fs ∧ notFound (throwsOf root ss) = [] := by
  induction h with
  | nil => exact ⟨rfl, rfl⟩
  | @cons s f ss fs h1 _ ih =>
    have hf := find_names h1
    unfold throwsOf found notFound at *
    simp only [List.map_cons, List.filterMap_cons, hf, List.filter_cons, Option.isNone_some]
    exact ⟨by rw [ih.1], by simpa using ih.2⟩

theorem allSome_names {root : Root} {ss fs : List Str} (h : List.Forall₂ (Names root) ss fs) :
    allSome (find root) ss = some fs := by
  induction h with
  | nil => rfl
  | cons h1 _ ih => rw [allSome, find_names h1, ih]; rfl

/-! ## Registrations and script lines -/

/-- What is registered is also written to the script. -/
theorem function_reg {env : Env} {f : FunDecl} {evs : List Ev} {l : Line} (h : scanFunction env f = .ok evs)
    (hl : Ev.act (.reg l) ∈ evs) : Ev.item (.line l) ∈ evs := by
  have hw : ∀ ws, Ev.act (.reg l) ∉ warns ws := by
    intro ws h
    obtain ⟨_, _, h⟩ := List.mem_map.mp h
    cases h
  have hemit : ∀ ok l' e, emit f ok l' = .ok e → Ev.act (.reg l) ∈ e → Ev.item (.line l) ∈ e := by
    intro ok l' e he hm
    obtain ⟨c, hc, rfl⟩ := map_ok he
    have hcm : Ev.act (.reg l) ∉ c := by
      unfold comment at hc
      split at hc
      · cases hc; intro h; cases h
      · cases hc
      · cases hc; intro h; cases List.mem_singleton.mp h
    rcases List.mem_append.mp hm with hm | hm
    · exact absurd hm hcm
    · rcases List.mem_cons.mp hm with hm | hm
      · cases hm
      · cases ok with
        | false => cases hm
        | true =>
          cases List.mem_singleton.mp hm
          simp
  unfold scanFunction at h
  obtain ⟨g, hg, h⟩ := bind_ok h
  split at h
  · cases h; exact absurd hl (hw _)
  obtain ⟨rt, hret, h⟩ := bind_ok h
  obtain ⟨ro, hro, h⟩ := bind_ok h
  obtain ⟨pl, hps, h⟩ := bind_ok h
  obtain ⟨e2, he2, rfl⟩ := map_ok h
  rcases List.mem_append.mp hl with hl | hl
  · exact absurd hl (hw _)
  refine List.mem_append_right _ ?_
  unfold emitFunction at he2
  split at he2
  · split at he2
    · cases he2
    · split at he2
      · cases he2
      · exact hemit _ _ _ he2 hl
  · split at he2
    · split at he2
      · cases he2
      · exact hemit _ _ _ he2 hl
    · obtain ⟨c, hc, he2⟩ := bind_ok he2
      exact hemit _ _ _ he2 hl

/-! ## C125 -/

/-- **C125** (functions with an exception specification): a function that is scanned as a function is registered, and
written to the script, with exactly the exceptions of its specification, in that order, however they are written.
(Missing: see the counterexamples.) -/
theorem C125_function_partial {root : Root} {env : Env} {f : FunDecl} {evs : List Ev} {ss fs : List Str}
    (hn : (f.globals.map (·.1)).Nodup) (hs : f.throws = throwsOf root ss) (hne : ss ≠ [])
    (hf : List.Forall₂ (Names root) ss fs) (h : scanFunction env f = .ok evs) {n : Str} {ret : Spec} {ps : List Spec}
    {kw : Kw} (hl : Ev.item (.line (.func false n ret ps kw)) ∈ evs ∨ Ev.act (.reg (.func false n ret ps kw)) ∈ evs) :
    ODict.get kw "throw".toList = some (.refs fs) := by
  have hl' : Ev.item (.line (.func false n ret ps kw)) ∈ evs := hl.elim id (function_reg h)
  obtain ⟨_, _, _, _, _, _, h2, _⟩ := C84_function_partial hn h hl'
  rw [hs, (found_names hf).1] at h2
  refine h2 ?_
  rintro rfl
  cases hf
  exact hne rfl

theorem method_reg {env : Env} {cls : Cls} {m : Member} {d : MethodDecl} {evs : List Ev} {l : Line}
    (h : scanMethod env cls m d = .ok evs) (hl : Ev.act (.reg l) ∈ evs) : Ev.item (.line l) ∈ evs := by
  have hw : ∀ ws, Ev.act (.reg l) ∉ warns ws := by
    intro ws h
    obtain ⟨_, _, h⟩ := List.mem_map.mp h
    cases h
  unfold scanMethod at h
  obtain ⟨g, hg, h⟩ := bind_ok h
  split at h
  · cases h; exact absurd hl (hw _)
  simp only at h
  obtain ⟨ret, hret, h⟩ := bind_ok h
  obtain ⟨ps, hps, h⟩ := bind_ok h
  obtain ⟨custom, hcu, h⟩ := bind_ok h
  have hstart : ∀ ws : List Warn, Ev.act (.reg l) ∉ (warns ws ++ (if d.virt = .pure ∧ cls.allowSubclassing = false then
      [.act .cannot] else [])) := by
    intro ws hm
    rcases List.mem_append.mp hm with hm | hm
    · exact hw _ hm
    · split at hm
      · cases List.mem_singleton.mp hm
      · cases hm
  split at h
  · cases h; exact absurd hl (hstart _)
  obtain ⟨c, hc, h⟩ := bind_ok h
  obtain ⟨e2, he2, rfl⟩ := map_ok h
  have hcm : Ev.act (.reg l) ∉ c := by
    unfold comment at hc
    split at hc
    · cases hc; intro h; cases h
    · cases hc
    · cases hc; intro h; cases List.mem_singleton.mp h
  rcases List.mem_append.mp hl with hl | hl
  · rcases List.mem_append.mp hl with hl | hl
    · exact absurd hl (hstart _)
    · exact absurd hl hcm
  refine List.mem_append_right _ ?_
  rcases List.mem_cons.mp hl with hl | hl
  · cases hl
  have hdis : ∀ b : Bool, Ev.act (.reg l) ∉ (if b then [Ev.act .helperOff, .item .helperOff] else []) := by
    intro b hm
    cases b
    · cases hm
    · simp at hm
  unfold addMethod at he2
  simp only at he2
  split at he2
  · cases he2
  · cases he2
    rcases List.mem_cons.mp hl with hl | hl
    · cases hl
    · exfalso
      revert hl
      split <;> simp
  · obtain ⟨r, hr, he2⟩ := bind_ok he2
    split at he2
    · split at he2
      · cases he2
        cases List.mem_singleton.mp hl
        simp
      · cases he2
      · cases he2
        exfalso
        revert hl
        split <;> simp
    · cases he2
      exfalso
      rcases List.mem_append.mp hl with hl | hl
      · exact hw _ hl
      · revert hl
        split <;> simp

/-- **C125** (methods with an exception specification). -/
theorem C125_method_partial {root : Root} {env : Env} {cls : Cls} {m : Member} {d : MethodDecl} {evs : List Ev} {ss fs : List Str}
    (hn : (m.globals.map (·.1)).Nodup) (hs : d.throws = throwsOf root ss) (hne : ss ≠ [])
    (hf : List.Forall₂ (Names root) ss fs) (h : scanMethod env cls m d = .ok evs) {n : Str} {ret : Spec} {ps : List Spec}
    {kw : Kw} (hl : Ev.item (.line (.func true n ret ps kw)) ∈ evs ∨ Ev.act (.reg (.func true n ret ps kw)) ∈ evs) :
    ODict.get kw "throw".toList = some (.refs fs) := by
  have hl' : Ev.item (.line (.func true n ret ps kw)) ∈ evs := hl.elim id (method_reg h)
  obtain ⟨_, _, _, _, _, _, _, h2, _⟩ := C84_method_partial hn h hl'
  rw [hs, (found_names hf).1] at h2
  refine h2 ?_
  rintro rfl
  cases hf
  exact hne rfl

/-- **C125** (constructors): exactly the exceptions of the specification. -/
theorem C125_constructor_partial {root : Root} {env : Env} {cls : Cls} {m : Member} {d : CtorDecl} {r : List Ev × Bool × Bool}
    {ss fs : List Str} (hk : m.kind = .ctor d) (hn : some m.name ∉ cls.refMethods)
    (hw : (ODict.get m.globals "ignore".toList).isSome = false) (hs : d.throws = throwsOf root ss)
    (hf : List.Forall₂ (Names root) ss fs) (h : scanCtor env m d = .ok r) {ps : List Spec} {kw : Kw}
    (hl : (acts r.1).filter isReg = [.reg (.ctor ps kw)]) :
    ODict.get kw "throw".toList = if fs = [] then none else some (.refs fs) := by
  have hd : Describes m (.ctor ps kw) := by
    rcases scanCtor_handled hk hn hw h with ⟨_, hr⟩ | ⟨l, _, hd, _, hr⟩ | ⟨l, _, _, _, hr, _⟩
    · rw [hr] at hl; cases hl
    · rw [hr] at hl; cases hl; exact hd
    · rw [hr] at hl; cases hl
  cases hd with
  | ctor kind _ _ _ ht =>
    rw [hk] at kind
    cases kind
    rw [ht, hs, (found_names hf).1]

/-- **C125** (the `throw` annotation of a method or function without an exception specification): the exceptions named
in it, separated by commas, in that order. -/
theorem C125_annotation_partial {root : Root} {env : Env} (henv : env.exc = find root) {ss fs : List Str} (hne : ss ≠ [])
    (hc : ∀ s ∈ ss, ',' ∉ s) (hf : List.Forall₂ (Names root) ss fs) :
    (∀ (f : FunDecl) (evs : List Ev) (n : Str) (ret : Spec) (ps : List Spec) (kw : Kw), (f.globals.map (·.1)).Nodup →
      f.throws = [] → ("throw".toList, some (pyJoin [','] ss)) ∈ f.globals → scanFunction env f = .ok evs →
      Ev.item (.line (.func false n ret ps kw)) ∈ evs ∨ Ev.act (.reg (.func false n ret ps kw)) ∈ evs →
      ODict.get kw "throw".toList = some (.refs fs)) ∧
    (∀ (cls : Cls) (m : Member) (d : MethodDecl) (evs : List Ev) (n : Str) (ret : Spec) (ps : List Spec) (kw : Kw),
      (m.globals.map (·.1)).Nodup → d.throws = [] → ("throw".toList, some (pyJoin [','] ss)) ∈ m.globals →
      scanMethod env cls m d = .ok evs →
      Ev.item (.line (.func true n ret ps kw)) ∈ evs ∨ Ev.act (.reg (.func true n ret ps kw)) ∈ evs →
      ODict.get kw "throw".toList = some (.refs fs)) := by
  have key : allSome env.exc (splitOn ',' (pyJoin [','] ss)) = some fs := by
    rw [henv, Annot.splitOn_join hne hc, allSome_names hf]
  constructor
  · intro f evs n ret ps kw hn h0 hm h hl
    obtain ⟨_, _, _, _, _, h1, _⟩ := C84_function_partial hn h (hl.elim id (function_reg h))
    exact (h1 (by rw [h0]; rfl) _).2 ⟨_, _, hm, key, rfl⟩
  · intro cls m d evs n ret ps kw hn h0 hm h hl
    obtain ⟨_, _, _, _, _, _, h1, _⟩ := C84_method_partial hn h (hl.elim id (method_reg h))
    exact (h1 (by rw [h0]; rfl) _).2 ⟨_, _, hm, key, rfl⟩

/-- **C125** (no type is lost silently, none is made up): whatever a function's specification names, each of its types
is caught or reported, and whatever is caught is an exception of the module that it names. -/
theorem C125_accounted {root : Root} {env : Env} {f : FunDecl} {evs : List Ev} {ss : List Str}
    (hn : (f.globals.map (·.1)).Nodup) (hs : f.throws = throwsOf root ss) (h : scanFunction env f = .ok evs) {n : Str}
    {ret : Spec} {ps : List Spec} {kw : Kw} (hl : Ev.item (.line (.func false n ret ps kw)) ∈ evs) :
    (∀ s ∈ ss, Ev.warn (.exception s) ∈ evs ∨
      ∃ fs g, ODict.get kw "throw".toList = some (.refs fs) ∧ g ∈ fs ∧ find root s = some g) ∧
    (∀ fs g, ODict.get kw "throw".toList = some (.refs fs) → (∀ v, ("throw".toList, v) ∉ f.globals) → g ∈ fs →
      ∃ s ∈ ss, ∃ k, excName s = .ok k ∧ root k = some (.exc g)) := by
  have hc := C84_function_partial hn h hl
  obtain ⟨_, _, _, _, _, h1, h2, _⟩ := hc
  have hfound : ∀ g, g ∈ found f.throws ↔ ∃ s ∈ ss, find root s = some g := by
    intro g
    rw [hs]
    unfold found throwsOf
    simp
  constructor
  · intro s hs'
    cases hf : find root s with
    | none =>
      left
      have hw : Warn.exception s ∈ notFound f.throws := by
        rw [hs]
        unfold notFound throwsOf
        simp only [List.mem_map, List.mem_filter]
        exact ⟨(s, find root s), ⟨⟨s, hs', rfl⟩, by rw [hf]; rfl⟩, rfl⟩
      unfold scanFunction at h
      obtain ⟨g, hg, h⟩ := bind_ok h
      split at h
      · cases h; exact absurd hl (noLine_warns _ _)
      obtain ⟨rt, hret, h⟩ := bind_ok h
      obtain ⟨ro, hro, h⟩ := bind_ok h
      obtain ⟨pl, hps, h⟩ := bind_ok h
      obtain ⟨e2, he2, rfl⟩ := map_ok h
      refine List.mem_append_left _ (List.mem_map.mpr ⟨_, List.mem_append_right _ hw, rfl⟩)
    | some g =>
      right
      have hg : g ∈ found f.throws := (hfound g).2 ⟨s, hs', hf⟩
      exact ⟨_, g, h2 (by intro e; rw [e] at hg; cases hg), hg, rfl⟩
  · intro fs g hk hno hg
    have hfs : g ∈ found f.throws := by
      by_cases he : found f.throws = []
      · obtain ⟨s, l, hm, _⟩ := (h1 he _).1 hk
        exact absurd hm (hno _)
      · rw [h2 he] at hk
        cases hk
        exact hg
    obtain ⟨s, hs1, hs2⟩ := (hfound g).1 hfs
    obtain ⟨k, hk1, hk2⟩ := find_sound hs2
    exact ⟨s, hs1, k, hk1, hk2⟩

/-! ## Where it fails -/

/-- Nothing is registered under a name that ends in `const` or `volatile`, which no C++ class does. -/
def Clean (root : Root) : Prop :=
  ∀ n, root n ≠ none → ¬ " const".toList <:+ n ∧ ¬ " volatile".toList <:+ n

theorem renderAux_snoc (b : Bool) (l : List CType.Item) (m : CType.Item) :
    renderAux b (l ++ [m]) = renderAux b l ++ renderItem (b && l.isEmpty) m := by
  induction l generalizing b with
  | nil => simp [renderAux]
  | cons x r ih => simp [renderAux, ih]

theorem render_last {l : List CType.Item} {m : CType.Item} (hl : l ≠ []) (hm : m.isMod = true) :
    " const".toList <:+ render (l ++ [m]) ∨ " volatile".toList <:+ render (l ++ [m]) := by
  cases m with
  | sub c => cases hm
  | tok t =>
    unfold render
    rw [renderAux_snoc]
    have he : l.isEmpty = false := by cases l with
      | nil => exact absurd rfl hl
      | cons _ _ => rfl
    rw [he]
    simp only [Item.isMod, Item.isNamed, Bool.or_eq_true, beq_iff_eq] at hm
    have hg : renderItem (true && false) (.tok t) = ' ' :: t.name := by
      have hgl : isGlue t.name = false := by rcases hm with hm | hm <;> rw [hm] <;> decide
      rw [renderItem, if_neg (by rw [hgl]; simp)]
      rfl
    rw [hg]
    rcases hm with hm | hm
    · left; rw [hm]; exact List.suffix_append _ _
    · right; rw [hm]; exact List.suffix_append _ _

/-- **C125 fails** for exceptions declared by value as `const E` or `volatile E`: whatever the class and the spelling, no
handler is registered for it (there is only a warning that blames a bug). -/
theorem C125_const_counterexample (root : Root) (hc : Clean root) (s : Str) (l : List CType.Item) (k : CType.Item)
    (hd : Denotes s l) (hp : ProperColons s) (hk : k.isPtrRef = false) (hu : unqualified l = [k])
    (hm : ∃ i ∈ l, i.isMod = true) : find root s = none := by
  have hl : ∀ i ∈ l, i.isPtrRef = false := by
    intro i hi
    by_contra hp
    have hp : i.isPtrRef = true := by simpa using hp
    have : i ∈ unqualified l := List.mem_filter.2 ⟨hi, by rw [mod_of_ptr hp]; rfl⟩
    rw [hu, List.mem_singleton] at this
    rw [this, hk] at hp
    cases hp
  have hl' : ∀ i ∈ deepList l, i.isPtrRef = false := by
    intro i hi
    rw [deepList_map] at hi
    obtain ⟨a, ha, rfl⟩ := List.mem_map.mp hi
    rw [deepItem_ptr]; exact hl a ha
  have hcan : deepCanon l = canonSeg (deepList l) := by
    unfold deepCanon canon; rw [canonAcc_end _ [] hl']; rfl
  have hsp : " const".toList <:+ render (deepCanon l) ∨ " volatile".toList <:+ render (deepCanon l) := by
    rw [hcan]
    unfold canonSeg
    have h1 : (deepList l).filter (fun i => !i.isMod) = [deepItem k] := by
      have := Matcher.unqualified_deep l
      rw [hu] at this
      exact this
    rw [h1, List.append_assoc]
    obtain ⟨i, hi, hmod⟩ := hm
    have hi' : deepItem i ∈ (deepList l).filter (·.isNamed kConst) ++ (deepList l).filter (·.isNamed kVolatile) := by
      have hmem : deepItem i ∈ deepList l := by rw [deepList_map]; exact List.mem_map.mpr ⟨i, hi, rfl⟩
      rw [← deepItem_mod] at hmod
      unfold Item.isMod at hmod
      rw [Bool.or_eq_true] at hmod
      rcases hmod with h | h
      · exact List.mem_append_left _ (List.mem_filter.2 ⟨hmem, h⟩)
      · exact List.mem_append_right _ (List.mem_filter.2 ⟨hmem, h⟩)
    rcases List.eq_nil_or_concat ((deepList l).filter (·.isNamed kConst) ++ (deepList l).filter (·.isNamed kVolatile)) with
      hr | ⟨r, y, hr⟩
    · rw [hr] at hi'; cases hi'
    · have hy : y ∈ (deepList l).filter (·.isNamed kConst) ++ (deepList l).filter (·.isNamed kVolatile) := by
        rw [hr]; simp
      rw [hr, List.concat_eq_append, ← List.append_assoc]
      refine render_last (by simp) ?_
      unfold Item.isMod
      rcases List.mem_append.1 hy with h | h
      · rw [(List.mem_filter.1 h).2]; rfl
      · rw [(List.mem_filter.1 h).2]; simp
  unfold find
  rw [name_value hd hp hl]
  simp only
  cases hr : root (render (deepCanon l)) with
  | none => rfl
  | some e => exact hsp.elim (fun h => absurd h (hc _ (by rw [hr]; simp)).1) (fun h => absurd h (hc _ (by rw [hr]; simp)).2)

/-- A module with an exception in a namespace, an instance of a template, and a class. -/
def demoRoot : Root := fun n =>
  if n = "ns::Error".toList then some (.exc "ns::Error".toList)
  else if n = "Pair< int, int >".toList then some (.exc "Pair< int, int >".toList)
  else if n = "A".toList then some .other else none

def thrower (ss : List Str) : FunDecl where
  name := "f".toList
  ret := "int".toList
  args := []
  throws := throwsOf demoRoot ss

/-- The `throw` arguments of what is registered. -/
def thrown : PyRes (List Ev) → List (Option PyVal)
  | .ok evs => evs.filterMap (fun e => match e with
    | .act (.reg (.func _ _ _ _ kw)) => some (ODict.get kw "throw".toList)
    | _ => none)
  | .error _ => []

/-- **C125 fails**, end to end: `int f() throw (const ns::Error)` gets no handler, `throw (ns::Error)` and
`throw (const ns::Error &)` do. -/
theorem C125_value_counterexample :
    thrown (scanFunction demoEnv (thrower ["const ns::Error".toList])) = [none] ∧
    thrown (scanFunction demoEnv (thrower ["ns::Error".toList])) = [some (.refs ["ns::Error".toList])] ∧
    thrown (scanFunction demoEnv (thrower ["const ns::Error &".toList])) = [some (.refs ["ns::Error".toList])] := by
  decide +kernel

/-- **C125 fails** for functions that become methods or constructors of a class: their exceptions are dropped, and the
function is registered as if it threw nothing. -/
theorem C125_as_method_counterexample :
    let asMethod : FunDecl := { thrower ["ns::Error".toList] with globals := [("as_method".toList, some "M".toList), ("of_class".toList, some "A".toList)] }
    let asCtor : FunDecl := { thrower ["ns::Error".toList] with globals := [("is_constructor_of".toList, some "A".toList)] }
    found asMethod.throws = ["ns::Error".toList] ∧
    scanFunction demoEnv asMethod = scanFunction demoEnv { asMethod with throws := [] } ∧
    scanFunction demoEnv asCtor = scanFunction demoEnv { asCtor with throws := [] } := by
  decide +kernel

/-- **C125 fails** for annotations that name an instance of a template with several arguments, or an exception by the
name it has inside its namespace: the scan ends with a `ValueError`. -/
theorem C125_annotation_counterexample :
    throwArg (find demoRoot) (some "Pair<int,int>".toList) = .error .valueError ∧
    throwArg (find demoRoot) (some "Error".toList) = .error .valueError ∧
    find demoRoot "Pair<int,int>".toList = some "Pair< int, int >".toList := by
  decide +kernel

/-- **C125 fails** for the annotation of a declaration that also has a specification, and for constructors: see also
`C84_throw_counterexample` and `C84_constructor_counterexample`. -/
theorem C125_both_counterexample :
    let f : FunDecl := { thrower ["ns::Error".toList] with globals := [("throw".toList, some "E".toList)] }
    thrown (scanFunction demoEnv f) = [some (.refs ["ns::Error".toList])] ∧
    thrown (scanFunction demoEnv { f with throws := [] }) = [some (.refs ["E".toList])] := by
  decide +kernel

/-! ## Non-vacuity -/

theorem names_ex : Names demoRoot "const ::ns::Error &".toList "ns::Error".toList := by
  have hsp : Spells "const ::ns::Error &".toList [⟨.name, "const".toList⟩, ⟨.name, "::ns::Error".toList⟩, ⟨.syntax_, ['&']⟩] := by
    unfold Spells; decide +kernel
  have hpl : ∀ x, Plain ⟨.name, x⟩ := fun x hx => by cases hx.1
  refine ⟨"ns::Error".toList, "ns::Error".toList, [.tok ⟨.name, "ns::Error".toList⟩],
    [.tok ⟨.name, "const".toList⟩, .tok ⟨.name, "ns::Error".toList⟩, amp], ?_, ?_, ?_, ?_, ?_, ?_, ?_⟩
  · exact ⟨[⟨.name, "ns::Error".toList⟩], by unfold Spells; decide +kernel, .plain (hpl _) .nil⟩
  · decide +kernel
  · exact norm_eq _ _ (by decide +kernel)
  · decide +kernel
  · refine ⟨_, hsp, ?_⟩
    exact .plain (hpl _) (.plain (hpl _) (.plain (by unfold Plain bracketNames; decide) .nil))
  · intro ts hts
    unfold Spells at hts hsp
    rw [hsp] at hts
    cases hts
    intro t ht n hn
    simp only [List.mem_cons, List.not_mem_nil, or_false] at ht
    rcases ht with rfl | rfl | rfl
    · exact absurd hn (by simp)
    · have : n = "ns::Error".toList := by simpa using hn.symm
      exact ⟨'n', "s::Error".toList, by rw [this]; rfl, by decide, by decide⟩
    · exact absurd hn (by simp)
  · right; rfl

example : List.Forall₂ (Names demoRoot) ["const ::ns::Error &".toList] ["ns::Error".toList] := .cons names_ex .nil

example : (match scanFunction demoEnv (thrower ["const ::ns::Error &".toList]) with | .ok evs => evs.length | _ => 0) = 2 := by
  decide +kernel

example : Clean demoRoot := by
  intro n hn
  unfold demoRoot at hn
  split at hn
  · rename_i h; subst h; exact ⟨by decide, by decide⟩
  · split at hn
    · rename_i h; subst h; exact ⟨by decide, by decide⟩
    · split at hn
      · rename_i h; subst h; exact ⟨by decide, by decide⟩
      · exact absurd rfl hn

/-- A spelling to which `C125_const_counterexample` applies. -/
example : Denotes "const Error".toList [.tok ⟨.name, "const".toList⟩, .tok ⟨.name, "Error".toList⟩] ∧
    unqualified [.tok ⟨.name, "const".toList⟩, .tok ⟨.name, "Error".toList⟩] = [.tok ⟨.name, "Error".toList⟩] :=
  ⟨⟨[⟨.name, "const".toList⟩, ⟨.name, "Error".toList⟩], by unfold Spells; decide +kernel,
    .plain (fun hx => by cases hx.1) (.plain (fun hx => by cases hx.1) .nil)⟩, rfl⟩

end Verif.Throws
