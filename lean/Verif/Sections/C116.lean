import Mathlib.Data.List.Nodup
import Verif.Sections.Count

/-!
# C116: a module divided into sections compiles and links

The statements; what the words mean is in `Verif/Sections/Spec.lean`.
-/
namespace Verif.Sections

/-! ## Counting -/

theorem definitions_evs (s : Sym) (f : File) : ∀ out : List (File × Ev),
    definitions (evs out f) s ≤ (defsOf out).count s := by
  intro out
  induction out with
  | nil => simp [definitions, evs, defsOf]
  | cons x out ih =>
    obtain ⟨f', e⟩ := x
    have e1 : evs ((f', e) :: out) f = (if f' = f then [e] else []) ++ evs out f := by
      simp only [evs, List.filterMap_cons]; by_cases h : f' = f <;> simp [h]
    have e2 : defsOf ((f', e) :: out) = defsIn [e] ++ defsOf out := by
      simp only [defsOf, defsIn, List.filterMap_cons]; cases e <;> simp
    rw [e1, e2, List.count_append]
    unfold definitions at ih ⊢
    rw [List.countP_append]
    have : List.countP (fun e => decide (e = Ev.defn s true ∨ e = Ev.defn s false)) (if f' = f then [e] else []) ≤
        List.count s (defsIn [e]) := by
      split
      · cases e with
        | defn a b =>
          by_cases h : a = s
          · subst h; cases b <;> simp [defsIn]
          · simp [h]
        | _ => simp
      · simp
    omega

theorem definitions_two (s : Sym) {f k : File} (hne : f ≠ k) : ∀ out : List (File × Ev),
    definitions (evs out f) s + definitions (evs out k) s ≤ (defsOf out).count s := by
  intro out
  induction out with
  | nil => simp [definitions, evs, defsOf]
  | cons x out ih =>
    obtain ⟨f', e⟩ := x
    have e1 : ∀ f, evs ((f', e) :: out) f = (if f' = f then [e] else []) ++ evs out f := by
      intro f
      simp only [evs, List.filterMap_cons]; by_cases h : f' = f <;> simp [h]
    have e2 : defsOf ((f', e) :: out) = defsIn [e] ++ defsOf out := by
      simp only [defsOf, defsIn, List.filterMap_cons]; cases e <;> simp
    rw [e1, e1, e2, List.count_append]
    unfold definitions at ih ⊢
    rw [List.countP_append, List.countP_append]
    have : List.countP (fun e => decide (e = Ev.defn s true ∨ e = Ev.defn s false)) (if f' = f then [e] else []) +
        List.countP (fun e => decide (e = Ev.defn s true ∨ e = Ev.defn s false)) (if f' = k then [e] else []) ≤
        List.count s (defsIn [e]) := by
      have h1 : List.countP (fun e => decide (e = Ev.defn s true ∨ e = Ev.defn s false)) [e] ≤ List.count s (defsIn [e]) := by
        cases e with
        | defn a b =>
          by_cases h : a = s
          · subst h; cases b <;> simp [defsIn]
          · simp [h]
        | _ => simp
      by_cases hf : f' = f
      · have hk : f' ≠ k := fun h => hne (hf.symm.trans h)
        simp only [hf, if_true]
        rw [if_neg (by rw [← hf]; exact hk)]
        simpa using h1
      · rw [if_neg hf]
        split
        · simpa using h1
        · simp
    omega

theorem definitions_pos {u : List Ev} {s : Sym} {b : Bool} (h : Ev.defn s b ∈ u) : 1 ≤ definitions u s := by
  unfold definitions
  exact List.one_le_countP_iff.mpr ⟨_, h, by cases b <;> simp⟩

theorem definitions_append (u v : List Ev) (s : Sym) : definitions (u ++ v) s = definitions u s + definitions v s :=
  List.countP_append

/-! ## The end state -/

structure Final (g : Cfg) (p : Mod) (st : St) : Prop where
  inv : Inv g p st
  hdr : st.hdr = []
  once : ∀ s, (defsOf st.out).count s ≤ 1
  all : ∀ s ∈ p.symbols g, s ∈ defsOf st.out

theorem symbols_ent {g : Cfg} {p : Mod} : ∀ s ∈ p.symbols g, ByEnt p s := by
  intro s hs
  obtain ⟨b, hb, hs⟩ := List.mem_flatMap.mp hs
  unfold Body.symbols at hs
  simp only [List.mem_append] at hs
  rcases hs with ((((h | h) | h) | h) | h) | h
  · obtain ⟨fn, -, h⟩ := List.mem_flatMap.mp h; exact fn_symbols_ent s h
  · rw [List.mem_singleton] at h; exact nonconv (by rw [h]; intro d t h; cases h)
  · obtain ⟨c, -, h⟩ := List.mem_flatMap.mp h; exact item_symbols_ent s h
  · obtain ⟨c, hc, h⟩ := List.mem_flatMap.mp h; exact cont_symbols_ent hb hc s h
  · obtain ⟨c, -, rfl⟩ := List.mem_map.mp h; exact nonconv (by intro d t h; cases h)
  · simp only [List.mem_cons, List.not_mem_nil, or_false] at h
    rcases h with rfl | rfl <;> exact nonconv (by intro d t h; cases h)

theorem initial_defs (g : Cfg) (p : Mod) (once : List Sym) : defsOf (initial g p once).out = [] := by
  rw [List.eq_nil_iff_forall_not_mem]
  intro s hs
  obtain ⟨f, b, h⟩ := mem_defsOf.mp hs
  rcases mem_initial.mp h with ⟨-, -, h⟩ | ⟨-, x, -, h⟩ <;> cases h

theorem generate_final {g : Cfg} {p : Mod} {st : St} (hc : p.Closed) (hd : (p.symbols g).Nodup) (hm : p.MetasDeclared g)
    (h : generate g p = .ok st) : Final g p st := by
  unfold generate at h
  cases ho : declareAll [] (p.bodies.flatMap Body.contConvs) with
  | error e => rw [ho] at h; cases h
  | ok once =>
    rw [ho] at h
    injection h with h
    subst h
    obtain ⟨h1, -, h3, -⟩ := genMod_inv hc hm p true _ (fun _ hb => hb) (initial_inv ho)
    have hci : CInv p (initial g p once) := by
      refine ⟨?_, ?_, ?_⟩
      · intro s hs
        show s ∈ once
        rw [declareAll_mem _ _ _ ho]
        exact List.mem_append_right _ hs
      · intro s _; rw [initial_defs]; simp
      · intro s _ hs; rw [initial_defs] at hs; cases hs
    obtain ⟨k1, k2⟩ := Adds.genMod g p true _ (fun _ hb => hb) hci
    rw [initial_defs] at k2
    refine ⟨h1, h3, ?_, ?_⟩
    · intro s
      by_cases hs : ByEnt p s
      · rw [k2 s hs]
        rw [List.count_nil, Nat.zero_add]; exact List.nodup_iff_count_le_one.mp hd s
      · exact k1.atMost s hs
    · intro s hs
      rw [← List.count_pos_iff, k2 s (symbols_ent s hs)]
      rw [List.count_nil, Nat.zero_add]; exact List.count_pos_iff.mpr hs

/-! ## Translation units -/

theorem flatMap_noIncl (hs : List Ev) : ∀ r : List Ev, .incl ∉ r → r.flatMap (fun e => if e = .incl then hs else [e]) = r
  | [], _ => rfl
  | e :: r, h => by
    rw [List.flatMap_cons, flatMap_noIncl hs r (fun x => h (List.mem_cons_of_mem _ x)),
      if_neg (fun he => h (by rw [he]; simp))]
    rfl

/-- Every unit is the header followed by the rest of the file. -/
theorem unit_shape {g : Cfg} {p : Mod} {st : St} (hi : Inv g p st) {f : File} (hf : f ∈ st.files) :
    f ≠ .header ∧ ∃ pre r, evs st.out f = pre ++ r ∧ (∀ e ∈ pre, e = .incl) ∧
      st.unit g f = evs st.out .header ++ r := by
  unfold St.files at hf
  rcases List.mem_cons.mp hf with rfl | hf
  · refine ⟨fun h => (by cases h), ?_⟩
    have := hi.incl.main
    unfold St.unit
    split at this
    · rename_i hg
      obtain ⟨r, h1, h2⟩ := this
      refine ⟨[.incl], r, h1, by simp, ?_⟩
      rw [if_pos hg, h1, List.flatMap_cons, flatMap_noIncl _ r h2, if_pos rfl]
    · rename_i hg
      exact ⟨[], evs st.out .main, rfl, by simp, by rw [if_neg hg]⟩
  · obtain ⟨x, hx, rfl⟩ := List.mem_map.mp hf
    refine ⟨fun h => (by cases h), ?_⟩
    obtain ⟨hg, r, h1, h2⟩ := hi.incl.sects x hx
    refine ⟨[.incl], r, h1, by simp, ?_⟩
    unfold St.unit
    rw [if_pos hg, h1, List.flatMap_cons, flatMap_noIncl _ r h2, if_pos rfl]

theorem definitions_header {g : Cfg} {p : Mod} {st : St} (hi : Inv g p st) (s : Sym) :
    definitions (evs st.out .header) s = 0 := by
  unfold definitions
  rw [List.countP_eq_zero]
  intro e he
  obtain ⟨x, rfl⟩ := hi.hdrOnly e (mem_evs.mp he)
  simp

theorem definitions_unit {g : Cfg} {p : Mod} {st : St} (hi : Inv g p st) {f : File} (hf : f ∈ st.files) (s : Sym) :
    definitions (st.unit g f) s = definitions (evs st.out f) s := by
  obtain ⟨-, pre, r, h1, h2, h3⟩ := unit_shape hi hf
  rw [h1, h3, definitions_append, definitions_append, definitions_header hi]
  have : definitions pre s = 0 := by
    unfold definitions
    rw [List.countP_eq_zero]
    intro e he
    rw [h2 e he]
    simp
  omega

/-- Where definitions are. -/
theorem defn_file {g : Cfg} {p : Mod} {st : St} (hi : Inv g p st) {f : File} {s : Sym} {b : Bool}
    (h : (f, Ev.defn s b) ∈ st.out) : f ∈ st.files ∧ Ev.defn s b ∈ st.unit g f := by
  have hf : f ∈ st.files := by
    cases f with
    | header => obtain ⟨x, hx⟩ := hi.hdrOnly _ h; cases hx
    | main => simp [St.files]
    | sect x =>
      by_cases hx : x ∈ st.inited
      · simp [St.files, hx]
      · have := mem_evs.mpr h
        rw [hi.incl.others x hx] at this
        cases this
  refine ⟨hf, ?_⟩
  obtain ⟨-, pre, r, h1, h2, h3⟩ := unit_shape hi hf
  have hm := mem_evs.mpr h
  rw [h1] at hm
  rw [h3]
  rcases List.mem_append.mp hm with hm | hm
  · cases h2 _ hm
  · exact List.mem_append_right _ hm

theorem unit_defn {g : Cfg} {p : Mod} {st : St} (hi : Inv g p st) {f : File} (hf : f ∈ st.files) {s : Sym} {b : Bool}
    (h : Ev.defn s b ∈ st.unit g f) : (f, Ev.defn s b) ∈ st.out := by
  obtain ⟨-, pre, r, h1, h2, h3⟩ := unit_shape hi hf
  rw [h3] at h
  rcases List.mem_append.mp h with h | h
  · obtain ⟨x, hx⟩ := hi.hdrOnly _ (mem_evs.mp h); cases hx
  · exact mem_evs.mp (by rw [h1]; exact List.mem_append_right _ h)

theorem unit_use {g : Cfg} {p : Mod} {st : St} (hi : Inv g p st) {f : File} (hf : f ∈ st.files) {s : Sym}
    (h : Ev.use s ∈ st.unit g f) : (f, Ev.use s) ∈ st.out := by
  obtain ⟨-, pre, r, h1, h2, h3⟩ := unit_shape hi hf
  rw [h3] at h
  rcases List.mem_append.mp h with h | h
  · obtain ⟨x, hx⟩ := hi.hdrOnly _ (mem_evs.mp h); cases hx
  · exact mem_evs.mp (by rw [h1]; exact List.mem_append_right _ h)

theorem files_nodup {g : Cfg} {p : Mod} {st : St} (hi : Inv g p st) : st.files.Nodup := by
  unfold St.files
  rw [List.nodup_cons]
  refine ⟨by simp, ?_⟩
  exact hi.incl.nodup.map (f := File.sect) (fun a b h => by injection h)

theorem final_links {g : Cfg} {p : Mod} {st : St} (hF : Final g p st) : Links (st.units g) := by
  have hi := hF.inv
  refine ⟨?_, ?_, ?_, ?_⟩
  · intro u hu pre s post he
    obtain ⟨f, hf, rfl⟩ := List.mem_map.mp hu
    obtain ⟨hn, p0, r, h1, h2, h3⟩ := unit_shape hi hf
    rw [h3] at he
    rcases List.append_eq_append_iff.mp he with ⟨l, k1, k2⟩ | ⟨l, k1, k2⟩
    · -- pre = header ++ l
      have : evs st.out f = (p0 ++ l) ++ .use s :: post := by rw [h1, k2]; simp
      rcases hi.scope f hn _ s post this with h | h | ⟨b, h⟩
      · rcases h with h | h
        · left
          rw [k1]
          exact List.mem_append_left _ (mem_evs.mpr h)
        · rw [hF.hdr] at h; cases h
      · rcases List.mem_append.mp h with h | h
        · cases h2 _ h
        · left; rw [k1]; exact List.mem_append_right _ h
      · rcases List.mem_append.mp h with h | h
        · cases h2 _ h
        · right; exact ⟨b, by rw [k1]; exact List.mem_append_right _ h⟩
    · cases l with
      | nil =>
        simp only [List.append_nil] at k1
        simp only [List.nil_append] at k2
        have : evs st.out f = p0 ++ .use s :: post := by rw [h1, ← k2]
        rcases hi.scope f hn _ s post this with h | h | ⟨b, h⟩
        · rcases h with h | h
          · left
            rw [← k1]
            exact mem_evs.mpr h
          · rw [hF.hdr] at h; cases h
        · cases h2 _ h
        · cases h2 _ h
      | cons x l =>
        simp only [List.cons_append, List.cons.injEq] at k2
        obtain ⟨rfl, -⟩ := k2
        have : Ev.use s ∈ evs st.out .header := by rw [k1]; simp
        obtain ⟨y, hy⟩ := hi.hdrOnly _ (mem_evs.mp this)
        cases hy
  · intro u hu s
    obtain ⟨f, hf, rfl⟩ := List.mem_map.mp hu
    rw [definitions_unit hi hf]
    exact Nat.le_trans (definitions_evs s f st.out) (hF.once s)
  · intro i j u v s hu hv hsu hsv
    unfold St.units at hu hv
    rw [List.getElem?_map, Option.map_eq_some_iff] at hu hv
    obtain ⟨f, hf, rfl⟩ := hu
    obtain ⟨k, hk, rfl⟩ := hv
    have hf' := List.mem_of_getElem? hf
    have hk' := List.mem_of_getElem? hk
    by_cases hfk : f = k
    · subst hfk
      have hlt := (List.getElem?_eq_some_iff.mp hf).1
      exact (List.getElem?_inj hlt (files_nodup hi)).mp (hf.trans hk.symm)
    · exfalso
      have h1 := definitions_pos hsu
      have h2 := definitions_pos hsv
      rw [definitions_unit hi hf'] at h1
      rw [definitions_unit hi hk'] at h2
      have h3 := definitions_two s hfk st.out
      have h4 := hF.once s
      omega
  · intro u hu s hs
    obtain ⟨f, hf, rfl⟩ := List.mem_map.mp hu
    have ext : s ∈ defsOf st.out → s.isStatic = false → ∃ v ∈ st.units g, Ev.defn s false ∈ v := by
      intro h1 h2
      obtain ⟨k, b, hk⟩ := mem_defsOf.mp h1
      cases b with
      | true => rw [hi.statics k s hk] at h2; cases h2
      | false =>
        obtain ⟨a1, a2⟩ := defn_file hi hk
        exact ⟨_, List.mem_map.mpr ⟨k, a1, rfl⟩, a2⟩
    rcases hi.resolved f s (unit_use hi hf hs) with h | ⟨h1, h2⟩ | ⟨b, h⟩
    · exact .inr (ext (hF.all s h.2.1) h.2.2)
    · exact .inr (ext h1 h2)
    · exact .inl ⟨b, (defn_file hi h).2⟩

/-- **C116**: however the declarations of a module and its submodules are divided into sections, and also if they
are not, the files that are written compile and link: in every file each C symbol is declared before it is used
and defined at most once, no symbol has two external definitions, and every used one is defined.  Provided what
is mentioned is registered, different things have different names, and classes with static attributes have no
name prefix or are in the main file. -/
theorem C116_links_partial (g : Cfg) (p : Mod) (st : St) (hc : p.Closed) (hd : (p.symbols g).Nodup)
    (hm : p.MetasDeclared g) (h : generate g p = .ok st) : Links (st.units g) :=
  final_links (generate_final hc hd hm h)

/-- **C116**: generation succeeds unless two containers have the same C type. -/
theorem C116_generates (g : Cfg) (p : Mod) (hd : (p.bodies.flatMap (fun b => b.conts.map (·.ctype))).Nodup) :
    ∃ st, generate g p = .ok st := by
  have key : ∀ (ss once : List Sym), ss.Nodup → (∀ s ∈ ss, s ∉ once) → ∃ r, declareAll once ss = .ok r := by
    intro ss
    induction ss with
    | nil => intro once _ _; exact ⟨once, rfl⟩
    | cons s ss ih =>
      intro once hn hs
      simp only [declareAll]
      rw [if_neg (hs s (by simp))]
      obtain ⟨h1, h2⟩ := List.nodup_cons.mp hn
      refine ih _ h2 ?_
      intro x hx hm
      rcases List.mem_append.mp hm with hm | hm
      · exact hs x (by simp [hx]) hm
      · rw [List.mem_singleton] at hm; subst hm; exact h1 hx
  have hn : (p.bodies.flatMap Body.contConvs).Nodup := by
    have : p.bodies.flatMap Body.contConvs = (p.bodies.flatMap (fun b => b.conts.map (·.ctype))).map (.conv .py2c) := by
      rw [List.map_flatMap]
      simp only [Body.contConvs, List.map_map]
      rfl
    rw [this]
    exact hd.map (f := Sym.conv .py2c) (fun a b h => by injection h)
  obtain ⟨r, hr⟩ := key _ [] hn (by simp)
  exact ⟨_, by unfold generate; rw [hr]; rfl⟩

/-- **C116**: two containers with the same C type, anywhere in the project, stop the generation with a `KeyError`. -/
theorem C116_same_container (g : Cfg) (p : Mod) (hd : ¬ (p.bodies.flatMap (fun b => b.conts.map (·.ctype))).Nodup) :
    generate g p = .error .keyError := by
  have key : ∀ (ss once : List Sym), ¬ ss.Nodup ∨ (∃ s ∈ ss, s ∈ once) → declareAll once ss = .error .keyError := by
    intro ss
    induction ss with
    | nil =>
      rintro once (h | ⟨s, h, -⟩)
      · exact absurd List.nodup_nil h
      · cases h
    | cons s ss ih =>
      intro once h
      simp only [declareAll]
      split
      · rfl
      · rename_i hn
        refine ih _ ?_
        rcases h with h | ⟨x, hx, hm⟩
        · rw [List.nodup_cons, Classical.not_and_iff_not_or_not, Classical.not_not] at h
          rcases h with h | h
          · exact .inr ⟨s, h, by simp⟩
          · exact .inl h
        · rcases List.mem_cons.mp hx with rfl | hx
          · exact absurd hm hn
          · exact .inr ⟨x, hx, List.mem_append_left _ hm⟩
  have hn : ¬ (p.bodies.flatMap Body.contConvs).Nodup := by
    have : p.bodies.flatMap Body.contConvs = (p.bodies.flatMap (fun b => b.conts.map (·.ctype))).map (.conv .py2c) := by
      rw [List.map_flatMap]
      simp only [Body.contConvs, List.map_map]
      rfl
    rw [this]
    intro h
    exact hd h.of_map
  unfold generate
  rw [key _ [] (.inl hn)]
  rfl

/-! ## Dividing only moves code -/

/-- Everything written, in the order it is written, whatever the file. -/
def St.text (st : St) : List Ev := (st.out.map (·.2)).filter (· ≠ .incl)

/-- The same except for the files. -/
structure Same (a b : St) : Prop where
  text : a.text = b.text
  once : a.once = b.once
  hdr : a.hdr = b.hdr

theorem text_emit (f : File) (es : List Ev) (st : St) : (emit f es st).text = st.text ++ es.filter (· ≠ .incl) := by
  unfold St.text emit
  simp [List.map_map, Function.comp_def]

theorem Same.emit {a b : St} (h : Same a b) (f k : File) (es : List Ev) : Same (emit f es a) (emit k es b) :=
  ⟨by rw [text_emit, text_emit, h.text], h.once, h.hdr⟩

theorem Same.sinkFor {a b : St} (h : Same a b) (g g' : Cfg) (x : Str) : Same (sinkFor g x a).2 (sinkFor g' x b).2 := by
  have one : ∀ (g : Cfg) (a : St), (Sections.sinkFor g x a).2.text = a.text ∧ (Sections.sinkFor g x a).2.once = a.once ∧
      (Sections.sinkFor g x a).2.hdr = a.hdr := by
    intro g a
    unfold Sections.sinkFor
    split
    · exact ⟨rfl, rfl, rfl⟩
    split
    · exact ⟨rfl, rfl, rfl⟩
    · refine ⟨?_, rfl, rfl⟩
      rw [text_emit]
      simp [St.text]
  obtain ⟨a1, a2, a3⟩ := one g a
  obtain ⟨b1, b2, b3⟩ := one g' b
  exact ⟨by rw [a1, b1, h.text], by rw [a2, b2, h.once], by rw [a3, b3, h.hdr]⟩

/-- Settings that agree but for the division into files. -/
def Cfg.like (g g' : Cfg) : Prop := g.pfx = g'.pfx ∧ g.registry = g'.registry

theorem like_cases {g g' : Cfg} (h : g.like g') : g' = { g with multi := g'.multi } := by
  obtain ⟨h1, h2⟩ := h
  cases g; cases g'
  simp only at h1 h2
  subst h1 h2
  rfl

theorem Same.genConvs {g : Cfg} (m : Bool) (f k : File) : ∀ (cs : List Conv) {a b : St}, Same a b →
    Same (genConvs g f cs a) (genConvs { g with multi := m } k cs b)
  | [], _, _, h => h
  | c :: cs, a, b, h => by
    refine Same.genConvs m f k cs ?_
    unfold genConv
    dsimp only
    rw [h.once]
    split
    · exact h
    · exact Same.emit (a := { a with once := b.once ++ [c.sym], hdr := a.hdr ++ [c.sym] })
        (b := { b with once := b.once ++ [c.sym], hdr := b.hdr ++ [c.sym] })
        ⟨h.text, rfl, by rw [h.hdr]⟩ f k (.defn c.sym false :: usesOf g c.refs)

theorem Same.foldl {α : Type _} {f k : St → α → St} (hf : ∀ x a b, Same a b → Same (f a x) (k b x)) :
    ∀ (xs : List α) {a b : St}, Same a b → Same (xs.foldl f a) (xs.foldl k b)
  | [], _, _, h => h
  | x :: xs, _, _, h => Same.foldl hf xs (hf x _ _ h)

theorem Same.genFn {g : Cfg} (m : Bool) (n : Str) (fn : Fn) (a b : St) (h : Same a b) :
    Same (genFn g n a fn) (genFn { g with multi := m } n b fn) := by
  unfold Sections.genFn
  have hc : fn.code { g with multi := m } n = fn.code g n := rfl
  rw [hc]
  dsimp only
  cases fn.code g n with
  | none => exact h.sinkFor _ _ _
  | some es => exact ((h.sinkFor _ _ _).emit _ _ _).emit _ _ _

theorem Same.genItem {g : Cfg} (m : Bool) (c : Item) (a b : St) (h : Same a b) :
    Same (genItem g a c) (genItem { g with multi := m } b c) := by
  unfold Sections.genItem
  dsimp only
  split
  · exact (h.sinkFor _ _ _).emit _ _ _
  · exact Same.emit (Same.genConvs m _ _ _ ((h.sinkFor g { g with multi := m } c.sect).emit _ _ (c.before g))) _ _ _

theorem Same.genCont {g : Cfg} (m : Bool) (c : Cont) (a b : St) (h : Same a b) :
    Same (genCont g a c) (genCont { g with multi := m } b c) := by
  unfold Sections.genCont
  dsimp only
  exact Same.emit (Same.genConvs m _ _ _ ((h.sinkFor g { g with multi := m } c.sect).emit _ _ _)) _ _ _

theorem Same.genExc {g : Cfg} (m : Bool) (e : Exc) (a b : St) (h : Same a b) :
    Same (genExc g a e) (genExc { g with multi := m } b e) := (h.sinkFor _ _ _).emit _ _ _

theorem Same.finish {g : Cfg} (m : Bool) (root : Bool) (b : Body) (subs : List Str) {x y : St} (h : Same x y) :
    Same (finish g root b subs x) (finish { g with multi := m } root b subs y) := by
  unfold Sections.finish
  refine Same.emit ?_ _ _ _
  have := h.emit .header .header (x.hdr.map .decl)
  refine ⟨?_, ?_, rfl⟩
  · have e := this.text
    rw [h.hdr] at e
    unfold flushHeader
    rw [h.hdr]
    exact e
  · exact h.once

theorem Same.genBody {g : Cfg} (m : Bool) (root : Bool) (b : Body) (subs : List Str) {x y : St} (h : Same x y) :
    Same (genBody g root b subs x) (genBody { g with multi := m } root b subs y) :=
  Same.finish m root b subs (Same.foldl (Same.genExc m) _ (Same.foldl (Same.genCont m) _ (Same.foldl (Same.genItem m) _
    (Same.emit (Same.foldl (Same.genFn m b.name) _ h) _ _ _))))

mutual
theorem Same.genMod {g : Cfg} (m : Bool) : ∀ (d : Mod) (root : Bool) {x y : St}, Same x y →
    Same (genMod g root d x) (genMod { g with multi := m } root d y)
  | .mk b subs, root, _, _, h => by
    simp only [Sections.genMod]
    exact Same.genBody m root b _ (Same.genMods m subs h)
theorem Same.genMods {g : Cfg} (m : Bool) : ∀ (ds : List Mod) {x y : St}, Same x y →
    Same (genMods g ds x) (genMods { g with multi := m } ds y)
  | [], _, _, h => by simpa only [Sections.genMods] using h
  | d :: ds, _, _, h => by
    simp only [Sections.genMods]
    exact Same.genMods m ds (Same.genMod m d false h)
end

/-- **C116**: dividing a module into sections only moves code: the same declarations, definitions and uses are
written, in the same order, as into one file; and generation fails for the same projects. -/
theorem C116_division (g g' : Cfg) (p : Mod) (h : g.like g') :
    (generate g p).map St.text = (generate g' p).map St.text := by
  rw [like_cases h]
  unfold generate
  cases declareAll [] (p.bodies.flatMap Body.contConvs) with
  | error e => rfl
  | ok once =>
    refine congrArg Except.ok ?_
    refine (Same.genMod g'.multi p true ?_).text
    refine ⟨?_, rfl, rfl⟩
    unfold initial St.text
    dsimp only
    have : ∀ b : Bool, ((if b = true then [(File.main, Ev.incl)] else []).map (·.2)).filter (· ≠ Ev.incl) = [] := by
      intro b; cases b <;> rfl
    rw [List.map_append, List.filter_append, this, List.map_append, List.filter_append, this]
    rfl

/-- **C116**: the declarations in the common header are all the symbols shared between files: whatever a file uses
without declaring or defining it further up itself is declared there. -/
theorem C116_header (g : Cfg) (p : Mod) (st : St) (hc : p.Closed) (hd : (p.symbols g).Nodup)
    (hm : p.MetasDeclared g) (h : generate g p = .ok st) (f : File) (hf : f ≠ .header) (pre : List Ev) (s : Sym)
    (post : List Ev) (he : evs st.out f = pre ++ .use s :: post) :
    .decl s ∈ evs st.out .header ∨ .decl s ∈ pre ∨ ∃ b, .defn s b ∈ pre := by
  have hF := generate_final hc hd hm h
  rcases hF.inv.scope f hf pre s post he with h | h
  · rcases h with h | h
    · exact .inl (mem_evs.mpr h)
    · rw [hF.hdr] at h; cases h
  · exact .inr h

/-- **C116**: when there are several files, every one that is compiled begins with the include of the common header and
includes it nowhere else. -/
theorem C116_included (g : Cfg) (p : Mod) (st : St) (hg : g.multi = true) (hc : p.Closed) (hd : (p.symbols g).Nodup)
    (hm : p.MetasDeclared g) (h : generate g p = .ok st) (f : File) (hf : f ∈ st.files) :
    ∃ r, evs st.out f = .incl :: r ∧ .incl ∉ r := by
  have hF := (generate_final hc hd hm h).inv.incl
  unfold St.files at hf
  rcases List.mem_cons.mp hf with rfl | hf
  · have := hF.main
    rw [if_pos hg] at this
    exact this
  · obtain ⟨x, hx, rfl⟩ := List.mem_map.mp hf
    exact (hF.sects x hx).2

/-! ## Concrete projects -/

/-- A root class `A` with a helper class, static attributes and an iterator, in section `one`. -/
def exA : Cls := .root ⟨"A".toList, false, true⟩
/-- Its subclass `B`, in section `two`. -/
def exB : Cls := .sub ⟨"B".toList, false, true⟩ exA
/-- A class imported from another module. -/
def exI : Cls := .root ⟨"I".toList, true, true⟩

/-- The project: functions (one overloaded) in two sections, three classes, a container and an exception, and a
submodule with a function. -/
def exMod : Mod :=
  .mk { name := "foo".toList
        fns := [⟨"f".toList, [⟨"one".toList, true, [.cls exB]⟩]⟩,
                ⟨"g".toList, [⟨"two".toList, true, [.cls exA, .exc "E".toList]⟩, ⟨"one".toList, false, []⟩, ⟨"two".toList, true, [.cls exI]⟩]⟩]
        classes := [⟨exA, "one".toList, [], none, true, true, ["v".toList], ["init".toList], [.cls exB], [⟨.py2c, "A".toList, [.cls exA]⟩]⟩,
                    ⟨exB, "two".toList, [exI], some exA, false, false, [], ["init".toList], [.exc "E".toList], [⟨.py2c, "A".toList, [.cls exA]⟩]⟩,
                    ⟨exI, mainName, [], none, false, false, [], [], [], []⟩]
        conts := [⟨"VecB".toList, "std::vector<B>".toList, "two".toList, none, ["init".toList], [.cls exB], [⟨.c2py, "B".toList, [.cls exB]⟩]⟩]
        excs := [⟨"E".toList, "one".toList, none, some exA⟩]
        typedefs := [exB], enumOuter := [exA] }
    [.mk ⟨"foo_sub".toList, [⟨"h".toList, [⟨"three".toList, true, [.cont "VecB".toList "std::vector<B>".toList]⟩]⟩], [], [], [], [], []⟩ []]

/-- Settings without a prefix, several files. -/
def exCfg : Cfg := ⟨[], true, true⟩

theorem exMod_closed : exMod.Closed := by
  intro b hb r hr
  simp only [exMod, Mod.bodies, bodiesAll, List.append_nil, List.mem_cons, List.not_mem_nil, or_false] at hb
  have hA : exMod.hasCls exA := ⟨_, .head _, _, .head _, rfl⟩
  have hB : exMod.hasCls exB := ⟨_, .head _, _, .tail _ (.head _), rfl⟩
  have hI : exMod.hasCls exI := ⟨_, .head _, _, .tail _ (.tail _ (.head _)), rfl⟩
  have hE : exMod.has (.exc "E".toList) := ⟨_, .head _, _, .head _, rfl⟩
  have hV : exMod.has (.cont "VecB".toList "std::vector<B>".toList) := ⟨_, .head _, _, .head _, rfl, rfl⟩
  have all : ∀ r ∈ [Ref.cls exA, .cls exB, .cls exI, .exc "E".toList, .cont "VecB".toList "std::vector<B>".toList], exMod.has r := by
    intro r hr
    simp only [List.mem_cons, List.not_mem_nil, or_false] at hr
    rcases hr with rfl | rfl | rfl | rfl | rfl
    · exact hA
    · exact hB
    · exact hI
    · exact hE
    · exact hV
  refine all r ?_
  rcases hb with rfl | rfl <;> revert r <;> decide +kernel

/-- The project satisfies the hypotheses of `C116_links_partial`, is generated into a main file and three section
files, and the files link. -/
example : exMod.Closed ∧ (exMod.symbols exCfg).Nodup ∧ exMod.MetasDeclared exCfg ∧
    ∃ st, generate exCfg exMod = .ok st ∧ st.files.length = 4 ∧ Links (st.units exCfg) := by
  have hd : (exMod.symbols exCfg).Nodup := by decide +kernel
  have hm : exMod.MetasDeclared exCfg := fun b _ c _ _ _ => .inl rfl
  obtain ⟨st, hst⟩ := C116_generates exCfg exMod (by decide +kernel)
  refine ⟨exMod_closed, hd, hm, st, hst, ?_, C116_links_partial _ _ _ exMod_closed hd hm hst⟩
  have : (generate exCfg exMod).map (fun st => st.files.length) = .ok 4 := by decide +kernel
  rw [hst] at this
  injection this

/-- A class with a static attribute in a section of its own. -/
def metaMod : Mod :=
  .mk { name := "foo".toList, fns := [], classes := [⟨exA, "one".toList, [], none, true, false, [], [], [], []⟩], conts := [], excs := [], typedefs := [], enumOuter := [] } []

/-- **C116** is false when there is a name prefix: the metaclass of a class with static attributes is then
declared under another name than it is defined and used with (cppclass.py:1851 against cppattribute.py:270-271), and
if the class has a section of its own the main file does not compile.  All other hypotheses of
`C116_links_partial` hold. -/
theorem C116_metaclass_counterexample : ∃ (g : Cfg) (p : Mod) (st : St), p.Closed ∧ (p.symbols g).Nodup ∧
    generate g p = .ok st ∧ ¬ Links (st.units g) := by
  have hg : generate ⟨"Foo".toList, true, true⟩ metaMod =
      .ok (genMod ⟨"Foo".toList, true, true⟩ true metaMod (initial ⟨"Foo".toList, true, true⟩ metaMod [])) := rfl
  refine ⟨⟨"Foo".toList, true, true⟩, metaMod, _, ?_, by decide +kernel, hg, ?_⟩
  · intro b hb r hr
    simp only [metaMod, Mod.bodies, bodiesAll, List.mem_cons, List.not_mem_nil, or_false] at hb
    subst hb
    have : r ∉ ([] : List Ref) := by simp
    exact absurd hr this
  · intro hl
    have hu : Ev.use (.metaT "Foo".toList "A".toList) ∈ (genMod ⟨"Foo".toList, true, true⟩ true metaMod
        (initial ⟨"Foo".toList, true, true⟩ metaMod [])).unit ⟨"Foo".toList, true, true⟩ .main := by decide +kernel
    have hd : Ev.decl (.metaT "Foo".toList "A".toList) ∉ (genMod ⟨"Foo".toList, true, true⟩ true metaMod
        (initial ⟨"Foo".toList, true, true⟩ metaMod [])).unit ⟨"Foo".toList, true, true⟩ .main := by decide +kernel
    have hn : ∀ b, Ev.defn (.metaT "Foo".toList "A".toList) b ∉ (genMod ⟨"Foo".toList, true, true⟩ true metaMod
        (initial ⟨"Foo".toList, true, true⟩ metaMod [])).unit ⟨"Foo".toList, true, true⟩ .main := by decide +kernel
    obtain ⟨pre, post, he⟩ := List.append_of_mem hu
    rcases hl.compiles _ (List.mem_map.mpr ⟨.main, by simp [St.files], rfl⟩) pre _ post he with h | ⟨b, h⟩
    · exact hd (by rw [he]; exact List.mem_append_left _ h)
    · exact hn b (by rw [he]; exact List.mem_append_left _ h)

end Verif.Sections
