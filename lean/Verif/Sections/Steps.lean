import Verif.Sections.Props

/-! # C116: every step of the generation keeps the invariant -/
namespace Verif.Sections

/-! ## What is mentioned is provided -/

theorem mem_ordered {b : Body} {c : Item} : c ∈ b.ordered ↔ c ∈ b.classes := by
  unfold Body.ordered
  rw [List.mem_append, List.mem_filter, List.mem_filter]
  constructor
  · rintro (h | h) <;> exact h.1
  · intro h
    cases hi : c.cls.info.imported
    · exact .inr ⟨h, by simp [hi]⟩
    · exact .inl ⟨h, by simp [hi]⟩

theorem prov_item {g : Cfg} {p : Mod} {b : Body} {c : Item} (hb : b ∈ p.bodies) (hc : c ∈ b.classes) {s : Sym}
    (h1 : s ∈ c.fwd g) (h2 : s ∈ c.symbols g) (h3 : s.isStatic = false) : Prov g p s := by
  refine ⟨List.mem_flatMap.mpr ⟨b, hb, ?_⟩, List.mem_flatMap.mpr ⟨b, hb, ?_⟩, h3⟩
  · unfold Body.fwd
    exact List.mem_append_left _ (List.mem_append_left _ (List.mem_flatMap.mpr ⟨c, mem_ordered.mpr hc, h1⟩))
  · unfold Body.symbols
    exact List.mem_append_left _ (List.mem_append_left _ (List.mem_append_left _ (List.mem_append_right _
      (List.mem_flatMap.mpr ⟨c, mem_ordered.mpr hc, h2⟩))))

theorem typeSym_static (i : CInfo) : i.typeSym.isStatic = false := by unfold CInfo.typeSym; split <;> rfl
theorem mapSym_static (i : CInfo) : i.mapSym.isStatic = false := by unfold CInfo.mapSym; split <;> rfl
theorem regSym_static (i : CInfo) : i.regSym.isStatic = false := by unfold CInfo.regSym; split <;> rfl

theorem prov_type {g : Cfg} {p : Mod} {c : Cls} (h : p.hasCls c) : Prov g p c.info.typeSym := by
  obtain ⟨b, hb, it, hit, rfl⟩ := h
  refine prov_item hb hit ?_ ?_ (typeSym_static _)
  · simp [Item.fwd]
  · unfold Item.symbols CInfo.typeSym
    dsimp only
    split <;> simp

theorem prov_map {g : Cfg} {p : Mod} {c : Cls} (h : p.hasCls c) (hm : c.hasMap = true) : Prov g p c.info.mapSym := by
  obtain ⟨b, hb, it, hit, rfl⟩ := h
  refine prov_item hb hit ?_ ?_ (mapSym_static _)
  · simp [Item.fwd, hm]
  · unfold Item.symbols CInfo.mapSym
    dsimp only
    split <;> simp [hm]

theorem prov_reg {g : Cfg} {p : Mod} {c : Cls} (h : p.hasCls c) (hm : c.isRoot = true) (hr : g.registry = true) :
    Prov g p c.info.regSym := by
  obtain ⟨b, hb, it, hit, rfl⟩ := h
  refine prov_item hb hit ?_ ?_ (regSym_static _)
  · simp [Item.fwd, hm, hr]
  · unfold Item.symbols CInfo.regSym
    dsimp only
    split <;> simp [hm, hr]

theorem mentions_item {b : Body} {c : Item} (hc : c ∈ b.classes) {r : Ref} (hr : r ∈ c.mentions) : r ∈ b.mentions := by
  unfold Body.mentions
  refine List.mem_append_left _ (List.mem_append_left _ (List.mem_append_left _ (List.mem_append_left _
    (List.mem_append_right _ (List.mem_flatMap.mpr ⟨c, hc, hr⟩)))))

theorem has_parent {p : Mod} (hc : p.Closed) {i : CInfo} {q : Cls} (h : p.hasCls (.sub i q)) : p.hasCls q := by
  obtain ⟨b, hb, it, hit, he⟩ := h
  refine hc b hb (.cls q) (mentions_item hit ?_)
  unfold Item.mentions
  rw [he]
  simp

theorem has_registryOwner {p : Mod} (hc : p.Closed) : ∀ {c : Cls}, p.hasCls c →
    p.hasCls c.registryOwner ∧ c.registryOwner.isRoot = true
  | .root _, h => ⟨h, rfl⟩
  | .sub _ q, h => has_registryOwner hc (c := q) (has_parent hc h)

theorem has_narrowingRoot {p : Mod} (hc : p.Closed) : ∀ {c : Cls}, p.hasCls c → ∀ r, c.narrowingRoot = some r →
    p.hasCls r ∧ r.hasMap = true
  | .root i, h, r, hr => by
    simp only [Cls.narrowingRoot] at hr
    split at hr
    · rename_i hi
      injection hr with hr
      subst hr
      exact ⟨h, by simp [Cls.hasMap, Cls.narrowingRoot, hi]⟩
    · cases hr
  | .sub i q, h, r, hr => by
    simp only [Cls.narrowingRoot] at hr
    split at hr
    · rename_i hi
      split at hr
      · rename_i r' hq
        injection hr with hr
        subst hr
        exact has_narrowingRoot hc (has_parent hc h) _ hq
      · rename_i hq
        injection hr with hr
        subst hr
        exact ⟨h, by simp [Cls.hasMap, Cls.narrowingRoot, hi, hq]⟩
    · cases hr

theorem prov_ref {g : Cfg} {p : Mod} (hc : p.Closed) {r : Ref} (h : p.has r) : ∀ s ∈ r.syms g, Prov g p s := by
  intro s hs
  cases r with
  | cls c =>
    replace h : p.hasCls c := h
    simp only [Ref.syms, List.mem_append, List.mem_singleton] at hs
    rcases hs with (rfl | hs) | hs
    · exact prov_type h
    · split at hs
      · simp only [List.mem_singleton] at hs
        subst hs
        exact prov_reg (has_registryOwner hc h).1 (has_registryOwner hc h).2 ‹_›
      · cases hs
    · split at hs
      · rename_i r' hr'
        simp only [List.mem_singleton] at hs
        subst hs
        obtain ⟨h1, h2⟩ := has_narrowingRoot hc h _ hr'
        exact prov_map h1 h2
      · cases hs
  | exc e =>
    obtain ⟨b, hb, x, hx, rfl⟩ := h
    simp only [Ref.syms, List.mem_singleton] at hs
    subst hs
    refine ⟨List.mem_flatMap.mpr ⟨b, hb, ?_⟩, List.mem_flatMap.mpr ⟨b, hb, ?_⟩, rfl⟩
    · unfold Body.fwd
      exact List.mem_append_right _ (List.mem_flatMap.mpr ⟨x, hx, by simp [Exc.fwd]⟩)
    · unfold Body.symbols
      exact List.mem_append_left _ (List.mem_append_right _ (List.mem_map.mpr ⟨x, hx, rfl⟩))
  | cont n t =>
    obtain ⟨b, hb, k, hk, rfl, rfl⟩ := h
    refine ⟨List.mem_flatMap.mpr ⟨b, hb, ?_⟩, List.mem_flatMap.mpr ⟨b, hb, ?_⟩, ?_⟩
    · unfold Body.fwd
      refine List.mem_append_left _ (List.mem_append_right _ (List.mem_flatMap.mpr ⟨k, hk, ?_⟩))
      simp only [Ref.syms, List.mem_cons, List.not_mem_nil, or_false] at hs
      rcases hs with rfl | rfl <;> simp [Cont.fwd]
    · unfold Body.symbols
      refine List.mem_append_left _ (List.mem_append_left _ (List.mem_append_right _ (List.mem_flatMap.mpr ⟨k, hk, ?_⟩)))
      simp only [Ref.syms, List.mem_cons, List.not_mem_nil, or_false] at hs
      rcases hs with rfl | rfl <;> simp [Cont.symbols]
    · simp only [Ref.syms, List.mem_cons, List.not_mem_nil, or_false] at hs
      rcases hs with rfl | rfl <;> rfl

theorem fine_usesOf {g : Cfg} {p : Mod} (hc : p.Closed) {K : Sym → Prop} (hK : ∀ s, Prov g p s → K s) {rs : List Ref}
    (h : ∀ r ∈ rs, p.has r) : Fine K (usesOf g rs) := by
  refine .uses ?_
  intro s hs
  obtain ⟨r, hr, hs⟩ := List.mem_flatMap.mp hs
  exact hK s (prov_ref hc (h r hr) s hs)

theorem Known.prov {g : Cfg} {p : Mod} {st : St} {f : File} (s : Sym) (h : Prov g p s) : Known g p st f s := .inl h

/-! ## Converters -/

theorem Inv.addOnce {g : Cfg} {p : Mod} {st : St} (hi : Inv g p st) {s : Sym} (hd : s ∈ defsOf st.out)
    (hs : s.isStatic = false) : Inv g p { st with once := st.once ++ [s], hdr := st.hdr ++ [s] } := by
  have hh : ∀ x, st.heads x → St.heads { st with once := st.once ++ [s], hdr := st.hdr ++ [s] } x := by
    intro x hx
    exact hx.imp id (fun h => List.mem_append_left _ h)
  refine ⟨hi.hdrOnly, hi.fwd, ?_, ?_, ?_, hi.statics, ?_, hi.resolved, ⟨hi.incl.main, hi.incl.sects, hi.incl.others, hi.incl.nodup⟩⟩
  · intro x hx
    rcases List.mem_append.mp hx with hx | hx
    · exact hh x (hi.onceDecl x hx)
    · exact .inr (List.mem_append_right _ hx)
  · intro x hx
    rcases List.mem_append.mp hx with hx | hx
    · exact hi.onceDef x hx
    · rw [List.mem_singleton] at hx; exact .inr (hx ▸ hd)
  · intro x hx
    rcases List.mem_append.mp hx with hx | hx
    · exact hi.onceConv x hx
    · rw [List.mem_singleton] at hx; exact hx ▸ hs
  · intro f hf pre x post he
    exact (hi.scope f hf pre x post he).imp (hh x) id

theorem genConv_inv {g : Cfg} {p : Mod} (hc : p.Closed) {f : File} {c : Conv} (hr : ∀ r ∈ c.refs, p.has r) {st : St}
    (hi : Inv g p st) (ho : Open st f) :
    Inv g p (genConv g f c st) ∧ Le st (genConv g f c st) ∧ c.sym ∈ (genConv g f c st).once := by
  unfold genConv
  split
  · exact ⟨hi, .refl _, ‹_›⟩
  · have h1 : Inv g p (Sections.emit f (.defn c.sym false :: usesOf g c.refs) st) := by
      refine hi.emit ho ?_
      refine Fine.append (a := [.defn c.sym false]) (.one (by simp)) ?_
      exact fine_usesOf hc (fun s h => .inl (Known.prov s h)) hr
    refine ⟨h1.addOnce (mem_defsOf.mpr ⟨f, false, emit_mem.mpr (.inr ⟨rfl, by simp⟩)⟩) rfl, ?_, ?_⟩
    · exact ⟨fun x hx => emit_mem.mpr (.inl hx), fun x hx => List.mem_append_left _ hx, fun x hx => hx⟩
    · exact List.mem_append_right _ (by simp)

theorem genConvs_inv {g : Cfg} {p : Mod} (hc : p.Closed) {f : File} : ∀ (cs : List Conv) {st : St},
    (∀ c ∈ cs, ∀ r ∈ c.refs, p.has r) → Inv g p st → Open st f →
    Inv g p (genConvs g f cs st) ∧ Le st (genConvs g f cs st) ∧ ∀ c ∈ cs, c.sym ∈ (genConvs g f cs st).once
  | [], st, _, hi, _ => ⟨hi, .refl _, by simp⟩
  | c :: cs, st, hr, hi, ho => by
    obtain ⟨h1, h2, h3⟩ := genConv_inv hc (hr c (by simp)) hi ho
    obtain ⟨k1, k2, k3⟩ := genConvs_inv hc cs (fun d hd => hr d (by simp [hd])) h1 (h2.open ho)
    refine ⟨k1, h2.trans k2, ?_⟩
    intro d hd
    rcases List.mem_cons.mp hd with rfl | hd
    · exact k2.once _ h3
    · exact k3 d hd

/-! ## Functions -/

theorem mem_done {fn : Fn} {x : Nat × Part} (h : x ∈ fn.done) : x.2 ∈ fn.parts := by
  unfold Fn.done at h
  obtain ⟨h, -⟩ := List.mem_filter.mp h
  obtain ⟨y, hy, rfl⟩ := List.mem_map.mp h
  exact List.fst_mem_of_mem_zipIdx hy

theorem fine_flatMap {K : Sym → Prop} {α : Type _} {l : List α} {f : α → List Ev} (h : ∀ x ∈ l, Fine K (f x)) :
    Fine K (l.flatMap f) := by
  induction l with
  | nil => exact .nil
  | cons x l ih =>
    rw [List.flatMap_cons]
    refine (h x (by simp)).append ?_
    exact (ih (fun y hy => h y (by simp [hy]))).mono (fun s hs => .inl hs)

theorem code_fine {g : Cfg} {p : Mod} (hc : p.Closed) {m : Str} {fn : Fn} (hr : ∀ q ∈ fn.parts, ∀ r ∈ q.refs, p.has r)
    {es : List Ev} (h : fn.code g m = some es) {K : Sym → Prop} (hK : ∀ s, Prov g p s → K s) :
    Fine K es ∧ .defn (.fn m fn.name) false ∈ es := by
  unfold Fn.code at h
  split at h
  · cases h
  · rename_i q hq
    split at h
    · injection h with h
      subst h
      refine ⟨Fine.append (a := [.defn (.fn m fn.name) false]) (.one (by simp)) ?_, by simp⟩
      exact fine_usesOf hc (fun s hs => .inl (hK s hs)) (hr q (by rw [hq]; simp))
    · cases h
  · split at h
    · cases h
    · injection h with h
      subst h
      refine ⟨Fine.append ?_ (Fine.append (a := [.defn (.fn m fn.name) false]) (.one (by simp)) ?_), by simp⟩
      · refine fine_flatMap ?_
        intro x hx
        refine Fine.append (a := [.defn (.part m fn.name x.1) false]) (.one (by simp)) ?_
        exact fine_usesOf hc (fun s hs => .inl (hK s hs)) (hr x.2 (mem_done hx))
      · have := Fine.uses (l := fn.done.map (fun x => Sym.part m fn.name x.1))
          (K := fun x => (K x ∨ ∃ c, Ev.defn x c ∈ fn.done.flatMap (fun x => .defn (.part m fn.name x.1) false ::
            usesOf g x.2.refs)) ∨ ∃ c, Ev.defn x c ∈ [Ev.defn (.fn m fn.name) false]) ?_
        · rw [List.map_map] at this
          exact this
        · intro s hs
          obtain ⟨x, hx, rfl⟩ := List.mem_map.mp hs
          exact .inl (.inr ⟨false, List.mem_flatMap.mpr ⟨x, hx, by simp⟩⟩)

theorem genFn_inv {g : Cfg} {p : Mod} (hc : p.Closed) {m : Str} {fn : Fn} (hr : ∀ q ∈ fn.parts, ∀ r ∈ q.refs, p.has r)
    {st : St} (hi : Inv g p st) :
    Inv g p (genFn g m st fn) ∧ Le st (genFn g m st fn) ∧
    ((fn.code g m).isSome = true → Known g p (genFn g m st fn) .main (.fn m fn.name)) := by
  obtain ⟨h1, h2, h3⟩ := hi.sinkFor fn.sect
  unfold genFn
  dsimp only
  cases hcode : fn.code g m with
  | none => exact ⟨h1, h3, by simp⟩
  | some es =>
    dsimp only
    obtain ⟨hf, hd⟩ := code_fine hc hr hcode (K := Known g p (sinkFor g fn.sect st).2 (sinkFor g fn.sect st).1)
      (fun s hs => Known.prov s hs)
    have k1 := h1.emit h2 hf
    have k2 : Inv g p (Sections.emit .main [.decl (.fn m fn.name)]
        (Sections.emit (sinkFor g fn.sect st).1 es (sinkFor g fn.sect st).2)) :=
      k1.emit (.inl rfl) (.ofNoUse (by simp) (by simp) (by simp))
    refine ⟨k2, h3.trans ((Le.emit _ _ _).trans (Le.emit _ _ _)), fun _ => ?_⟩
    refine .inr (.inr (.inr ⟨emit_mem.mpr (.inr ⟨rfl, by simp⟩), ?_, rfl⟩))
    exact mem_defsOf.mpr ⟨_, false, emit_mem.mpr (.inl (emit_mem.mpr (.inr ⟨rfl, hd⟩)))⟩

theorem genFns_inv {g : Cfg} {p : Mod} (hc : p.Closed) {m : Str} : ∀ (fns : List Fn) {st : St},
    (∀ fn ∈ fns, ∀ q ∈ fn.parts, ∀ r ∈ q.refs, p.has r) → Inv g p st →
    Inv g p (fns.foldl (genFn g m) st) ∧ Le st (fns.foldl (genFn g m) st) ∧
    ∀ fn ∈ fns, (fn.code g m).isSome = true → Known g p (fns.foldl (genFn g m) st) .main (.fn m fn.name)
  | [], st, _, hi => ⟨hi, .refl _, by simp⟩
  | fn :: fns, st, hr, hi => by
    obtain ⟨h1, h2, h3⟩ := genFn_inv hc (m := m) (hr fn (by simp)) hi
    obtain ⟨k1, k2, k3⟩ := genFns_inv hc (m := m) fns (fun d hd => hr d (by simp [hd])) h1
    refine ⟨k1, h2.trans k2, ?_⟩
    intro d hd hs
    rcases List.mem_cons.mp hd with rfl | hd
    · exact k2.known (h3 hs)
    · exact k3 d hd hs

theorem genTable_inv {g : Cfg} {p : Mod} {b : Body} {st : St} (hi : Inv g p st)
    (hk : ∀ fn ∈ b.fns, (fn.code g b.name).isSome = true → Known g p st .main (.fn b.name fn.name)) :
    Inv g p (genTable g b st) ∧ Le st (genTable g b st) ∧
    (File.main, Ev.defn (.table b.name) true) ∈ (genTable g b st).out := by
  unfold genTable
  refine ⟨hi.emit (.inl rfl) (Fine.append ?_ (.one (fun _ => rfl))), Le.emit _ _ _, emit_mem.mpr (.inr ⟨rfl, by simp⟩)⟩
  have := Fine.uses (K := Known g p st .main) (l := (b.tabled g).map (fun fn => Sym.fn b.name fn.name)) ?_
  · rw [List.map_map] at this
    exact this
  · intro s hs
    obtain ⟨fn, hfn, rfl⟩ := List.mem_map.mp hs
    obtain ⟨h1, h2⟩ := List.mem_filter.mp hfn
    exact hk fn h1 h2

/-! ## Classes, containers, exceptions -/

theorem before_fine {g : Cfg} {p : Mod} (hc : p.Closed) {c : Item} (hh : p.hasCls c.cls) (hr : ∀ r ∈ c.refs, p.has r)
    {K : Sym → Prop} (hK : ∀ s, Prov g p s → K s) : Fine K (c.before g) := by
  unfold Item.before
  dsimp only
  refine Fine.append (Fine.append (Fine.append (Fine.append (Fine.append ?_ ?_) ?_) ?_) ?_) ?_
  · exact .ite (fun _ => .one (by simp))
  · exact .ite (fun _ => .one (by simp))
  · exact .defs (f := fun m => Sym.helper c.cls.info.name m) (by simp)
  · exact .ite (fun _ => .one (by simp))
  · exact .defs (f := fun m => Sym.loc c.cls.info.name m) (fun _ _ _ => rfl)
  · refine fine_usesOf hc (fun s hs => .inl (hK s hs)) ?_
    intro r hr'
    rcases List.mem_cons.mp hr' with rfl | hr'
    · exact hh
    · exact hr r hr'

theorem after_fine {c : Item} {K : Sym → Prop} (h1 : ∀ v ∈ c.convs, K v.sym) (h2 : c.iter = true → K (.iter c.cls.info.name))
    (h3 : ∀ l ∈ c.locals, K (.loc c.cls.info.name l)) (h4 : ∀ m ∈ c.helper, K (.helper c.cls.info.name m)) :
    Fine K c.after := by
  unfold Item.after
  dsimp only
  refine Fine.append (Fine.append (Fine.append ?_ ?_) (Fine.append ?_ ?_)) (.one (by simp))
  · have := Fine.uses (K := K) (l := c.convs.map Conv.sym) (by intro s hs; obtain ⟨v, hv, rfl⟩ := List.mem_map.mp hs; exact h1 v hv)
    rw [List.map_map] at this
    exact this
  · refine .ite (fun h => ?_)
    refine Fine.append (a := [.use (.iter c.cls.info.name)]) (Fine.uses (l := [.iter c.cls.info.name]) ?_) (.one (by simp))
    intro s hs
    rw [List.mem_singleton] at hs
    exact .inl (hs ▸ h2 h)
  · have := Fine.uses (K := fun x => (K x ∨ ∃ b, Ev.defn x b ∈ c.convs.map (fun v => Ev.use v.sym) ++
      if c.iter = true then [.use (.iter c.cls.info.name), .defn (.iter c.cls.info.name) false] else []))
      (l := c.locals.map (fun l => Sym.loc c.cls.info.name l))
      (by intro s hs; obtain ⟨v, hv, rfl⟩ := List.mem_map.mp hs; exact .inl (h3 v hv))
    rw [List.map_map] at this
    exact this.mono (fun s hs => hs.imp id id)
  · have := Fine.uses (K := K)
      (l := c.helper.map (fun l => Sym.helper c.cls.info.name l))
      (by intro s hs; obtain ⟨v, hv, rfl⟩ := List.mem_map.mp hs; exact h4 v hv)
    rw [List.map_map] at this
    exact this.mono (fun s hs => .inl (.inl hs))

theorem genItem_inv {g : Cfg} {p : Mod} (hc : p.Closed) {b : Body} (hb : b ∈ p.bodies) {c : Item} (hm : c ∈ b.classes)
    {st : St} (hi : Inv g p st) :
    Inv g p (genItem g st c) ∧ Le st (genItem g st c) ∧
    (c.static = true → c.cls.info.imported = false → g.multi = false ∨ c.sect = mainName →
      (File.main, Ev.defn (.metaT g.pfx c.cls.info.name) false) ∈ (genItem g st c).out) := by
  have hment : ∀ r ∈ c.mentions, p.has r := fun r hr => hc b hb r (mentions_item hm hr)
  have hh : p.hasCls c.cls := ⟨b, hb, c, hm, rfl⟩
  obtain ⟨h1, h2, h3⟩ := hi.sinkFor c.sect
  unfold genItem
  dsimp only
  generalize hsk : sinkFor g c.sect st = sk at h1 h2 h3 ⊢
  cases himp : c.cls.info.imported with
  | true =>
    rw [if_pos rfl]
    refine ⟨h1.emit h2 ?_, h3.trans (Le.emit _ _ _), nofun⟩
    unfold Item.importCode
    dsimp only
    exact Fine.append (Fine.append (.one (by simp)) (.ite (fun _ => .one (by simp)))) (.ite (fun _ => .one (by simp)))
  | false =>
    rw [if_neg (by simp)]
    have k1 := h1.emit h2 (before_fine (g := g) hc hh (fun r hr => hment r (by simp [Item.mentions, hr]))
      (K := Known g p sk.2 sk.1) (fun s hs => Known.prov s hs))
    obtain ⟨k2, k3, k4⟩ := genConvs_inv hc c.convs (fun v hv r hr => hment r (by
      unfold Item.mentions
      exact List.mem_append_right _ (List.mem_flatMap.mpr ⟨v, hv, hr⟩))) k1 ((Le.emit _ _ _).open h2)
    have hbef : ∀ s x, Ev.defn s x ∈ c.before g →
        Known g p (genConvs g sk.1 c.convs (Sections.emit sk.1 (c.before g) sk.2)) sk.1 s :=
      fun s x hx => .inr (.inr (.inl ⟨x, k3.out _ (emit_mem.mpr (.inr ⟨rfl, hx⟩))⟩))
    refine ⟨k2.emit (k3.open ((Le.emit _ _ _).open h2)) (after_fine ?_ ?_ ?_ ?_),
      h3.trans ((Le.emit _ _ _).trans (k3.trans (Le.emit _ _ _))), ?_⟩
    · exact fun v hv => .inr (.inl (k4 v hv))
    · intro hit
      refine .inl (prov_item hb hm ?_ ?_ rfl)
      · unfold Item.fwd
        simp [hit]
      · unfold Item.symbols
        simp [hit, himp]
    · exact fun l hl => hbef _ true (by
        unfold Item.before
        dsimp only
        exact List.mem_append_left _ (List.mem_append_right _ (List.mem_map.mpr ⟨l, hl, rfl⟩)))
    · exact fun l hl => hbef _ false (by
        unfold Item.before
        dsimp only
        exact List.mem_append_left _ (List.mem_append_left _ (List.mem_append_left _ (List.mem_append_right _
          (List.mem_map.mpr ⟨l, hl, rfl⟩)))))
    · intro hs _ hms
      have hf : sk.1 = .main := by
        rw [← hsk]
        unfold Sections.sinkFor
        rw [if_pos hms]
      refine emit_mem.mpr (.inl (k3.out _ (emit_mem.mpr (.inr ⟨hf.symm, ?_⟩))))
      unfold Item.before
      dsimp only
      exact List.mem_append_left _ (List.mem_append_left _ (List.mem_append_right _ (by simp [hs])))

theorem genItems_inv {g : Cfg} {p : Mod} (hc : p.Closed) {b : Body} (hb : b ∈ p.bodies) : ∀ (cs : List Item) {st : St},
    (∀ c ∈ cs, c ∈ b.classes) → Inv g p st →
    Inv g p (cs.foldl (genItem g) st) ∧ Le st (cs.foldl (genItem g) st) ∧
    ∀ c ∈ cs, c.static = true → c.cls.info.imported = false → g.multi = false ∨ c.sect = mainName →
      (File.main, Ev.defn (.metaT g.pfx c.cls.info.name) false) ∈ (cs.foldl (genItem g) st).out
  | [], st, _, hi => ⟨hi, .refl _, by simp⟩
  | c :: cs, st, hr, hi => by
    obtain ⟨h1, h2, h3⟩ := genItem_inv hc hb (hr c (by simp)) hi
    obtain ⟨k1, k2, k3⟩ := genItems_inv hc hb cs (fun d hd => hr d (by simp [hd])) h1
    refine ⟨k1, h2.trans k2, ?_⟩
    intro d hd hs hi' hm
    rcases List.mem_cons.mp hd with rfl | hd
    · exact k2.out _ (h3 hs hi' hm)
    · exact k3 d hd hs hi' hm

theorem genCont_inv {g : Cfg} {p : Mod} (hc : p.Closed) {b : Body} (hb : b ∈ p.bodies) {c : Cont} (hm : c ∈ b.conts)
    {st : St} (hi : Inv g p st) : Inv g p (genCont g st c) ∧ Le st (genCont g st c) := by
  have hment : ∀ r ∈ c.mentions, p.has r := fun r hr => hc b hb r (by
    unfold Body.mentions
    exact List.mem_append_left _ (List.mem_append_left _ (List.mem_append_left _
      (List.mem_append_right _ (List.mem_flatMap.mpr ⟨c, hm, hr⟩)))))
  have hh : p.has (.cont c.name c.ctype) := ⟨b, hb, c, hm, rfl, rfl⟩
  obtain ⟨h1, h2, h3⟩ := hi.sinkFor c.sect
  unfold genCont
  dsimp only
  generalize sinkFor g c.sect st = sk at h1 h2 h3 ⊢
  have k1 : Inv g p (Sections.emit sk.1 (c.locals.map (fun l => .defn (.loc c.name l) true) ++
      usesOf g (.cont c.name c.ctype :: c.refs)) sk.2) := by
    refine h1.emit h2 (Fine.append (.defs (f := fun m => Sym.loc c.name m) (fun _ _ _ => rfl)) ?_)
    refine fine_usesOf hc (fun s hs => .inl (Known.prov s hs)) ?_
    intro r hr
    rcases List.mem_cons.mp hr with rfl | hr
    · exact hh
    · exact hment r (by simp [Cont.mentions, hr])
  obtain ⟨k2, k3, k4⟩ := genConvs_inv hc c.convs (fun v hv r hr => hment r (by
      unfold Cont.mentions
      exact List.mem_append_right _ (List.mem_flatMap.mpr ⟨v, hv, hr⟩))) k1 ((Le.emit _ _ _).open h2)
  refine ⟨k2.emit (k3.open ((Le.emit _ _ _).open h2)) ?_, h3.trans ((Le.emit _ _ _).trans (k3.trans (Le.emit _ _ _)))⟩
  refine Fine.append (Fine.append (Fine.append ?_ ?_) ?_) ?_
  · have := Fine.uses (K := Known g p _ sk.1) (l := c.convs.map Conv.sym)
      (by intro s hs; obtain ⟨v, hv, rfl⟩ := List.mem_map.mp hs; exact .inr (.inl (k4 v hv)))
    rw [List.map_map] at this
    exact this
  · refine Fine.append (a := [.use (.type c.name)]) (Fine.uses (l := [.type c.name]) ?_) (.one (by simp))
    intro s hs
    exact .inl (.inl (prov_ref hc hh s (by simp [Ref.syms] at hs ⊢; exact .inl hs)))
  · have := Fine.uses (K := Known g p (genConvs g sk.1 c.convs (Sections.emit sk.1
      (c.locals.map (fun l => .defn (.loc c.name l) true) ++ usesOf g (.cont c.name c.ctype :: c.refs)) sk.2)) sk.1)
      (l := c.locals.map (fun l => Sym.loc c.name l)) (by
        intro s hs
        obtain ⟨l, hl, rfl⟩ := List.mem_map.mp hs
        exact .inr (.inr (.inl ⟨true, k3.out _ (emit_mem.mpr (.inr ⟨rfl,
          List.mem_append_left _ (List.mem_map.mpr ⟨l, hl, rfl⟩)⟩))⟩)))
    rw [List.map_map] at this
    exact this.mono (fun s hs => .inl hs)
  · exact .ofNoUse (by simp) (by simp) (by simp)

theorem genConts_inv {g : Cfg} {p : Mod} (hc : p.Closed) {b : Body} (hb : b ∈ p.bodies) : ∀ (cs : List Cont) {st : St},
    (∀ c ∈ cs, c ∈ b.conts) → Inv g p st →
    Inv g p (cs.foldl (genCont g) st) ∧ Le st (cs.foldl (genCont g) st)
  | [], st, _, hi => ⟨hi, .refl _⟩
  | c :: cs, st, hr, hi => by
    obtain ⟨h1, h2⟩ := genCont_inv hc hb (hr c (by simp)) hi
    obtain ⟨k1, k2⟩ := genConts_inv hc hb cs (fun d hd => hr d (by simp [hd])) h1
    exact ⟨k1, h2.trans k2⟩

theorem genExc_inv {g : Cfg} {p : Mod} {e : Exc} {st : St} (hi : Inv g p st) :
    Inv g p (genExc g st e) ∧ Le st (genExc g st e) := by
  obtain ⟨h1, h2, h3⟩ := hi.sinkFor e.sect
  exact ⟨h1.emit h2 (.one (by simp)), h3.trans (Le.emit _ _ _)⟩

theorem genExcs_inv {g : Cfg} {p : Mod} : ∀ (es : List Exc) {st : St}, Inv g p st →
    Inv g p (es.foldl (genExc g) st) ∧ Le st (es.foldl (genExc g) st)
  | [], st, hi => ⟨hi, .refl _⟩
  | e :: es, st, hi => by
    obtain ⟨h1, h2⟩ := genExc_inv (e := e) hi
    obtain ⟨k1, k2⟩ := genExcs_inv es h1
    exact ⟨k1, h2.trans k2⟩

/-! ## The end of a module -/

theorem flushHeader_inv {g : Cfg} {p : Mod} {st : St} (hi : Inv g p st) :
    Inv g p (flushHeader st) ∧ Le st (flushHeader st) ∧ (flushHeader st).hdr = [] := by
  have hout : ∀ f e, (f, e) ∈ (flushHeader st).out ↔ (f, e) ∈ st.out ∨ (f = .header ∧ ∃ s ∈ st.hdr, e = .decl s) := by
    intro f e
    unfold flushHeader
    show (f, e) ∈ (Sections.emit _ _ _).out ↔ _
    rw [emit_mem]
    constructor
    · rintro (h | ⟨h, h'⟩)
      · exact .inl h
      · obtain ⟨s, hs, rfl⟩ := List.mem_map.mp h'
        exact .inr ⟨h, s, hs, rfl⟩
    · rintro (h | ⟨h, s, hs, rfl⟩)
      · exact .inl h
      · exact .inr ⟨h, List.mem_map.mpr ⟨s, hs, rfl⟩⟩
  have hev : ∀ f, f ≠ .header → evs (flushHeader st).out f = evs st.out f := by
    intro f hf
    unfold flushHeader
    show evs (Sections.emit _ _ _).out f = _
    rw [emit_evs, if_neg (fun h => hf h.symm), List.append_nil]
  have hheads : ∀ s, st.heads s → (flushHeader st).heads s := by
    intro s h
    rcases h with h | h
    · exact .inl ((hout _ _).mpr (.inl h))
    · exact .inl ((hout _ _).mpr (.inr ⟨rfl, s, h, rfl⟩))
  have hle : Le st (flushHeader st) := ⟨fun ⟨f, e⟩ h => (hout f e).mpr (.inl h), fun _ h => h, fun _ h => h⟩
  refine ⟨⟨?_, ?_, ?_, ?_, hi.onceConv, ?_, ?_, ?_, ⟨?_, ?_, ?_, hi.incl.nodup⟩⟩, hle, rfl⟩
  · intro e he
    rcases (hout _ _).mp he with h | ⟨-, s, -, h⟩
    · exact hi.hdrOnly e h
    · exact ⟨s, h⟩
  · exact fun s hs => hle.out _ (hi.fwd s hs)
  · exact fun s hs => hheads s (hi.onceDecl s hs)
  · exact fun s hs => (hi.onceDef s hs).imp id (defsOf_mono hle.out)
  · intro f s h
    rcases (hout _ _).mp h with h | ⟨-, x, -, h⟩
    · exact hi.statics f s h
    · cases h
  · intro f hf pre s post he
    rw [hev f hf] at he
    exact (hi.scope f hf pre s post he).imp (hheads s) id
  · intro f s h
    rcases (hout _ _).mp h with h | ⟨-, x, -, h⟩
    · rcases hi.resolved f s h with h | ⟨h, h'⟩ | ⟨b, h⟩
      · exact .inl h
      · exact .inr (.inl ⟨defsOf_mono hle.out h, h'⟩)
      · exact .inr (.inr ⟨b, hle.out _ h⟩)
    · cases h
  · rw [hev _ (fun h => by cases h)]; exact hi.incl.main
  · intro x hx; rw [hev _ (fun h => by cases h)]; exact hi.incl.sects x hx
  · intro x hx; rw [hev _ (fun h => by cases h)]; exact hi.incl.others x hx

end Verif.Sections
