import Verif.Sections.Steps

/-! # C116: whole modules keep the invariant -/
namespace Verif.Sections

theorem initUses_known {g : Cfg} {p : Mod} (hc : p.Closed) (hmeta : p.MetasDeclared g) {b : Body} (hb : b ∈ p.bodies)
    {st : St}
    (hm : ∀ c ∈ b.classes, c.static = true → c.cls.info.imported = false → g.multi = false ∨ c.sect = mainName →
      (File.main, Ev.defn (.metaT g.pfx c.cls.info.name) false) ∈ st.out)
    {c : Item} (hi : c ∈ b.classes) : ∀ s ∈ c.initUses g, Known g p st .main s := by
  have hh : p.hasCls c.cls := ⟨b, hb, c, hi, rfl⟩
  have hment : ∀ r ∈ c.mentions, p.has r := fun r hr => hc b hb r (mentions_item hi hr)
  intro s hs
  unfold Item.initUses at hs
  dsimp only at hs
  simp only [List.mem_append] at hs
  rcases hs with ((hs | hs) | hs) | hs
  · rw [List.mem_singleton] at hs
    exact hs ▸ .inl (prov_type hh)
  · split at hs
    · rw [List.mem_singleton] at hs
      exact hs ▸ .inl (prov_map hh ‹_›)
    · cases hs
  · split at hs
    · rename_i hr
      rw [List.mem_singleton] at hs
      exact hs ▸ .inl (prov_reg hh hr.1 hr.2)
    · cases hs
  · split at hs
    · cases hs
    rename_i himp
    have himp : c.cls.info.imported = false := by simpa using himp
    simp only [List.mem_append] at hs
    rcases hs with ((((hs | hs) | hs) | hs) | hs) | hs
    · split at hs
      · rename_i r hr
        rw [List.mem_singleton] at hs
        obtain ⟨h1, h2⟩ := has_narrowingRoot hc hh _ hr
        exact hs ▸ .inl (prov_map h1 h2)
      · cases hs
    · split at hs
      · cases hs
      · rename_i i q he
        rw [List.mem_singleton] at hs
        rw [he] at hh
        exact hs ▸ .inl (prov_type (has_parent hc hh))
    · obtain ⟨q, hq, rfl⟩ := List.mem_map.mp hs
      exact .inl (prov_type (hment (.cls q) (by simp [Item.mentions, hq])))
    · split at hs
      · rename_i hst
        rw [List.mem_singleton] at hs
        subst hs
        rcases hmeta b hb c hi hst himp with h | h
        · refine .inl (prov_item hb hi ?_ ?_ rfl)
          · unfold Item.fwd
            simp [himp, hst, h]
          · unfold Item.symbols
            simp [himp, hst]
        · exact .inr (.inr (.inl ⟨false, hm c hi hst himp h⟩))
      · cases hs
    · split at hs
      · rename_i hit
        rw [List.mem_singleton] at hs
        subst hs
        refine .inl (prov_item hb hi ?_ ?_ rfl)
        · unfold Item.fwd
          simp [hit]
        · unfold Item.symbols
          simp [himp, hit]
      · cases hs
    · split at hs
      · rename_i o ho
        rw [List.mem_singleton] at hs
        subst hs
        exact .inl (prov_type (hment (.cls o) (by simp [Item.mentions, ho])))
      · cases hs

theorem finish_inv {g : Cfg} {p : Mod} (hc : p.Closed) (hmeta : p.MetasDeclared g) {b : Body} (hb : b ∈ p.bodies)
    {root : Bool} {subs : List Str} {st : St} (hi : Inv g p st)
    (hm : ∀ c ∈ b.classes, c.static = true → c.cls.info.imported = false → g.multi = false ∨ c.sect = mainName →
      (File.main, Ev.defn (.metaT g.pfx c.cls.info.name) false) ∈ st.out)
    (ht : (File.main, Ev.defn (.table b.name) true) ∈ st.out)
    (hs : ∀ n ∈ subs, ∃ x, (File.main, Ev.defn (.init n) x) ∈ st.out) :
    Inv g p (finish g root b subs st) ∧ Le st (finish g root b subs st) ∧ (finish g root b subs st).hdr = [] ∧
    ∃ x, (File.main, Ev.defn (.init b.name) x) ∈ (finish g root b subs st).out := by
  obtain ⟨h1, h2, h3⟩ := flushHeader_inv hi
  unfold finish
  refine ⟨h1.emit (.inl rfl) ?_, h2.trans (Le.emit _ _ _), h3, !root, emit_mem.mpr (.inr ⟨rfl, by simp⟩)⟩
  have htab : Known g p (flushHeader st) .main (.table b.name) := .inr (.inr (.inl ⟨true, h2.out _ ht⟩))
  refine Fine.append (Fine.append (a := [.use (.table b.name)]) (b := [.defn (.moddef b.name) true, .defn (.init b.name) (!root)])
    (Fine.uses (l := [.table b.name]) (by simpa using htab)) (.ofNoUse (by simp) ?_ (by simp))) (Fine.uses ?_)
  · intro s h
    simp only [List.mem_cons, Ev.defn.injEq, List.not_mem_nil, or_false] at h
    rcases h with ⟨rfl, -⟩ | ⟨rfl, -⟩ <;> rfl
  · intro s h
    unfold Body.initUses at h
    simp only [List.mem_append] at h
    rcases h with (((((h | h) | h) | h) | h) | h) | h
    · simp only [List.mem_cons, List.not_mem_nil, or_false] at h
      rcases h with rfl | rfl
      · exact .inr ⟨true, by simp⟩
      · exact .inl htab
    · obtain ⟨c, hcm, hcs⟩ := List.mem_flatMap.mp h
      exact .inl (h2.known (initUses_known hc hmeta hb hm (mem_ordered.mp hcm) s hcs))
    · obtain ⟨c, hcm, hcs⟩ := List.mem_flatMap.mp h
      unfold Cont.initUses at hcs
      simp only [List.mem_append] at hcs
      rcases hcs with hcs | hcs
      · refine .inl (.inl ⟨List.mem_flatMap.mpr ⟨b, hb, ?_⟩, List.mem_flatMap.mpr ⟨b, hb, ?_⟩, ?_⟩)
        · unfold Body.fwd
          refine List.mem_append_left _ (List.mem_append_right _ (List.mem_flatMap.mpr ⟨c, hcm, ?_⟩))
          simp only [List.mem_cons, List.not_mem_nil, or_false] at hcs
          rcases hcs with rfl | rfl <;> simp [Cont.fwd]
        · unfold Body.symbols
          refine List.mem_append_left _ (List.mem_append_left _ (List.mem_append_right _
            (List.mem_flatMap.mpr ⟨c, hcm, ?_⟩)))
          simp only [List.mem_cons, List.not_mem_nil, or_false] at hcs
          rcases hcs with rfl | rfl <;> simp [Cont.symbols]
        · simp only [List.mem_cons, List.not_mem_nil, or_false] at hcs
          rcases hcs with rfl | rfl <;> rfl
      · split at hcs
        · rename_i o ho
          rw [List.mem_singleton] at hcs
          subst hcs
          refine .inl (.inl (prov_type (hc b hb (.cls o) ?_)))
          unfold Body.mentions
          exact List.mem_append_left _ (List.mem_append_left _ (List.mem_append_left _
            (List.mem_append_right _ (List.mem_flatMap.mpr ⟨c, hcm, by simp [Cont.mentions, ho]⟩))))
        · cases hcs
    · obtain ⟨e, hem, hes⟩ := List.mem_flatMap.mp h
      have hment : ∀ r ∈ e.mentions, p.has r := fun r hr => hc b hb r (by
        unfold Body.mentions
        exact List.mem_append_left _ (List.mem_append_left _
          (List.mem_append_right _ (List.mem_flatMap.mpr ⟨e, hem, hr⟩))))
      unfold Exc.initUses at hes
      simp only [List.mem_append] at hes
      rcases hes with (hes | hes) | hes
      · exact .inl (.inl (prov_ref hc (r := .exc e.name) ⟨b, hb, e, hem, rfl⟩ s (by simpa [Ref.syms] using hes)))
      · split at hes
        · rename_i q hq
          exact .inl (.inl (prov_ref hc (hment (.exc q) (by simp [Exc.mentions, hq])) s (by simpa [Ref.syms] using hes)))
        · cases hes
      · split at hes
        · rename_i o ho
          rw [List.mem_singleton] at hes
          subst hes
          exact .inl (.inl (prov_type (hment (.cls o) (by simp [Exc.mentions, ho]))))
        · cases hes
    · obtain ⟨q, hq, rfl⟩ := List.mem_map.mp h
      exact .inl (.inl (prov_type (hc b hb (.cls q) (by
        unfold Body.mentions
        exact List.mem_append_left _ (List.mem_append_right _ (List.mem_map.mpr ⟨q, hq, rfl⟩))))))
    · obtain ⟨q, hq, rfl⟩ := List.mem_map.mp h
      exact .inl (.inl (prov_type (hc b hb (.cls q) (by
        unfold Body.mentions
        exact List.mem_append_right _ (List.mem_map.mpr ⟨q, hq, rfl⟩)))))
    · obtain ⟨n, hn, rfl⟩ := List.mem_map.mp h
      obtain ⟨x, hx⟩ := hs n hn
      exact .inl (.inr (.inr (.inl ⟨x, h2.out _ hx⟩)))

theorem genBody_inv {g : Cfg} {p : Mod} (hc : p.Closed) (hmeta : p.MetasDeclared g) {b : Body} (hb : b ∈ p.bodies)
    {root : Bool} {subs : List Str} {st : St} (hi : Inv g p st)
    (hs : ∀ n ∈ subs, ∃ x, (File.main, Ev.defn (.init n) x) ∈ st.out) :
    Inv g p (genBody g root b subs st) ∧ Le st (genBody g root b subs st) ∧ (genBody g root b subs st).hdr = [] ∧
    ∃ x, (File.main, Ev.defn (.init b.name) x) ∈ (genBody g root b subs st).out := by
  unfold genBody
  obtain ⟨a1, a2, a3⟩ := genFns_inv (g := g) hc (m := b.name) b.fns (fun fn hfn q hq r hr => hc b hb r (by
    unfold Body.mentions
    exact List.mem_append_left _ (List.mem_append_left _ (List.mem_append_left _ (List.mem_append_left _
      (List.mem_append_left _ (List.mem_flatMap.mpr ⟨fn, hfn, List.mem_flatMap.mpr ⟨q, hq, hr⟩⟩))))))) hi
  obtain ⟨b1, b2, b3⟩ := genTable_inv (b := b) a1 a3
  obtain ⟨c1, c2, c3⟩ := genItems_inv hc hb b.ordered (fun c h => mem_ordered.mp h) b1
  obtain ⟨d1, d2⟩ := genConts_inv hc hb b.conts (fun c h => h) c1
  obtain ⟨e1, e2⟩ := genExcs_inv b.excs d1
  obtain ⟨f1, f2, f3, f4⟩ := finish_inv (root := root) (subs := subs) hc hmeta hb e1
    (fun c h1 h2 h3 h4 => e2.out _ (d2.out _ (c3 c (mem_ordered.mpr h1) h2 h3 h4)))
    (e2.out _ (d2.out _ (c2.out _ b3)))
    (fun n hn => by
      obtain ⟨x, hx⟩ := hs n hn
      exact ⟨x, e2.out _ (d2.out _ (c2.out _ (b2.out _ (a2.out _ hx))))⟩)
  exact ⟨f1, a2.trans (b2.trans (c2.trans (d2.trans (e2.trans f2)))), f3, f4⟩

mutual
theorem genMod_inv {g : Cfg} {p : Mod} (hc : p.Closed) (hmeta : p.MetasDeclared g) : ∀ (m : Mod) (root : Bool) (st : St),
    (∀ b ∈ m.bodies, b ∈ p.bodies) → Inv g p st →
    Inv g p (genMod g root m st) ∧ Le st (genMod g root m st) ∧ (genMod g root m st).hdr = [] ∧
    ∃ x, (File.main, Ev.defn (.init m.body.name) x) ∈ (genMod g root m st).out
  | .mk b subs, root, st, hb, hi => by
    simp only [genMod]
    simp only [Mod.bodies] at hb
    obtain ⟨h1, h2, h3⟩ := genMods_inv hc hmeta subs st (fun x hx => hb x (by simp [hx])) hi
    obtain ⟨k1, k2, k3, k4⟩ := genBody_inv (root := root) (subs := subs.map (·.body.name)) hc hmeta
      (hb b (by simp)) h1 (by
        intro n hn
        obtain ⟨m, hm, rfl⟩ := List.mem_map.mp hn
        exact h3 m hm)
    exact ⟨k1, h2.trans k2, k3, k4⟩
theorem genMods_inv {g : Cfg} {p : Mod} (hc : p.Closed) (hmeta : p.MetasDeclared g) : ∀ (ms : List Mod) (st : St),
    (∀ b ∈ bodiesAll ms, b ∈ p.bodies) → Inv g p st →
    Inv g p (genMods g ms st) ∧ Le st (genMods g ms st) ∧
    ∀ m ∈ ms, ∃ x, (File.main, Ev.defn (.init m.body.name) x) ∈ (genMods g ms st).out
  | [], st, _, hi => by simp only [genMods]; exact ⟨hi, .refl _, by simp⟩
  | m :: ms, st, hb, hi => by
    simp only [genMods]
    simp only [bodiesAll] at hb
    obtain ⟨h1, h2, -, h4⟩ := genMod_inv hc hmeta m false st (fun x hx => hb x (List.mem_append_left _ hx)) hi
    obtain ⟨k1, k2, k3⟩ := genMods_inv hc hmeta ms _ (fun x hx => hb x (List.mem_append_right _ hx)) h1
    refine ⟨k1, h2.trans k2, ?_⟩
    intro d hd
    rcases List.mem_cons.mp hd with rfl | hd
    · obtain ⟨x, hx⟩ := h4
      exact ⟨x, k2.out _ hx⟩
    · exact k3 d hd
end

/-! ## The beginning -/

theorem declareAll_mem : ∀ (ss once r : List Sym), declareAll once ss = .ok r → r = once ++ ss
  | [], once, r, h => by simp only [declareAll] at h; injection h with h; simp [h]
  | s :: ss, once, r, h => by
    simp only [declareAll] at h
    split at h
    · cases h
    · rw [declareAll_mem ss _ r h]; simp

theorem mem_initial {g : Cfg} {p : Mod} {once : List Sym} {f : File} {e : Ev} :
    (f, e) ∈ (initial g p once).out ↔ (g.multi = true ∧ f = .main ∧ e = .incl) ∨
      (f = .header ∧ ∃ s ∈ p.bodies.flatMap (Body.fwd g), e = .decl s) := by
  unfold initial
  simp only [List.mem_append, List.mem_map]
  constructor
  · rintro (h | ⟨s, hs, h⟩)
    · split at h
      · simp only [List.mem_singleton, Prod.mk.injEq] at h
        exact .inl ⟨‹_›, h⟩
      · cases h
    · simp only [Prod.mk.injEq] at h
      exact .inr ⟨h.1.symm, s, hs, h.2.symm⟩
  · rintro (⟨h, rfl, rfl⟩ | ⟨rfl, s, hs, rfl⟩)
    · left; simp [h]
    · right; exact ⟨s, hs, rfl⟩

theorem evs_initial {g : Cfg} {p : Mod} {once : List Sym} {f : File} (hf : f ≠ .header) :
    evs (initial g p once).out f = if g.multi = true ∧ f = .main then [.incl] else [] := by
  unfold initial
  dsimp only
  rw [evs_append]
  have : evs ((p.bodies.flatMap (Body.fwd g)).map (fun s => (File.header, Ev.decl s))) f = [] := by
    rw [List.eq_nil_iff_forall_not_mem]
    intro e he
    rw [mem_evs] at he
    obtain ⟨s, -, h⟩ := List.mem_map.mp he
    injection h with h
    exact hf h.symm
  rw [this, List.append_nil]
  cases g.multi with
  | false => simp [evs]
  | true =>
    by_cases h : f = .main
    · subst h; simp [evs]
    · simp [evs, h]; exact fun h' => h h'.symm

theorem initial_inv {g : Cfg} {p : Mod} {once : List Sym} (h : declareAll [] (p.bodies.flatMap Body.contConvs) = .ok once) :
    Inv g p (initial g p once) := by
  have honce : ∀ s ∈ once, Prov g p s ∧ ∃ t, s = .conv .py2c t := by
    intro s hs
    rw [declareAll_mem _ _ _ h, List.nil_append] at hs
    obtain ⟨b, hb, hs⟩ := List.mem_flatMap.mp hs
    obtain ⟨c, hcm, rfl⟩ := List.mem_map.mp hs
    refine ⟨⟨List.mem_flatMap.mpr ⟨b, hb, ?_⟩, List.mem_flatMap.mpr ⟨b, hb, ?_⟩, rfl⟩, _, rfl⟩
    · unfold Body.fwd
      exact List.mem_append_left _ (List.mem_append_right _ (List.mem_flatMap.mpr ⟨c, hcm, by simp [Cont.fwd]⟩))
    · unfold Body.symbols
      exact List.mem_append_left _ (List.mem_append_left _ (List.mem_append_right _
        (List.mem_flatMap.mpr ⟨c, hcm, by simp [Cont.symbols]⟩)))
  have hfwd : ∀ s ∈ p.bodies.flatMap (Body.fwd g), (File.header, Ev.decl s) ∈ (initial g p once).out :=
    fun s hs => mem_initial.mpr (.inr ⟨rfl, s, hs, rfl⟩)
  refine ⟨?_, hfwd, ?_, ?_, ?_, ?_, ?_, ?_, ⟨?_, ?_, ?_, .nil⟩⟩
  · intro e he
    rcases mem_initial.mp he with ⟨-, h, -⟩ | ⟨-, s, -, h⟩
    · cases h
    · exact ⟨s, h⟩
  · exact fun s hs => .inl (hfwd s (honce s hs).1.1)
  · exact fun s hs => .inl (honce s hs).1
  · exact fun s hs => (honce s hs).1.2.2
  · intro f s h
    rcases mem_initial.mp h with ⟨-, -, h⟩ | ⟨-, x, -, h⟩ <;> cases h
  · intro f hf pre s post he
    rw [evs_initial hf] at he
    have : Ev.use s ∈ (if g.multi = true ∧ f = .main then [Ev.incl] else []) := by rw [he]; simp
    split at this <;> simp at this
  · intro f s h
    rcases mem_initial.mp h with ⟨-, -, h⟩ | ⟨-, x, -, h⟩ <;> cases h
  · rw [evs_initial (fun h => by cases h)]
    cases g.multi <;> simp
  · intro x hx; cases hx
  · intro x _
    rw [evs_initial (fun h => by cases h)]
    simp

end Verif.Sections
