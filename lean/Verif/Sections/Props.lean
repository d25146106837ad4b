import Verif.Sections.Spec

/-! # C116: lemmas -/
namespace Verif.Sections

/-- All symbols with a definition in what was written. -/
def defsOf (out : List (File × Ev)) : List Sym :=
  out.filterMap (fun x => match x.2 with | .defn s _ => some s | _ => none)

/-- Static symbols. -/
def Sym.isStatic : Sym → Bool
  | .loc _ _ => true
  | .table _ => true
  | .moddef _ => true
  | .init _ => true
  | _ => false

theorem mem_defsOf {out : List (File × Ev)} {s : Sym} :
    s ∈ defsOf out ↔ ∃ f b, (f, Ev.defn s b) ∈ out := by
  unfold defsOf
  rw [List.mem_filterMap]
  constructor
  · rintro ⟨⟨f, e⟩, hm, he⟩
    cases e <;> simp at he
    subst he
    exact ⟨_, _, hm⟩
  · rintro ⟨f, b, h⟩
    exact ⟨_, h, rfl⟩

theorem mem_evs {out : List (File × Ev)} {f : File} {e : Ev} : e ∈ evs out f ↔ (f, e) ∈ out := by
  unfold evs
  rw [List.mem_filterMap]
  constructor
  · rintro ⟨⟨f', e'⟩, hm, he⟩
    simp only [Option.ite_none_right_eq_some, Option.some.injEq] at he
    obtain ⟨h1, h2⟩ := he
    subst h1 h2
    exact hm
  · intro h
    exact ⟨_, h, by simp⟩

theorem evs_append (a b : List (File × Ev)) (f : File) : evs (a ++ b) f = evs a f ++ evs b f := by
  simp [evs, List.filterMap_append]

theorem evs_map (es : List Ev) (f f' : File) :
    evs (es.map (fun e => (f, e))) f' = if f = f' then es else [] := by
  induction es with
  | nil => simp [evs]
  | cons e es ih =>
    simp only [evs, List.map_cons, List.filterMap_cons] at ih ⊢
    by_cases h : f = f'
    · subst h; simp only [if_true] at ih ⊢; rw [ih]
    · simp only [h, if_false] at ih ⊢; exact ih

theorem emit_evs (f f' : File) (es : List Ev) (st : St) :
    evs (emit f es st).out f' = evs st.out f' ++ if f = f' then es else [] := by
  simp only [emit, evs_append, evs_map]

theorem emit_mem {f f' : File} {es : List Ev} {st : St} {e : Ev} :
    (f', e) ∈ (emit f es st).out ↔ (f', e) ∈ st.out ∨ (f' = f ∧ e ∈ es) := by
  simp only [emit, List.mem_append, List.mem_map, Prod.mk.injEq]
  constructor
  · rintro (h | ⟨x, hx, h1, h2⟩)
    · exact .inl h
    · exact .inr ⟨h1.symm, h2 ▸ hx⟩
  · rintro (h | ⟨h1, h2⟩)
    · exact .inl h
    · exact .inr ⟨e, h2, h1.symm, rfl⟩

theorem defsOf_mono {a b : List (File × Ev)} (h : ∀ x ∈ a, x ∈ b) {s : Sym} (hs : s ∈ defsOf a) : s ∈ defsOf b := by
  obtain ⟨f, c, hm⟩ := mem_defsOf.mp hs
  exact mem_defsOf.mpr ⟨f, c, h _ hm⟩

/-- Symbols the header declares or will declare. -/
def St.heads (st : St) (s : Sym) : Prop := (File.header, Ev.decl s) ∈ st.out ∨ s ∈ st.hdr

/-- Declared in the forward declarations and defined by some class, container or exception. -/
def Prov (g : Cfg) (p : Mod) (s : Sym) : Prop :=
  s ∈ p.bodies.flatMap (Body.fwd g) ∧ s ∈ p.symbols g ∧ s.isStatic = false

/-- What may be used next in file `f`. -/
def Known (g : Cfg) (p : Mod) (st : St) (f : File) (s : Sym) : Prop :=
  Prov g p s ∨ s ∈ st.once ∨ (∃ b, (f, Ev.defn s b) ∈ st.out) ∨
    ((f, Ev.decl s) ∈ st.out ∧ s ∈ defsOf st.out ∧ s.isStatic = false)

/-- A piece of a file that only uses known symbols and those it defines first. -/
structure Fine (K : Sym → Prop) (es : List Ev) : Prop where
  noIncl : .incl ∉ es
  statics : ∀ s, .defn s true ∈ es → s.isStatic = true
  inScope : ∀ pre s post, es = pre ++ .use s :: post → K s ∨ ∃ b, .defn s b ∈ pre

theorem Fine.append {K : Sym → Prop} {a b : List Ev} (ha : Fine K a)
    (hb : Fine (fun x => K x ∨ ∃ c, .defn x c ∈ a) b) : Fine K (a ++ b) := by
  refine ⟨?_, ?_, ?_⟩
  · simp [ha.noIncl, hb.noIncl]
  · intro s h
    rcases List.mem_append.mp h with h | h
    · exact ha.statics s h
    · exact hb.statics s h
  · intro pre s post h
    rcases List.append_eq_append_iff.mp h with ⟨l, h1, h2⟩ | ⟨l, h1, h2⟩
    · rcases hb.inScope l s post h2 with (hk | ⟨c, hc⟩) | ⟨c, hc⟩
      · exact .inl hk
      · exact .inr ⟨c, by rw [h1]; exact List.mem_append_left _ hc⟩
      · exact .inr ⟨c, by rw [h1]; exact List.mem_append_right _ hc⟩
    · cases l with
      | nil =>
        simp only [List.nil_append] at h2
        simp only [List.append_nil] at h1
        rcases hb.inScope [] s post (by simpa using h2.symm) with (hk | ⟨c, hc⟩) | ⟨c, hc⟩
        · exact .inl hk
        · exact .inr ⟨c, by rw [← h1]; exact hc⟩
        · cases hc
      | cons x l =>
        simp only [List.cons_append, List.cons.injEq] at h2
        obtain ⟨hx, -⟩ := h2
        subst hx
        exact ha.inScope pre s l h1

theorem Fine.mono {K K' : Sym → Prop} {a : List Ev} (h : ∀ s, K s → K' s) (ha : Fine K a) : Fine K' a :=
  ⟨ha.noIncl, ha.statics, fun pre s post e => (ha.inScope pre s post e).imp (h s) id⟩

theorem Fine.uses {K : Sym → Prop} {l : List Sym} (h : ∀ s ∈ l, K s) : Fine K (l.map .use) := by
  refine ⟨by simp, by simp, ?_⟩
  intro pre s post e
  left
  have : Ev.use s ∈ l.map Ev.use := by rw [e]; simp
  obtain ⟨x, hx, hxe⟩ := List.mem_map.mp this
  injection hxe with hxe
  exact hxe ▸ h x hx

theorem Fine.ofNoUse {K : Sym → Prop} {es : List Ev} (h : .incl ∉ es) (hs : ∀ s, .defn s true ∈ es → s.isStatic = true)
    (hu : ∀ s, .use s ∉ es) : Fine K es := by
  refine ⟨h, hs, ?_⟩
  intro pre s post e
  exact absurd (by rw [e]; simp) (hu s)

theorem Fine.nil {K : Sym → Prop} : Fine K [] := .ofNoUse (by simp) (by simp) (by simp)

theorem Fine.one {K : Sym → Prop} {s : Sym} {b : Bool} (h : b = true → s.isStatic = true) : Fine K [.defn s b] := by
  refine .ofNoUse (by simp) ?_ (by simp)
  intro x hx
  simp only [List.mem_singleton, Ev.defn.injEq] at hx
  exact hx.1 ▸ h hx.2.symm

theorem Fine.ite {K : Sym → Prop} {c : Prop} [Decidable c] {es : List Ev} (h : c → Fine K es) :
    Fine K (if c then es else []) := by
  split
  · exact h ‹_›
  · exact .nil

theorem Fine.defs {K : Sym → Prop} {α : Type _} {l : List α} {f : α → Sym} {b : Bool}
    (h : b = true → ∀ x ∈ l, (f x).isStatic = true) : Fine K (l.map (fun x => .defn (f x) b)) := by
  refine .ofNoUse (by simp) ?_ (by simp)
  intro s hs
  obtain ⟨x, hx, he⟩ := List.mem_map.mp hs
  injection he with h1 h2
  exact h1 ▸ h h2 x hx

/-! ## The invariant -/

/-- Files begin with the `#include`, once. -/
structure Included (g : Cfg) (st : St) : Prop where
  main : if g.multi then ∃ r, evs st.out .main = .incl :: r ∧ .incl ∉ r else .incl ∉ evs st.out .main
  sects : ∀ x, x ∈ st.inited → g.multi = true ∧ ∃ r, evs st.out (.sect x) = .incl :: r ∧ .incl ∉ r
  others : ∀ x, x ∉ st.inited → evs st.out (.sect x) = []
  nodup : st.inited.Nodup

structure Inv (g : Cfg) (p : Mod) (st : St) : Prop where
  hdrOnly : ∀ e, (File.header, e) ∈ st.out → ∃ s, e = .decl s
  fwd : ∀ s ∈ p.bodies.flatMap (Body.fwd g), (File.header, Ev.decl s) ∈ st.out
  onceDecl : ∀ s ∈ st.once, st.heads s
  onceDef : ∀ s ∈ st.once, Prov g p s ∨ s ∈ defsOf st.out
  onceConv : ∀ s ∈ st.once, s.isStatic = false
  statics : ∀ f s, (f, Ev.defn s true) ∈ st.out → s.isStatic = true
  scope : ∀ f, f ≠ .header → ∀ pre s post, evs st.out f = pre ++ .use s :: post →
    st.heads s ∨ .decl s ∈ pre ∨ ∃ b, .defn s b ∈ pre
  resolved : ∀ f s, (f, Ev.use s) ∈ st.out → Prov g p s ∨ (s ∈ defsOf st.out ∧ s.isStatic = false) ∨
    ∃ b, (f, Ev.defn s b) ∈ st.out
  incl : Included g st

/-- A file that has its `#include`. -/
def Open (st : St) (f : File) : Prop := f = .main ∨ ∃ x ∈ st.inited, f = .sect x

theorem Open.ne {st : St} {f : File} (h : Open st f) : f ≠ .header := by
  rcases h with h | ⟨x, _, h⟩ <;> subst h <;> exact nofun

theorem heads_emit {f : File} {es : List Ev} {st : St} {s : Sym} (h : st.heads s) : (emit f es st).heads s := by
  rcases h with h | h
  · exact .inl (emit_mem.mpr (.inl h))
  · exact .inr h

theorem Included.emit {g : Cfg} {st : St} {f : File} {es : List Ev} (hi : Included g st) (ho : Open st f)
    (hn : .incl ∉ es) : Included g (emit f es st) := by
  refine ⟨?_, ?_, ?_, hi.nodup⟩
  · have := hi.main
    split at this
    · rename_i hg
      obtain ⟨r, h1, h2⟩ := this
      rw [if_pos hg]
      rw [emit_evs, h1]
      split
      · exact ⟨r ++ es, by simp, by simp [h2, hn]⟩
      · exact ⟨r, by simp, h2⟩
    · rename_i hg
      rw [if_neg hg, emit_evs]
      split <;> simp [this, hn]
  · intro x hx
    obtain ⟨hg, r, h1, h2⟩ := hi.sects x hx
    refine ⟨hg, ?_⟩
    rw [emit_evs, h1]
    split
    · exact ⟨r ++ es, by simp, by simp [h2, hn]⟩
    · exact ⟨r, by simp, h2⟩
  · intro x hx
    rw [emit_evs, hi.others x hx, if_neg]
    · simp
    · intro hf
      rcases ho with h | ⟨y, hy, h⟩
      · rw [h] at hf; cases hf
      · rw [h] at hf; injection hf with hf; exact hx (hf ▸ hy)

/-- Writing a piece of a file keeps the invariant. -/
theorem Inv.emit {g : Cfg} {p : Mod} {st : St} {f : File} {es : List Ev} (hi : Inv g p st) (ho : Open st f)
    (hf : Fine (Known g p st f) es) : Inv g p (emit f es st) := by
  have hmono : ∀ s, s ∈ defsOf st.out → s ∈ defsOf (Sections.emit f es st).out :=
    fun s h => defsOf_mono (fun x hx => emit_mem.mpr (.inl hx)) h
  refine ⟨?_, ?_, ?_, ?_, hi.onceConv, ?_, ?_, ?_, hi.incl.emit ho hf.noIncl⟩
  · intro e he
    rcases emit_mem.mp he with h | ⟨h, -⟩
    · exact hi.hdrOnly e h
    · exact absurd h.symm ho.ne
  · intro s hs
    exact emit_mem.mpr (.inl (hi.fwd s hs))
  · intro s hs
    exact heads_emit (hi.onceDecl s hs)
  · intro s hs
    exact (hi.onceDef s hs).imp id (hmono s)
  · intro f' s h
    rcases emit_mem.mp h with h | ⟨-, h⟩
    · exact hi.statics f' s h
    · exact hf.statics s h
  · intro f' hf' pre s post he
    rw [emit_evs] at he
    by_cases hff : f = f'
    · subst hff
      rw [if_pos rfl] at he
      rcases List.append_eq_append_iff.mp he with ⟨l, h1, h2⟩ | ⟨l, h1, h2⟩
      · rcases hf.inScope l s post h2 with hk | ⟨b, hb⟩
        · rcases hk with hk | hk | ⟨b, hk⟩ | ⟨hk, -⟩
          · exact .inl (heads_emit (.inl (hi.fwd s hk.1)))
          · exact .inl (heads_emit (hi.onceDecl s hk))
          · exact .inr (.inr ⟨b, by rw [h1]; exact List.mem_append_left _ (mem_evs.mpr hk)⟩)
          · exact .inr (.inl (by rw [h1]; exact List.mem_append_left _ (mem_evs.mpr hk)))
        · exact .inr (.inr ⟨b, by rw [h1]; exact List.mem_append_right _ hb⟩)
      · cases l with
        | nil =>
          simp only [List.nil_append] at h2
          simp only [List.append_nil] at h1
          rcases hf.inScope [] s post (by simpa using h2.symm) with hk | ⟨b, hb⟩
          · rcases hk with hk | hk | ⟨b, hk⟩ | ⟨hk, -⟩
            · exact .inl (heads_emit (.inl (hi.fwd s hk.1)))
            · exact .inl (heads_emit (hi.onceDecl s hk))
            · exact .inr (.inr ⟨b, by rw [← h1]; exact mem_evs.mpr hk⟩)
            · exact .inr (.inl (by rw [← h1]; exact mem_evs.mpr hk))
          · cases hb
        | cons x l =>
          simp only [List.cons_append, List.cons.injEq] at h2
          obtain ⟨hx, -⟩ := h2
          subst hx
          exact (hi.scope f hf' pre s l h1).imp heads_emit id
    · rw [if_neg hff, List.append_nil] at he
      exact (hi.scope f' hf' pre s post he).imp heads_emit id
  · intro f' s h
    rcases emit_mem.mp h with h | ⟨h1, hu⟩
    · rcases hi.resolved f' s h with h | ⟨h, h'⟩ | ⟨b, h⟩
      · exact .inl h
      · exact .inr (.inl ⟨hmono s h, h'⟩)
      · exact .inr (.inr ⟨b, emit_mem.mpr (.inl h)⟩)
    · subst h1
      obtain ⟨pre, post, he⟩ := List.append_of_mem hu
      rcases hf.inScope pre s post he with hk | ⟨b, hb⟩
      · rcases hk with hk | hk | ⟨b, hk⟩ | ⟨-, hk, hk'⟩
        · exact .inl hk
        · rcases hi.onceDef s hk with h | h
          · exact .inl h
          · exact .inr (.inl ⟨hmono s h, hi.onceConv s hk⟩)
        · exact .inr (.inr ⟨b, emit_mem.mpr (.inl hk)⟩)
        · exact .inr (.inl ⟨hmono s hk, hk'⟩)
      · exact .inr (.inr ⟨b, emit_mem.mpr (.inr ⟨rfl, by rw [he]; exact List.mem_append_left _ hb⟩)⟩)

/-- States only grow. -/
structure Le (a b : St) : Prop where
  out : ∀ x ∈ a.out, x ∈ b.out
  once : ∀ s ∈ a.once, s ∈ b.once
  inited : ∀ x ∈ a.inited, x ∈ b.inited

theorem Le.refl (a : St) : Le a a := ⟨fun _ h => h, fun _ h => h, fun _ h => h⟩
theorem Le.trans {a b c : St} (h : Le a b) (k : Le b c) : Le a c :=
  ⟨fun x hx => k.out x (h.out x hx), fun x hx => k.once x (h.once x hx), fun x hx => k.inited x (h.inited x hx)⟩
theorem Le.emit (f : File) (es : List Ev) (st : St) : Le st (emit f es st) :=
  ⟨fun _ h => emit_mem.mpr (.inl h), fun _ h => h, fun _ h => h⟩
theorem Le.open {a b : St} (h : Le a b) {f : File} (ho : Open a f) : Open b f :=
  ho.imp id (fun ⟨x, hx, e⟩ => ⟨x, h.inited x hx, e⟩)
theorem Le.known {g : Cfg} {p : Mod} {a b : St} (h : Le a b) {f : File} {s : Sym} (hk : Known g p a f s) :
    Known g p b f s := by
  rcases hk with hk | hk | ⟨c, hk⟩ | ⟨hk, hd, hs⟩
  · exact .inl hk
  · exact .inr (.inl (h.once s hk))
  · exact .inr (.inr (.inl ⟨c, h.out _ hk⟩))
  · exact .inr (.inr (.inr ⟨h.out _ hk, defsOf_mono h.out hd, hs⟩))

/-- Getting the file of a section keeps the invariant and opens the file. -/
theorem Inv.sinkFor {g : Cfg} {p : Mod} {st : St} (hi : Inv g p st) (sect : Str) :
    Inv g p (sinkFor g sect st).2 ∧ Open (sinkFor g sect st).2 (sinkFor g sect st).1 ∧ Le st (sinkFor g sect st).2 := by
  unfold Sections.sinkFor
  split
  · exact ⟨hi, .inl rfl, .refl _⟩
  rename_i hg
  split
  · exact ⟨hi, .inr ⟨sect, ‹_›, rfl⟩, .refl _⟩
  rename_i hn
  have hout : ∀ f e, (f, e) ∈ (Sections.emit (.sect sect) [.incl] { st with inited := st.inited ++ [sect] }).out ↔
      (f, e) ∈ st.out ∨ (f = .sect sect ∧ e = .incl) := by
    intro f e
    rw [emit_mem]
    simp
  have hdef : ∀ s, s ∈ defsOf st.out →
      s ∈ defsOf (Sections.emit (.sect sect) [.incl] { st with inited := st.inited ++ [sect] }).out := by
    intro s h
    refine defsOf_mono ?_ h
    rintro ⟨f, e⟩ hx
    exact (hout f e).mpr (.inl hx)
  have hheads : ∀ s, st.heads s →
      (Sections.emit (.sect sect) [.incl] { st with inited := st.inited ++ [sect] }).heads s := by
    intro s h
    rcases h with h | h
    · exact .inl ((hout _ _).mpr (.inl h))
    · exact .inr h
  refine ⟨⟨?_, ?_, ?_, ?_, hi.onceConv, ?_, ?_, ?_, ?_⟩, ?_, ?_⟩
  · intro e he
    rcases (hout _ _).mp he with h | ⟨h, -⟩
    · exact hi.hdrOnly e h
    · cases h
  · intro s hs
    exact (hout _ _).mpr (.inl (hi.fwd s hs))
  · intro s hs
    exact hheads s (hi.onceDecl s hs)
  · intro s hs
    exact (hi.onceDef s hs).imp id (hdef s)
  · intro f s h
    rcases (hout _ _).mp h with h | ⟨-, h⟩
    · exact hi.statics f s h
    · cases h
  · intro f hf pre s post he
    rw [emit_evs] at he
    by_cases hfs : File.sect sect = f
    · rw [if_pos hfs, ← hfs] at he
      have h0 : evs st.out (.sect sect) = [] := hi.incl.others sect hn
      simp only [h0, List.nil_append] at he
      have : Ev.use s ∈ [Ev.incl] := by rw [he]; simp
      simp at this
    · rw [if_neg hfs, List.append_nil] at he
      exact (hi.scope f hf pre s post he).imp (hheads s) id
  · intro f s h
    rcases (hout _ _).mp h with h | ⟨-, h⟩
    · rcases hi.resolved f s h with h | ⟨h, h'⟩ | ⟨b, h⟩
      · exact .inl h
      · exact .inr (.inl ⟨hdef s h, h'⟩)
      · exact .inr (.inr ⟨b, (hout _ _).mpr (.inl h)⟩)
    · cases h
  · refine ⟨?_, ?_, ?_, ?_⟩
    · have hm : evs (Sections.emit (.sect sect) [.incl] { st with inited := st.inited ++ [sect] }).out .main =
          evs st.out .main := by
        rw [emit_evs, if_neg (fun h => by cases h), List.append_nil]
      rw [hm]
      exact hi.incl.main
    · intro x hx
      rw [emit_evs]
      rcases List.mem_append.mp hx with hx | hx
      · obtain ⟨h1, r, h2, h3⟩ := hi.incl.sects x hx
        refine ⟨h1, r, ?_, h3⟩
        rw [if_neg, List.append_nil]
        · exact h2
        · intro h; injection h with h; exact hn (h ▸ hx)
      · rw [List.mem_singleton] at hx
        subst hx
        refine ⟨by cases h : g.multi <;> simp_all, [], ?_, by simp⟩
        rw [if_pos rfl]
        show evs st.out (.sect x) ++ _ = _
        rw [hi.incl.others x hn]; rfl
    · intro x hx
      have hx1 : x ∉ st.inited := fun h => hx (List.mem_append_left _ h)
      have hx2 : x ≠ sect := fun h => hx (h ▸ List.mem_append_right _ (by simp))
      rw [emit_evs, if_neg (by intro h; injection h with h; exact hx2 h.symm), List.append_nil]
      exact hi.incl.others x hx1
    · show (st.inited ++ [sect]).Nodup
      rw [List.nodup_append]
      exact ⟨hi.incl.nodup, by simp, by intro a ha b hb; simp at hb; rintro rfl; exact hn (hb ▸ ha)⟩
  · exact .inr ⟨sect, List.mem_append_right _ (by simp), rfl⟩
  · exact ⟨fun ⟨f, e⟩ h => (hout f e).mpr (.inl h), fun _ h => h, fun _ h => List.mem_append_left _ h⟩

end Verif.Sections
