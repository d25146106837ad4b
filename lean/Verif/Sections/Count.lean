import Verif.Sections.Whole

/-! # C116: how often things are defined -/
namespace Verif.Sections

/-- The definitions in a piece of a file. -/
def defsIn (es : List Ev) : List Sym := es.filterMap (fun e => match e with | .defn s _ => some s | _ => none)

theorem defsOf_emit (f : File) (es : List Ev) (st : St) : defsOf (emit f es st).out = defsOf st.out ++ defsIn es := by
  simp only [emit, defsOf, List.filterMap_append, List.filterMap_map, defsIn]
  rfl

theorem defsIn_append (a b : List Ev) : defsIn (a ++ b) = defsIn a ++ defsIn b := by
  simp [defsIn, List.filterMap_append]

theorem defsIn_usesOf (g : Cfg) (rs : List Ref) : defsIn (usesOf g rs) = [] := by
  unfold usesOf defsIn
  rw [List.filterMap_map]
  exact List.filterMap_eq_nil_iff.mpr (fun _ _ => rfl)

theorem defsIn_map_use {α : Type _} (l : List α) (f : α → Sym) : defsIn (l.map (fun x => .use (f x))) = [] := by
  unfold defsIn
  rw [List.filterMap_map]
  exact List.filterMap_eq_nil_iff.mpr (fun _ _ => rfl)

theorem defsIn_map_defn {α : Type _} (l : List α) (f : α → Sym) (b : Bool) :
    defsIn (l.map (fun x => .defn (f x) b)) = l.map f := by
  unfold defsIn
  rw [List.filterMap_map]
  induction l with
  | nil => rfl
  | cons x l ih => simp

theorem defsIn_ite (c : Prop) [Decidable c] (s : Sym) (b : Bool) :
    defsIn (if c then [.defn s b] else []) = if c then [s] else [] := by
  split <;> rfl

/-- Symbols that are not left to `genConv`. -/
def ByEnt (p : Mod) (s : Sym) : Prop := (∀ d t, s ≠ .conv d t) ∨ s ∈ p.bodies.flatMap Body.contConvs

structure CInv (p : Mod) (st : St) : Prop where
  conts : ∀ s ∈ p.bodies.flatMap Body.contConvs, s ∈ st.once
  atMost : ∀ s, ¬ ByEnt p s → (defsOf st.out).count s ≤ 1
  done : ∀ s, ¬ ByEnt p s → s ∈ defsOf st.out → s ∈ st.once

/-- From one state to the next, the definitions `l` are added, and converters. -/
def Adds (p : Mod) (st st' : St) (l : List Sym) : Prop :=
  CInv p st → CInv p st' ∧ ∀ s, ByEnt p s → (defsOf st'.out).count s = (defsOf st.out).count s + l.count s

theorem Adds.refl (p : Mod) (st : St) : Adds p st st [] := fun h => ⟨h, fun s _ => by simp⟩

theorem Adds.trans {p : Mod} {a b c : St} {l m : List Sym} (h : Adds p a b l) (k : Adds p b c m) :
    Adds p a c (l ++ m) := by
  intro hi
  obtain ⟨h1, h2⟩ := h hi
  obtain ⟨k1, k2⟩ := k h1
  refine ⟨k1, fun s hs => ?_⟩
  rw [k2 s hs, h2 s hs, List.count_append]
  omega

theorem Adds.congr {p : Mod} {a b : St} {l m : List Sym} (h : Adds p a b l) (hc : ∀ s, l.count s = m.count s) :
    Adds p a b m := by
  intro hi
  obtain ⟨h1, h2⟩ := h hi
  exact ⟨h1, fun s hs => by rw [h2 s hs, hc]⟩

theorem Adds.emit {p : Mod} (f : File) (es : List Ev) (st : St) (h : ∀ s ∈ defsIn es, ByEnt p s) :
    Adds p st (emit f es st) (defsIn es) := by
  intro hi
  have h0 : ∀ s, ¬ ByEnt p s → (defsIn es).count s = 0 := fun s hs => List.count_eq_zero.mpr (fun hm => hs (h s hm))
  refine ⟨⟨hi.conts, ?_, ?_⟩, ?_⟩
  · intro s hs
    rw [defsOf_emit, List.count_append, h0 s hs]
    exact hi.atMost s hs
  · intro s hs hm
    rw [defsOf_emit, List.mem_append] at hm
    rcases hm with hm | hm
    · exact hi.done s hs hm
    · exact absurd (h s hm) hs
  · intro s _
    rw [defsOf_emit, List.count_append]

theorem Adds.sinkFor {p : Mod} (g : Cfg) (sect : Str) (st : St) : Adds p st (sinkFor g sect st).2 [] := by
  unfold Sections.sinkFor
  split
  · exact .refl _ _
  split
  · exact .refl _ _
  · have := Adds.emit (p := p) (.sect sect) [.incl] { st with inited := st.inited ++ [sect] } (by simp [defsIn])
    intro hi
    exact this ⟨hi.conts, hi.atMost, hi.done⟩

theorem Adds.flush {p : Mod} (st : St) : Adds p st (flushHeader st) [] := by
  intro hi
  have hd : defsIn (st.hdr.map .decl) = [] := by
    unfold defsIn
    rw [List.filterMap_map]
    exact List.filterMap_eq_nil_iff.mpr (fun _ _ => rfl)
  have := Adds.emit (p := p) .header (st.hdr.map .decl) st (by rw [hd]; simp) hi
  rw [hd] at this
  exact ⟨⟨this.1.conts, this.1.atMost, this.1.done⟩, this.2⟩

theorem Adds.genConv {p : Mod} (g : Cfg) (f : File) (c : Conv) (st : St) : Adds p st (genConv g f c st) [] := by
  intro hi
  unfold Sections.genConv
  split
  · exact ⟨hi, fun s _ => by simp⟩
  · rename_i hn
    have hd : defsOf (Sections.emit f (.defn c.sym false :: usesOf g c.refs)
        { st with once := st.once ++ [c.sym], hdr := st.hdr ++ [c.sym] }).out = defsOf st.out ++ [c.sym] := by
      rw [defsOf_emit]
      have : defsIn (.defn c.sym false :: usesOf g c.refs) = [c.sym] := by
        show defsIn ([.defn c.sym false] ++ usesOf g c.refs) = _
        rw [defsIn_append, defsIn_usesOf]; rfl
      rw [this]
    have hne : ∀ s, ByEnt p s → s ≠ c.sym := by
      rintro s (h | h) rfl
      · exact h _ _ rfl
      · exact hn (hi.conts _ h)
    refine ⟨⟨?_, ?_, ?_⟩, ?_⟩
    · exact fun s hs => List.mem_append_left _ (hi.conts s hs)
    · intro s hs
      rw [hd, List.count_append]
      by_cases he : s = c.sym
      · subst he
        have : (defsOf st.out).count c.sym = 0 := List.count_eq_zero.mpr (fun h => hn (hi.done _ hs h))
        rw [this]
        simp
      · have : [c.sym].count s = 0 := List.count_eq_zero.mpr (by simpa using he)
        rw [this]
        exact hi.atMost s hs
    · intro s hs hm
      rw [hd, List.mem_append] at hm
      rcases hm with hm | hm
      · exact List.mem_append_left _ (hi.done s hs hm)
      · exact List.mem_append_right _ hm
    · intro s hs
      rw [hd, List.count_append]
      have : [c.sym].count s = 0 := List.count_eq_zero.mpr (by simpa using hne s hs)
      rw [this]
      simp

theorem Adds.genConvs {p : Mod} (g : Cfg) (f : File) : ∀ (cs : List Conv) (st : St), Adds p st (genConvs g f cs st) []
  | [], st => .refl _ _
  | c :: cs, st => (Adds.genConv g f c st).trans (Adds.genConvs g f cs _)

/-! ## Functions -/

theorem code_defs {g : Cfg} {m : Str} {fn : Fn} {es : List Ev} (h : fn.code g m = some es) :
    defsIn es = Fn.symbols g m fn := by
  have hs : (fn.code g m).isSome = true := by rw [h]; rfl
  unfold Fn.symbols
  rw [if_pos hs]
  unfold Fn.code at h
  split at h
  · cases h
  · rename_i q hq
    split at h
    · injection h with h
      subst h
      rw [hq]
      show defsIn ([.defn (.fn m fn.name) false] ++ usesOf g q.refs) = _
      rw [defsIn_append, defsIn_usesOf]; rfl
    · cases h
  · rename_i h1 h2
    split at h
    · cases h
    · injection h with h
      subst h
      rw [defsIn_append]
      have e1 : defsIn (.defn (.fn m fn.name) false :: fn.done.map (fun x => .use (.part m fn.name x.1))) =
          [.fn m fn.name] := by
        show defsIn ([.defn (.fn m fn.name) false] ++ _) = _
        rw [defsIn_append, defsIn_map_use]; rfl
      have e2 : ∀ l : List (Nat × Part), defsIn (l.flatMap (fun x => .defn (.part m fn.name x.1) false :: usesOf g x.2.refs)) =
          l.map (fun x => Sym.part m fn.name x.1) := by
        intro l
        induction l with
        | nil => rfl
        | cons x l ih =>
          rw [List.flatMap_cons, defsIn_append, ih]
          show defsIn ([.defn (.part m fn.name x.1) false] ++ usesOf g x.2.refs) ++ _ = _
          rw [defsIn_append, defsIn_usesOf]; rfl
      rw [e1, e2]
      split
      · rename_i q hq
        exact absurd hq (h2 q)
      · rfl

theorem nonconv {p : Mod} {s : Sym} (h : ∀ d t, s ≠ .conv d t) : ByEnt p s := .inl h

theorem fn_symbols_ent {p : Mod} {g : Cfg} {m : Str} {fn : Fn} : ∀ s ∈ Fn.symbols g m fn, ByEnt p s := by
  intro s hs
  refine nonconv ?_
  rintro d t rfl
  unfold Fn.symbols at hs
  split at hs
  · rw [List.mem_append] at hs
    rcases hs with hs | hs
    · split at hs
      · cases hs
      · obtain ⟨x, -, h⟩ := List.mem_map.mp hs; cases h
    · simp at hs
  · cases hs

theorem Adds.genFn {p : Mod} (g : Cfg) (m : Str) (st : St) (fn : Fn) : Adds p st (genFn g m st fn) (Fn.symbols g m fn) := by
  unfold Sections.genFn
  dsimp only
  cases h : fn.code g m with
  | none =>
    have : Fn.symbols g m fn = [] := by unfold Fn.symbols; rw [h]; rfl
    rw [this]
    exact Adds.sinkFor g fn.sect st
  | some es =>
    dsimp only
    have hd := code_defs h
    have h1 := Adds.emit (p := p) (Sections.sinkFor g fn.sect st).1 es (Sections.sinkFor g fn.sect st).2
      (by rw [hd]; exact fn_symbols_ent)
    have h2 := Adds.emit (p := p) .main [.decl (.fn m fn.name)] (Sections.emit (Sections.sinkFor g fn.sect st).1 es
      (Sections.sinkFor g fn.sect st).2) (by simp [defsIn])
    exact (((Adds.sinkFor g fn.sect st).trans h1).trans h2).congr (fun s => by rw [hd]; simp [defsIn])

theorem Adds.foldl {p : Mod} {α : Type _} {f : St → α → St} {l : α → List Sym} : ∀ (xs : List α) (st : St),
    (∀ x ∈ xs, ∀ st, Adds p st (f st x) (l x)) → Adds p st (xs.foldl f st) (xs.flatMap l)
  | [], st, _ => .refl _ _
  | x :: xs, st, h => (h x (by simp) st).trans (Adds.foldl xs _ (fun y hy => h y (by simp [hy])))

/-! ## Classes, containers, exceptions, modules -/

theorem item_symbols_ent {p : Mod} {g : Cfg} {c : Item} : ∀ s ∈ c.symbols g, ByEnt p s := by
  intro s hs
  refine nonconv ?_
  rintro d t rfl
  unfold Item.symbols at hs
  dsimp only at hs
  split at hs
  · simp only [List.mem_append] at hs
    rcases hs with (hs | hs) | hs
    · simp at hs
    · split at hs <;> simp at hs
    · split at hs <;> simp at hs
  · simp only [List.mem_append] at hs
    rcases hs with (((((hs | hs) | hs) | hs) | hs) | hs) | hs
    · split at hs <;> simp at hs
    · split at hs <;> simp at hs
    · simp at hs
    · split at hs <;> simp at hs
    · simp at hs
    · split at hs <;> simp at hs
    · simp at hs

theorem Adds.genItem {p : Mod} (g : Cfg) (st : St) (c : Item) : Adds p st (genItem g st c) (c.symbols g) := by
  have hent := item_symbols_ent (p := p) (g := g) (c := c)
  unfold Sections.genItem
  dsimp only
  cases himp : c.cls.info.imported with
  | true =>
    rw [if_pos rfl]
    have hd : defsIn (c.importCode g) = c.symbols g := by
      unfold Item.importCode Item.symbols
      dsimp only
      rw [if_pos himp, defsIn_append, defsIn_append, defsIn_ite, defsIn_ite]
      rfl
    exact ((Adds.sinkFor g c.sect st).trans (Adds.emit _ _ _ (by rw [hd]; exact hent))).congr
      (fun s => by rw [hd]; simp)
  | false =>
    rw [if_neg (by simp)]
    have hd : defsIn (c.before g) ++ defsIn c.after = c.symbols g := by
      unfold Item.before Item.after Item.symbols
      dsimp only
      have e : defsIn (if c.iter = true then [.use (.iter c.cls.info.name), .defn (.iter c.cls.info.name) false] else []) =
          if c.iter = true then [.iter c.cls.info.name] else [] := by split <;> rfl
      rw [if_neg (show ¬ c.cls.info.imported = true by simp [himp])]
      simp only [defsIn_append, defsIn_ite, defsIn_usesOf, defsIn_map_use, e, List.append_nil, List.nil_append]
      rw [defsIn_map_defn c.helper (fun m => .helper c.cls.info.name m), defsIn_map_defn c.locals (fun m => .loc c.cls.info.name m)]
      simp only [List.append_assoc]
      rfl
    have hb : ∀ s ∈ defsIn (c.before g), ByEnt p s := fun s hs => hent s (by rw [← hd]; exact List.mem_append_left _ hs)
    have ha : ∀ s ∈ defsIn c.after, ByEnt p s := fun s hs => hent s (by rw [← hd]; exact List.mem_append_right _ hs)
    exact ((((Adds.sinkFor g c.sect st).trans (Adds.emit _ _ _ hb)).trans (Adds.genConvs g _ c.convs _)).trans
      (Adds.emit _ _ _ ha)).congr (fun s => by rw [← hd]; simp)

theorem cont_symbols_ent {p : Mod} {b : Body} (hb : b ∈ p.bodies) {c : Cont} (hc : c ∈ b.conts) :
    ∀ s ∈ c.symbols, ByEnt p s := by
  intro s hs
  unfold Cont.symbols at hs
  rw [List.mem_append] at hs
  rcases hs with hs | hs
  · obtain ⟨x, -, rfl⟩ := List.mem_map.mp hs
    exact nonconv (by intro d t h; cases h)
  · simp only [List.mem_cons, List.not_mem_nil, or_false] at hs
    rcases hs with rfl | rfl | rfl
    · exact .inr (List.mem_flatMap.mpr ⟨b, hb, List.mem_map.mpr ⟨c, hc, rfl⟩⟩)
    · exact nonconv (by intro d t h; cases h)
    · exact nonconv (by intro d t h; cases h)

theorem Adds.genCont {p : Mod} (g : Cfg) {b : Body} (hb : b ∈ p.bodies) (st : St) {c : Cont} (hc : c ∈ b.conts) :
    Adds p st (genCont g st c) c.symbols := by
  have hent := cont_symbols_ent hb hc
  unfold Sections.genCont
  dsimp only
  have e1 : defsIn (c.locals.map (fun l => .defn (.loc c.name l) true) ++ usesOf g (.cont c.name c.ctype :: c.refs)) =
      c.locals.map (.loc c.name) := by
    rw [defsIn_append, defsIn_usesOf, defsIn_map_defn c.locals (fun m => .loc c.name m), List.append_nil]
  have e2 : defsIn (c.convs.map (fun v => .use v.sym) ++ [.use (.type c.name), .defn (.conv .py2c c.ctype) false] ++
      c.locals.map (fun l => .use (.loc c.name l)) ++ [.defn (.type c.name) false, .defn (.iter c.name) false]) =
      [.conv .py2c c.ctype, .type c.name, .iter c.name] := by
    simp only [defsIn_append, defsIn_map_use]
    rfl
  refine ((((Adds.sinkFor g c.sect st).trans (Adds.emit _ _ _ ?_)).trans (Adds.genConvs g _ c.convs _)).trans
      (Adds.emit _ _ _ ?_)).congr ?_
  · rw [e1]; exact fun s hs => hent s (List.mem_append_left _ hs)
  · rw [e2]; exact fun s hs => hent s (List.mem_append_right _ hs)
  · intro s
    rw [e1, e2]
    simp [Cont.symbols]

theorem Adds.genExc {p : Mod} (g : Cfg) (st : St) (e : Exc) : Adds p st (genExc g st e) [.exc e.name] :=
  ((Adds.sinkFor g e.sect st).trans (Adds.emit _ [.defn (.exc e.name) false] _ (by
    intro s hs
    refine nonconv ?_
    rintro d t rfl
    simp [defsIn] at hs))).congr (fun s => by simp [defsIn])

theorem Adds.genBody {p : Mod} (g : Cfg) (root : Bool) {b : Body} (hb : b ∈ p.bodies) (subs : List Str) (st : St) :
    Adds p st (genBody g root b subs st) (b.symbols g) := by
  unfold Sections.genBody
  have h1 := Adds.foldl (p := p) (f := Sections.genFn g b.name) (l := Fn.symbols g b.name) b.fns st
    (fun x _ st => Adds.genFn g b.name st x)
  have h2 : Adds p (b.fns.foldl (Sections.genFn g b.name) st) (genTable g b (b.fns.foldl (Sections.genFn g b.name) st))
      [.table b.name] := by
    unfold genTable
    have e : defsIn (((b.tabled g).map (fun fn => .use (.fn b.name fn.name))) ++ [.defn (.table b.name) true]) =
        [.table b.name] := by
      rw [defsIn_append, defsIn_map_use]; rfl
    rw [← e]
    refine Adds.emit _ _ _ ?_
    rw [e]
    intro s hs
    rw [List.mem_singleton] at hs
    exact nonconv (by rw [hs]; intro d t h; cases h)
  have h3 := Adds.foldl (p := p) (f := Sections.genItem g) (l := Item.symbols g) b.ordered
    (genTable g b (b.fns.foldl (Sections.genFn g b.name) st)) (fun x _ st => Adds.genItem g st x)
  have h4 := Adds.foldl (p := p) (f := Sections.genCont g) (l := Cont.symbols) b.conts
    (b.ordered.foldl (Sections.genItem g) (genTable g b (b.fns.foldl (Sections.genFn g b.name) st)))
    (fun x hx st => Adds.genCont g hb st hx)
  have h5 := Adds.foldl (p := p) (f := Sections.genExc g) (l := fun e => [Sym.exc e.name]) b.excs
    (b.conts.foldl (Sections.genCont g) (b.ordered.foldl (Sections.genItem g)
      (genTable g b (b.fns.foldl (Sections.genFn g b.name) st))))
    (fun x _ st => Adds.genExc g st x)
  have h6 : ∀ st, Adds p st (finish g root b subs st) [.moddef b.name, .init b.name] := by
    intro st
    unfold finish
    have e : defsIn ([.use (.table b.name), .defn (.moddef b.name) true, .defn (.init b.name) (!root)] ++
        (b.initUses g subs).map .use) = [.moddef b.name, .init b.name] := by
      rw [defsIn_append, show defsIn ((b.initUses g subs).map .use) = [] from defsIn_map_use (b.initUses g subs) id]; rfl
    have := Adds.emit (p := p) .main ([.use (.table b.name), .defn (.moddef b.name) true, .defn (.init b.name) (!root)] ++
        (b.initUses g subs).map .use) (flushHeader st) (by
      rw [e]
      intro s hs
      refine nonconv ?_
      rintro d t rfl
      simp at hs)
    rw [e] at this
    exact (Adds.flush st).trans this
  refine (((((h1.trans h2).trans h3).trans h4).trans h5).trans (h6 _)).congr ?_
  intro s
  have e : b.excs.flatMap (fun e => [Sym.exc e.name]) = b.excs.map (fun e => .exc e.name) := by
    exact List.flatMap_pure_eq_map _ _
  rw [e]
  rfl

mutual
theorem Adds.genMod {p : Mod} (g : Cfg) : ∀ (m : Mod) (root : Bool) (st : St), (∀ b ∈ m.bodies, b ∈ p.bodies) →
    Adds p st (genMod g root m st) (m.bodies.flatMap (Body.symbols g))
  | .mk b subs, root, st, hb => by
    simp only [Sections.genMod]
    simp only [Mod.bodies] at hb ⊢
    refine ((Adds.genMods g subs st (fun x hx => hb x (by simp [hx]))).trans
      (Adds.genBody g root (hb b (by simp)) _ _)).congr ?_
    intro s
    rw [List.flatMap_cons, List.count_append, List.count_append]
    omega
theorem Adds.genMods {p : Mod} (g : Cfg) : ∀ (ms : List Mod) (st : St), (∀ b ∈ bodiesAll ms, b ∈ p.bodies) →
    Adds p st (genMods g ms st) ((bodiesAll ms).flatMap (Body.symbols g))
  | [], st, _ => by simp only [Sections.genMods, bodiesAll]; exact .refl _ _
  | m :: ms, st, hb => by
    simp only [Sections.genMods]
    simp only [bodiesAll] at hb ⊢
    rw [List.flatMap_append]
    exact (Adds.genMod g m false st (fun x hx => hb x (List.mem_append_left _ hx))).trans
      (Adds.genMods g ms _ (fun x hx => hb x (List.mem_append_right _ hx)))
end

end Verif.Sections
