import Verif.Imports.Props

/-!
# C104: a class imported from another module is that module's class (theorems)
-/
namespace Verif.Imports
open Verif Verif.Names

/-! ## The pointer variables of an extension -/

theorem importBlock_vars (s : Settings) (c : Cls) : (importBlock s c).flatMap BStmt.vars =
    [hidden (c.decl.pytypestruct s.pre)]
    ++ (if c.narrow = .self then [hidden (typeMapName s c.decl)] else [])
    ++ (if c.bases = [] ∧ s.stdMap = true then [hidden (registryName s c.decl)] else []) := by
  simp only [importBlock, List.flatMap_append]
  congr 1
  · congr 1
    split <;> rfl
  · split <;> rfl

theorem ownStmts_vars (s : Settings) (path : List Str) (c : Cls) : (ownStmts s path c).flatMap Stmt.vars = [] := by
  simp only [List.flatMap_eq_nil_iff, ownStmts, List.mem_append]
  intro st hst
  rcases hst with ((((h | h) | h) | h) | h) | h
  · split at h
    · rw [List.mem_singleton.1 h]; rfl
    · cases h
  · unfold registerStmts at h
    cases hn : c.narrow with
    | off => rw [hn] at h; cases h
    | self => rw [hn] at h; rw [List.mem_singleton.1 h]; rfl
    | ancestor r => rw [hn] at h; rw [List.mem_singleton.1 h]; rfl
  · split at h
    · rw [List.mem_singleton.1 h]; rfl
    · cases h
  · unfold baseStmts at h
    rcases hn : c.bases with _ | ⟨b, _ | ⟨b2, bs⟩⟩ <;> rw [hn] at h
    · cases h
    · rw [List.mem_singleton.1 h]; rfl
    · simp only [List.mem_cons, List.not_mem_nil, or_false] at h
      rcases h with rfl | rfl <;> rfl
  · rw [List.mem_singleton.1 h]; rfl
  · unfold placeStmts at h
    cases hn : c.decl with
    | top a b d e => rw [hn] at h; rw [List.mem_singleton.1 h]; rfl
    | nested a b d => rw [hn] at h; rw [List.mem_singleton.1 h]; rfl

mutual
theorem stmts_vars (s : Settings) : ∀ (m : Mod) (path : List Str),
    (stmts s path m).flatMap Stmt.vars =
      m.allImported.flatMap (fun c => (importBlock s c).flatMap BStmt.vars)
  | .mk name classes typedefs subs, path => by
    simp only [stmts, Mod.allImported, List.flatMap_append]
    have h2 : ((classes.filter (!·.imported)).flatMap (ownStmts s path)).flatMap Stmt.vars = [] := by
      rw [List.flatMap_assoc]
      simp only [ownStmts_vars, List.flatMap_eq_nil_iff, implies_true]
    have h3 : (typedefs.map (fun t => Stmt.addType path t.2 (typeLv s t.1))).flatMap Stmt.vars = [] := by
      simp [List.flatMap_map, Stmt.vars]
    rw [h2, h3, subStmts_vars s subs path, List.flatMap_map]
    simp [Stmt.vars]
theorem subStmts_vars (s : Settings) : ∀ (ms : List Mod) (path : List Str),
    (subStmts s path ms).flatMap Stmt.vars =
      (subsImported ms).flatMap (fun c => (importBlock s c).flatMap BStmt.vars)
  | [], _ => rfl
  | m :: ms, path => by
    simp only [subStmts, subsImported, List.flatMap_append]
    rw [stmts_vars s m (path ++ [m.name]), subStmts_vars s ms path]
    simp [Stmt.vars]
end

mutual
theorem block_mem (s : Settings) (c : Cls) : ∀ (m : Mod) (path : List Str), c ∈ m.allImported →
    Stmt.block (importBlock s c) ∈ stmts s path m
  | .mk name classes typedefs subs, path, h => by
    simp only [Mod.allImported, List.mem_append] at h
    simp only [stmts, List.mem_append]
    rcases h with h | h
    · exact Or.inl (Or.inl (Or.inl (List.mem_map.2 ⟨c, h, rfl⟩)))
    · exact Or.inr (subBlock_mem s c subs path h)
theorem subBlock_mem (s : Settings) (c : Cls) : ∀ (ms : List Mod) (path : List Str), c ∈ subsImported ms →
    Stmt.block (importBlock s c) ∈ subStmts s path ms
  | [], _, h => by cases h
  | m :: ms, path, h => by
    simp only [subsImported, List.mem_append] at h
    simp only [subStmts, List.mem_append]
    rcases h with h | h
    · exact Or.inl (Or.inl (block_mem s c m _ h))
    · exact Or.inr (subBlock_mem s c ms path h)
end

theorem own_noBlock (s : Settings) (path : List Str) (c : Cls) (b : List BStmt) :
    Stmt.block b ∉ ownStmts s path c := by
  intro hst
  simp only [ownStmts, List.mem_append] at hst
  rcases hst with ((((h | h) | h) | h) | h) | h
  · split at h
    · cases List.mem_singleton.1 h
    · cases h
  · unfold registerStmts at h
    cases hn : c.narrow with
    | off => rw [hn] at h; cases h
    | self => rw [hn] at h; cases List.mem_singleton.1 h
    | ancestor r => rw [hn] at h; cases List.mem_singleton.1 h
  · split at h
    · cases List.mem_singleton.1 h
    · cases h
  · unfold baseStmts at h
    rcases hn : c.bases with _ | ⟨b, _ | ⟨b2, bs⟩⟩ <;> rw [hn] at h
    · cases h
    · cases List.mem_singleton.1 h
    · simp at h
  · cases List.mem_singleton.1 h
  · unfold placeStmts at h
    cases hn : c.decl with
    | top a b d e => rw [hn] at h; cases List.mem_singleton.1 h
    | nested a b d => rw [hn] at h; cases List.mem_singleton.1 h

mutual
/-- The only blocks are those of imported classes. -/
theorem stmts_blocks (s : Settings) (b : List BStmt) : ∀ (m : Mod) (path : List Str),
    Stmt.block b ∈ stmts s path m → ∃ c ∈ m.allImported, b = importBlock s c
  | .mk name classes typedefs subs, path, h => by
    simp only [stmts, List.mem_append] at h
    simp only [Mod.allImported, List.mem_append]
    rcases h with ((h | h) | h) | h
    · obtain ⟨c, hc, he⟩ := List.mem_map.1 h
      cases he
      exact ⟨c, Or.inl hc, rfl⟩
    · obtain ⟨c, hc, he⟩ := List.mem_flatMap.1 h
      exact absurd he (own_noBlock s path c b)
    · obtain ⟨c, hc, he⟩ := List.mem_map.1 h
      cases he
    · obtain ⟨c, hc, he⟩ := subStmts_blocks s b subs path h
      exact ⟨c, Or.inr hc, he⟩
theorem subStmts_blocks (s : Settings) (b : List BStmt) : ∀ (ms : List Mod) (path : List Str),
    Stmt.block b ∈ subStmts s path ms → ∃ c ∈ subsImported ms, b = importBlock s c
  | [], _, h => by cases h
  | m :: ms, path, h => by
    simp only [subStmts, List.mem_append] at h
    simp only [subsImported, List.mem_append]
    rcases h with (h | h) | h
    · obtain ⟨c, hc, he⟩ := stmts_blocks s b m _ h
      exact ⟨c, Or.inl hc, he⟩
    · cases List.mem_singleton.1 h
    · obtain ⟨c, hc, he⟩ := subStmts_blocks s b ms path h
      exact ⟨c, Or.inr hc, he⟩
end

/-- The three kinds of pointer variables end in different letters. -/
theorem suffix_inj {p q a b : Str} {x y : Char} (h : p ++ (a ++ [x]) = q ++ (b ++ [y])) : x = y := by
  have := congrArg List.getLast? h
  simpa [← List.append_assoc] using this

theorem sfxType : "_Type".toList = "_Typ".toList ++ ['e'] := by decide
theorem sfxMap : "__typeid_map".toList = "__typeid_ma".toList ++ ['p'] := by decide
theorem sfxReg : "_wrapper_registry".toList = "_wrapper_registr".toList ++ ['y'] := by decide

/-- A pointer variable belongs to the class whose structure name it starts with. -/
theorem var_pystruct {s : Settings} {c : Cls} {v : Str} (h : v ∈ (importBlock s c).flatMap BStmt.vars) :
    v = hidden (c.decl.pystruct s.pre ++ "_Type".toList) ∨
    v = hidden (c.decl.pystruct s.pre ++ "__typeid_map".toList) ∨
    v = hidden (c.decl.pystruct s.pre ++ "_wrapper_registry".toList) := by
  rw [importBlock_vars] at h
  simp only [List.mem_append, List.mem_singleton] at h
  rcases h with (h | h) | h
  · exact Or.inl h
  · split at h
    · exact Or.inr (Or.inl (List.mem_singleton.1 h))
    · cases h
  · split at h
    · exact Or.inr (Or.inr (List.mem_singleton.1 h))
    · cases h

theorem hidden_inj {a b : Str} (h : hidden a = hidden b) : a = b := by
  unfold hidden at h
  exact (List.cons.inj h).2

theorem type_ne_map (p q : Str) : hidden (p ++ "_Type".toList) ≠ hidden (q ++ "__typeid_map".toList) := by
  intro h
  have h := hidden_inj h
  rw [sfxType, sfxMap] at h
  exact absurd (suffix_inj h) (by decide)

theorem type_ne_reg (p q : Str) : hidden (p ++ "_Type".toList) ≠ hidden (q ++ "_wrapper_registry".toList) := by
  intro h
  have h := hidden_inj h
  rw [sfxType, sfxReg] at h
  exact absurd (suffix_inj h) (by decide)

theorem map_ne_reg (p q : Str) :
    hidden (p ++ "__typeid_map".toList) ≠ hidden (q ++ "_wrapper_registry".toList) := by
  intro h
  have h := hidden_inj h
  rw [sfxMap, sfxReg] at h
  exact absurd (suffix_inj h) (by decide)

theorem var_owner {s : Settings} {c d : Cls} {v : Str} (hc : v ∈ (importBlock s c).flatMap BStmt.vars)
    (hd : v ∈ (importBlock s d).flatMap BStmt.vars) : c.decl.pystruct s.pre = d.decl.pystruct s.pre := by
  rcases var_pystruct hc with rfl | rfl | rfl <;> rcases var_pystruct hd with h | h | h
  · exact List.append_cancel_right (hidden_inj h)
  · exact absurd h (type_ne_map _ _)
  · exact absurd h (type_ne_reg _ _)
  · exact absurd h.symm (type_ne_map _ _)
  · exact List.append_cancel_right (hidden_inj h)
  · exact absurd h (map_ne_reg _ _)
  · exact absurd h.symm (type_ne_reg _ _)
  · exact absurd h.symm (map_ne_reg _ _)
  · exact List.append_cancel_right (hidden_inj h)

theorem blockVars_nodup (s : Settings) (c : Cls) : ((importBlock s c).flatMap BStmt.vars).Nodup := by
  rw [importBlock_vars]
  have h1 : hidden (c.decl.pytypestruct s.pre) ≠ hidden (typeMapName s c.decl) := type_ne_map _ _
  have h2 : hidden (c.decl.pytypestruct s.pre) ≠ hidden (registryName s c.decl) := type_ne_reg _ _
  have h3 : hidden (typeMapName s c.decl) ≠ hidden (registryName s c.decl) := map_ne_reg _ _
  split <;> split <;> simp [h1, h2, h3]

theorem vars_nodup (s : Settings) : ∀ l : List Cls, (l.map (fun c => c.decl.pystruct s.pre)).Nodup →
    (l.flatMap (fun c => (importBlock s c).flatMap BStmt.vars)).Nodup
  | [], _ => by simp
  | c :: l, h => by
    rw [List.map_cons, List.nodup_cons] at h
    rw [List.flatMap_cons, List.nodup_append]
    refine ⟨blockVars_nodup s c, vars_nodup s l h.2, ?_⟩
    intro a ha b hb hab
    subst hab
    obtain ⟨d, hd, hd2⟩ := List.mem_flatMap.1 hb
    exact h.1 (List.mem_map.2 ⟨d, hd, (var_owner ha hd2).symm⟩)

/-! ## One block -/

/-- What the block of a class leaves in its pointer variables, when the module is found and has the
attributes. -/
theorem brun_import {ext : Str} {s : Settings} {c : Cls} {w w2 : World} {m : Addr}
    (hsys : w.sys (moduleName c.source) = some m)
    (h : brun ext w .object (importBlock s c) = .ok w2) :
    w2.ptr ext (hidden (c.decl.pytypestruct s.pre)) = w.attrs m c.pythonName ∧
    (c.narrow = .self → ∀ a, w.attrs m (hidden (typeMapName s c.decl)) = some (.capsule a) →
      w2.ptr ext (hidden (typeMapName s c.decl)) = some a) ∧
    (c.bases = [] → s.stdMap = true → ∀ a, w.attrs m (hidden (registryName s c.decl)) = some (.capsule a) →
      w2.ptr ext (hidden (registryName s c.decl)) = some a) := by
  have n1 : hidden (c.decl.pytypestruct s.pre) ≠ hidden (typeMapName s c.decl) := type_ne_map _ _
  have n2 : hidden (c.decl.pytypestruct s.pre) ≠ hidden (registryName s c.decl) := type_ne_reg _ _
  have n3 : hidden (typeMapName s c.decl) ≠ hidden (registryName s c.decl) := map_ne_reg _ _
  simp only [importBlock, List.cons_append, List.nil_append] at h
  unfold brun at h
  simp only [bstep, hsys] at h
  unfold brun at h
  simp only [bstep] at h
  generalize hidden (c.decl.pytypestruct s.pre) = vt at h n1 n2 ⊢
  generalize hidden (registryName s c.decl) = vr at h n2 n3 ⊢
  generalize hidden (typeMapName s c.decl) = vm at h n1 n3 ⊢
  have hw1 : ∃ w1, w1 = setPtr w ext vt (w.attrs m c.pythonName) := ⟨_, rfl⟩
  obtain ⟨w1, hw1⟩ := hw1
  rw [← hw1] at h
  have e1 : w1.attrs = w.attrs := by rw [hw1]; rfl
  have e2 : w1.ptr ext vt = w.attrs m c.pythonName := by rw [hw1]; simp [setPtr, upd_same]
  refine ⟨?_, ?_, ?_⟩
  · rw [← e2]
    refine brun_ptr _ w1 w2 m ?_ h
    intro hc
    simp only [List.flatMap_append, List.mem_append] at hc
    rcases hc with hc | hc
    · split at hc
      · exact n1 (List.mem_singleton.1 hc)
      · cases hc
    · split at hc
      · exact n2 (List.mem_singleton.1 hc)
      · cases hc
  · intro hn a ha
    rw [if_pos hn, List.cons_append, List.nil_append] at h
    unfold brun at h
    simp only [bstep, e1, ha, asVoidPtr] at h
    have e3 : (setPtr w1 ext vm (some a)).ptr ext vm = some a := by simp [setPtr, upd_same]
    rw [← e3]
    refine brun_ptr _ _ w2 m ?_ h
    intro hc
    split at hc
    · exact n3 (List.mem_singleton.1 hc)
    · cases hc
  · intro hb hs a ha
    rw [if_pos (show c.bases = [] ∧ s.stdMap = true from ⟨hb, hs⟩)] at h
    have last : ∀ w3 : World, w3.attrs = w.attrs → brun ext w3 m [.getRegistry vr vr] = .ok w2 →
        w2.ptr ext vr = some a := by
      intro w3 hw3 h3
      unfold brun at h3
      simp only [bstep, hw3, ha, asVoidPtr] at h3
      unfold brun at h3
      cases h3
      simp [setPtr, upd_same]
    split at h
    · rw [List.cons_append, List.nil_append] at h
      unfold brun at h
      cases hm : bstep ext w1 m (.getMap vm vm) with
      | error e => rw [hm] at h; cases h
      | ok r =>
        obtain ⟨w3, m3⟩ := r
        rw [hm] at h
        have hs3 := (bstep_same hm).1.1
        have hm3 : m3 = m := by
          simp only [bstep] at hm
          cases hq : w1.attrs m vm with
          | none => rw [hq] at hm; cases hm; rfl
          | some q => rw [hq] at hm; cases hm; rfl
        subst hm3
        exact last w3 (hs3.trans e1) h
    · exact last w1 e1 h

/-! ## C104 -/

theorem load_run {w w' : World} {x : Ext} (h : load w x = .ok w') :
    ∃ w1, run x.name (x.stmts.length + 2) w x.stmts = .ok w1 ∧ w'.attrs = w1.attrs ∧ w'.ptr = w1.ptr ∧
      w'.sys x.name = some (.module x.name []) := by
  unfold load at h
  cases hr : run x.name (x.stmts.length + 2) w x.stmts with
  | error f => rw [hr] at h; cases h
  | ok w2 =>
    rw [hr] at h
    cases h
    exact ⟨w2, rfl, rfl, rfl, upd_same _ _ _⟩

/-- The classes an extension defines at the top level of its root module. -/
def Ext.defines (x : Ext) (d : Cls) : Prop := d ∈ x.root.classes ∧ d.imported = false ∧ d.topLevel = true

theorem own_mem {x : Ext} {d : Cls} (h : d ∈ x.root.classes) (hi : d.imported = false) {st : Stmt}
    (hs : st ∈ ownStmts x.settings [] d) : st ∈ x.stmts := by
  obtain ⟨s, ⟨name, classes, typedefs, subs⟩⟩ := x
  simp only [Ext.stmts, stmts, List.mem_append]
  refine Or.inl (Or.inl (Or.inr (List.mem_flatMap.2 ⟨d, ?_, hs⟩)))
  simp only [List.mem_filter]
  exact ⟨h, by simp [hi]⟩

/-- What a loaded extension offers: its classes under their Python names, the type maps and wrapper
registries under hidden names. -/
theorem exported {E : Ext} {w w' : World} (h : load w E = .ok w') (hexp : E.attributes.Nodup) {d : Cls}
    (hd : E.defines d) :
    w'.attrs (.module E.name []) d.pythonName = some (.glob E.name (d.decl.pytypestruct E.settings.pre)) ∧
    (d.narrow = .self → w'.attrs (.module E.name []) (hidden (typeMapName E.settings d.decl)) =
      some (.capsule (.glob E.name (typeMapName E.settings d.decl)))) ∧
    (d.bases = [] → E.settings.stdMap = true →
      w'.attrs (.module E.name []) (hidden (registryName E.settings d.decl)) =
      some (.capsule (.glob E.name (registryName E.settings d.decl)))) := by
  obtain ⟨w1, hr, ha, _, _⟩ := load_run h
  rw [ha]
  obtain ⟨hm, hi, ht⟩ := hd
  have key : ∀ st n v, st ∈ ownStmts E.settings [] d → st.gives E.name [] n v →
      w1.attrs (.module E.name []) n = some v := by
    intro st n v hs hg
    exact run_gives E.stmts w w1 (by rw [ext_names]; exact hexp) st (own_mem hm hi hs) hg hr
  refine ⟨key (.addType [] d.pythonName (typeLv E.settings ⟨d.decl, false⟩)) _ _ ?_ (Or.inl ⟨_, rfl, rfl⟩),
    fun hn => key (.addPointer [] (hidden (typeMapName E.settings d.decl))
      ⟨typeMapName E.settings d.decl, false⟩) _ _ ?_ (Or.inr ⟨_, rfl, rfl⟩),
    fun hb hs => key (.addPointer [] (hidden (registryName E.settings d.decl))
      ⟨registryName E.settings d.decl, false⟩) _ _ ?_ (Or.inr ⟨_, rfl, rfl⟩)⟩
  · simp only [ownStmts, List.mem_append]
    refine Or.inr ?_
    unfold placeStmts
    unfold Cls.topLevel at ht
    cases hdd : d.decl with
    | top a b c e => simp
    | nested a b c => rw [hdd] at ht; cases ht
  · simp only [ownStmts, List.mem_append, if_pos hn]
    simp
  · simp only [ownStmts, List.mem_append, if_pos (And.intro hb hs)]
    simp

/-- **C104 (partial)**: whatever other extension modules are loaded before, between and after, a class
`c` imported by extension `I` (in its root module or any submodule) from extension `E` is, in the
generated code of `I`, the very type object that `E` shows in its root module under the class's Python
name.  With the same settings in both, the type map `I` looks wrappers up in and adds its own classes to
is `E`'s, and the registry of wrappers is `E`'s.

Missing (false): see the counterexamples. -/
theorem C104_shared_partial (before between after : List Ext) (E I : Ext) (w w' : World)
    (hload : loadAll w (before ++ E :: (between ++ I :: after)) = .ok w')
    (hnames : ((before ++ E :: (between ++ I :: after)).map Ext.name).Nodup)
    (hexp : E.attributes.Nodup)
    (hsyms : (I.root.allImported.map (fun c => c.decl.pystruct I.settings.pre)).Nodup)
    (c d : Cls) (hc : c ∈ I.root.allImported) (hsrc : moduleName c.source = E.name)
    (hd : E.defines d) (hpy : c.pythonName = d.pythonName) :
    (∃ t, w'.attrs (.module E.name []) d.pythonName = some t ∧
      t = .glob E.name (d.decl.pytypestruct E.settings.pre) ∧
      addr w' I.name (typeLv I.settings ⟨c.decl, true⟩) = some t) ∧
    (I.settings = E.settings → c.decl = d.decl →
      (c.narrow = .self → d.narrow = .self →
        addr w' I.name ⟨typeMapName I.settings c.decl, true⟩ =
          some (.glob E.name (typeMapName E.settings d.decl))) ∧
      (c.bases = [] → d.bases = [] → I.settings.stdMap = true →
        addr w' I.name ⟨registryName I.settings c.decl, true⟩ =
          some (.glob E.name (registryName E.settings d.decl)))) := by
  obtain ⟨w0, _, h0⟩ := loadAll_append before _ _ _ hload
  unfold loadAll at h0
  cases hE : load w0 E with
  | error f => rw [hE] at h0; cases h0
  | ok w1 =>
    rw [hE] at h0
    simp only at h0
    have hrest : loadAll w1 (between ++ I :: after) = .ok w' := h0
    obtain ⟨w2, h2, h3⟩ := loadAll_append between _ _ _ h0
    unfold loadAll at h3
    cases hI : load w2 I with
    | error f => rw [hI] at h3; cases h3
    | ok w3 =>
      rw [hI] at h3
      simp only at h3
      simp only [List.map_append, List.map_cons, List.nodup_append, List.nodup_cons, List.mem_append,
        List.mem_cons, List.mem_map, not_or, not_exists, not_and] at hnames
      obtain ⟨_, ⟨⟨hEb, hEI, hEa⟩, ⟨_, ⟨hIa, _⟩, hbI⟩⟩, _⟩ := hnames
      have hIE : E.name ≠ I.name := hEI
      have expd := exported hE hexp hd
      have kb := loadAll_keeps (e := E.name) between w1 w2 (fun x hx => hEb x hx) h2
      obtain ⟨w4, hr, ha4, hp4, _⟩ := load_run hI
      have hvars : (I.stmts.flatMap Stmt.vars).Nodup := by
        have := stmts_vars I.settings I.root []
        unfold Ext.stmts
        rw [this]
        exact vars_nodup _ _ hsyms
      obtain ⟨wa, wb, hka, hb, hv⟩ := run_block E.name hIE I.stmts w2 w4 hvars
        (block_mem I.settings c I.root [] hc) hr
      have ksys : wa.sys (moduleName c.source) = some (.module E.name []) := by
        rw [hsrc, hka.2.2, kb.2.2]
        exact (load_run hE).choose_spec.2.2.2
      have kattr : ∀ n, wa.attrs (.module E.name []) n = w1.attrs (.module E.name []) n := by
        intro n
        rw [hka.1 [], kb.1 []]
      have hblk := brun_import ksys hb
      have kI := loadAll_keeps (e := I.name) after w3 w' (fun x hx => hIa x hx) h3
      have hfin : ∀ v ∈ (importBlock I.settings c).flatMap BStmt.vars, w'.ptr I.name v = wb.ptr I.name v := by
        intro v hv'
        rw [kI.2.1, hp4]
        exact hv v hv'
      have kE := loadAll_keeps (e := E.name) (between ++ I :: after) w1 w' (by
        intro x hx
        rcases List.mem_append.1 hx with hx | hx
        · exact hEb x hx
        · rcases List.mem_cons.1 hx with rfl | hx
          · exact fun g => hIE g.symm
          · exact hEa x hx) hrest
      rw [importBlock_vars] at hfin
      refine ⟨⟨.glob E.name (d.decl.pytypestruct E.settings.pre), ?_, rfl, ?_⟩, ?_⟩
      · rw [kE.1 []]; exact expd.1
      · simp only [addr, typeLv, if_true]
        rw [hfin _ (by simp), hblk.1, kattr, hpy]
        exact expd.1
      · intro hset hdecl
        constructor
        · intro hn hn'
          simp only [addr, if_true]
          rw [hfin _ (by simp [hn])]
          refine hblk.2.1 hn _ ?_
          rw [kattr, hset, hdecl]
          exact expd.2.1 hn'
        · intro hbs hbs' hstd
          simp only [addr, if_true]
          rw [hfin _ (by simp [hbs, hstd])]
          refine hblk.2.2 hbs hstd _ ?_
          rw [kattr, hset, hdecl]
          exact expd.2.2 hbs' (by rw [← hset]; exact hstd)

/-! ### Classes the importing module adds to the type map -/

theorem bstep_maps {ext : Str} {w w' : World} {m m' : Addr} {b : BStmt} (h : bstep ext w m b = .ok (w', m')) :
    ∀ e sym, w'.maps (.glob e sym) = w.maps (.glob e sym) := by
  intro e sym
  cases b with
  | importModule n =>
    simp only [bstep] at h
    cases hs : w.sys n with
    | none => rw [hs] at h; cases h
    | some a => rw [hs] at h; cases h; rfl
  | getType var attr => cases h; rfl
  | getMap var attr =>
    simp only [bstep] at h
    cases hs : w.attrs m attr with
    | none =>
      rw [hs] at h
      cases h
      show upd w.maps (.fresh w.next) [] (.glob e sym) = _
      exact upd_ne _ _ _ _ (by simp)
    | some a => rw [hs] at h; cases h; rfl
  | getRegistry var attr =>
    simp only [bstep] at h
    cases hs : w.attrs m attr with
    | none => rw [hs] at h; cases h; rfl
    | some a => rw [hs] at h; cases h; rfl

theorem brun_maps {ext : Str} : ∀ (bs : List BStmt) (w w' : World) (m : Addr), brun ext w m bs = .ok w' →
    ∀ e sym, w'.maps (.glob e sym) = w.maps (.glob e sym)
  | [], w, w', m, h => by cases h; exact fun _ _ => rfl
  | b :: bs, w, w', m, h => by
    unfold brun at h
    cases hb : bstep ext w m b with
    | error e => rw [hb] at h; cases h
    | ok r =>
      obtain ⟨w1, m1⟩ := r
      rw [hb] at h
      exact fun e sym => (brun_maps bs w1 w' m1 h e sym).trans (bstep_maps hb e sym)

theorem readyType_maps : ∀ (fuel : Nat) (w w' : World) (a : Addr), readyType fuel w a = .ok w' → w'.maps = w.maps
  | 0, w, w', a, h => by cases h
  | fuel + 1, w, w', a, h => by
    unfold readyType at h
    cases hr : w.ready a with
    | some l => rw [hr] at h; cases h; rfl
    | none =>
      rw [hr] at h
      simp only at h
      split at h
      · cases h
      · split at h
        · cases h; rfl
        · cases hq : readyType fuel w ((w.base a).getD .object) with
          | error e => rw [hq] at h; cases h
          | ok w1 =>
            rw [hq] at h
            simp only at h
            have := readyType_maps fuel w w1 _ hq
            split at h
            · cases h; exact this
            · cases h

/-- Nothing is ever taken out of a type map of an extension. -/
theorem step_maps {ext : Str} {fuel : Nat} {w w' : World} {st : Stmt} (h : step ext fuel w st = .ok w') :
    ∀ e sym, ∀ q ∈ w.maps (.glob e sym), q ∈ w'.maps (.glob e sym) := by
  intro e sym q hq
  cases st with
  | block b => rw [brun_maps b w w' _ h]; exact hq
  | addType path n x =>
    simp only [step] at h
    cases ha : addr w ext x with
    | none => rw [ha] at h; cases h
    | some a => rw [ha] at h; cases h; exact hq
  | addPointer path n x =>
    simp only [step] at h
    cases ha : addr w ext x with
    | none => rw [ha] at h; cases h
    | some a => rw [ha] at h; cases h; exact hq
  | setDict outer n x =>
    simp only [step] at h
    cases ho : addr w ext outer with
    | none => rw [ho] at h; cases h
    | some o =>
      cases ha : addr w ext x with
      | none => rw [ho, ha] at h; cases h
      | some a =>
        rw [ho, ha] at h
        simp only at h
        split at h
        · cases h
        · split at h
          · cases h; exact hq
          · cases h
  | register map cpp x =>
    simp only [step] at h
    cases ho : addr w ext map with
    | none => rw [ho] at h; cases h
    | some o =>
      cases ha : addr w ext x with
      | none => rw [ho, ha] at h; cases h
      | some a =>
        rw [ho, ha] at h
        cases h
        simp only [upd]
        split
        · next g => rw [g] at hq; exact List.mem_append_left _ hq
        · exact hq
  | setBase x b =>
    simp only [step] at h
    cases ha : addr w ext x with
    | none => rw [ha] at h; cases h
    | some a => rw [ha] at h; cases h; exact hq
  | setBases x bs =>
    simp only [step] at h
    cases ha : addr w ext x with
    | none => rw [ha] at h; cases h
    | some a =>
      rw [ha] at h
      simp only at h
      split at h
      · cases h; exact hq
      · cases h
  | ready x =>
    simp only [step] at h
    cases ha : addr w ext x with
    | none => rw [ha] at h; cases h
    | some a =>
      rw [ha] at h
      rw [readyType_maps _ _ _ _ h]; exact hq
  | addModule path n => cases h; exact hq

theorem run_maps {ext : Str} {fuel : Nat} : ∀ (l : List Stmt) (w w' : World), run ext fuel w l = .ok w' →
    ∀ e sym, ∀ q ∈ w.maps (.glob e sym), q ∈ w'.maps (.glob e sym)
  | [], w, w', h => by cases h; exact fun _ _ _ h => h
  | st :: l, w, w', h => by
    unfold run at h
    cases hs : step ext fuel w st with
    | error f => rw [hs] at h; cases h
    | ok w1 =>
      rw [hs] at h
      exact fun e sym q hq => run_maps l w1 w' h e sym q (step_maps hs e sym q hq)

theorem loadAll_maps : ∀ (xs : List Ext) (w w' : World), loadAll w xs = .ok w' →
    ∀ e sym, ∀ q ∈ w.maps (.glob e sym), q ∈ w'.maps (.glob e sym)
  | [], w, w', h => by cases h; exact fun _ _ _ h => h
  | x :: xs, w, w', h => by
    unfold loadAll at h
    cases hl : load w x with
    | error f => rw [hl] at h; cases h
    | ok w1 =>
      rw [hl] at h
      intro e sym q hq
      refine loadAll_maps xs w1 w' h e sym q ?_
      unfold load at hl
      cases hr : run x.name (x.stmts.length + 2) w x.stmts with
      | error f => rw [hr] at hl; cases hl
      | ok w2 =>
        rw [hr] at hl
        cases hl
        exact run_maps _ _ _ hr e sym q hq

mutual
/-- The own classes of a module and its submodules. -/
def Mod.allOwn : Mod → List Cls
  | .mk _ classes _ subs => classes.filter (!·.imported) ++ subsOwn subs
def subsOwn : List Mod → List Cls
  | [] => []
  | m :: ms => m.allOwn ++ subsOwn ms
end

mutual
theorem ownStmt_mem (s : Settings) (c : Cls) (st : Stmt) (hst : ∀ p, st ∈ ownStmts s p c) :
    ∀ (m : Mod) (path : List Str), c ∈ m.allOwn → st ∈ stmts s path m
  | .mk name classes typedefs subs, path, h => by
    simp only [Mod.allOwn, List.mem_append] at h
    simp only [stmts, List.mem_append]
    rcases h with h | h
    · exact Or.inl (Or.inl (Or.inr (List.mem_flatMap.2 ⟨c, h, hst path⟩)))
    · exact Or.inr (subOwnStmt_mem s c st hst subs path h)
theorem subOwnStmt_mem (s : Settings) (c : Cls) (st : Stmt) (hst : ∀ p, st ∈ ownStmts s p c) :
    ∀ (ms : List Mod) (path : List Str), c ∈ subsOwn ms → st ∈ subStmts s path ms
  | [], _, h => by cases h
  | m :: ms, path, h => by
    simp only [subsOwn, List.mem_append] at h
    simp only [subStmts, List.mem_append]
    rcases h with h | h
    · exact Or.inl (Or.inl (ownStmt_mem s c st hst m _ h))
    · exact Or.inr (subOwnStmt_mem s c st hst ms path h)
end

/-- A registration in a map reached through a pointer goes to the address that the pointer has in the
end: before its block has run the pointer is `NULL`. -/
theorem run_register {ext v cpp : Str} {fuel : Nat} {x : Lv} {sym : Str} (hx : x = ⟨sym, false⟩)
    {e2 sym2 : Str} (l : List Stmt) (w w' : World)
    (hnull : w.ptr ext (hidden v) = none)
    (hnd : (l.flatMap Stmt.vars).Nodup) (hm : Stmt.register ⟨v, true⟩ cpp x ∈ l)
    (hend : w'.ptr ext (hidden v) = some (.glob e2 sym2)) (h : run ext fuel w l = .ok w') :
    (cpp, .glob ext sym) ∈ w'.maps (.glob e2 sym2) := by
  obtain ⟨pre, post, rfl⟩ := List.mem_iff_append.1 hm
  obtain ⟨w1, h1, h2⟩ := run_append pre _ w w' h
  unfold run at h2
  rw [List.flatMap_append, List.nodup_append] at hnd
  by_cases hp : hidden v ∈ pre.flatMap Stmt.vars
  · have hpost : hidden v ∉ post.flatMap Stmt.vars := by
      intro hc
      refine hnd.2.2 _ hp _ ?_ rfl
      rw [List.flatMap_cons]
      exact List.mem_append_right _ hc
    cases hs : step ext fuel w1 (.register ⟨v, true⟩ cpp x) with
    | error f => rw [hs] at h2; cases h2
    | ok w2 =>
      rw [hs] at h2
      have hkeep := run_ptr post w2 w' hpost h2
      have hk2 : w2.ptr ext (hidden v) = w1.ptr ext (hidden v) :=
        step_ptr (st := .register ⟨v, true⟩ cpp x) (by simp [Stmt.vars]) hs
      have hv1 : w1.ptr ext (hidden v) = some (.glob e2 sym2) := by rw [← hk2, ← hkeep]; exact hend
      subst hx
      simp only [step, addr, if_true, hv1] at hs
      cases hs
      refine run_maps post _ w' h2 e2 sym2 _ ?_
      simp [upd]
  · have hv1 : w1.ptr ext (hidden v) = none := by rw [run_ptr pre w w1 hp h1]; exact hnull
    simp only [step, addr, if_true, hv1] at h2
    cases h2

/-- **C104 (partial)**: a class of `I` (in any submodule) whose narrowing root `I` imports from `E`
is entered in `E`'s type map, so that wrappers `E` makes for objects of that class get `I`'s type. -/
theorem C104_narrowing_partial (before between after : List Ext) (E I : Ext) (w w' : World)
    (hload : loadAll w (before ++ E :: (between ++ I :: after)) = .ok w')
    (hnames : ((before ++ E :: (between ++ I :: after)).map Ext.name).Nodup)
    (hfresh : ∀ v, w.ptr I.name v = none)
    (hexp : E.attributes.Nodup)
    (hsyms : (I.root.allImported.map (fun c => c.decl.pystruct I.settings.pre)).Nodup)
    (hset : I.settings = E.settings)
    (c d k : Cls) (hc : c ∈ I.root.allImported) (hsrc : moduleName c.source = E.name)
    (hd : E.defines d) (hpy : c.pythonName = d.pythonName) (hdecl : c.decl = d.decl)
    (hcn : c.narrow = .self) (hdn : d.narrow = .self)
    (hk : k ∈ I.root.allOwn) (hkn : k.narrow = .ancestor ⟨c.decl, true⟩) :
    (k.decl.fullName, .glob I.name (k.decl.pytypestruct I.settings.pre)) ∈
      w'.maps (.glob E.name (typeMapName E.settings d.decl)) := by
  have hshared := ((C104_shared_partial before between after E I w w' hload hnames hexp hsyms c d hc hsrc hd
    hpy).2 hset hdecl).1 hcn hdn
  simp only [addr, if_true] at hshared
  have hsplit : before ++ E :: (between ++ I :: after) = (before ++ E :: between) ++ (I :: after) := by simp
  rw [hsplit] at hload hnames
  obtain ⟨w2, h2, h3⟩ := loadAll_append _ _ _ _ hload
  rw [List.map_append, List.nodup_append, List.map_cons, List.nodup_cons] at hnames
  obtain ⟨_, ⟨hIa, _⟩, hbI⟩ := hnames
  have k2 := loadAll_keeps (e := I.name) _ w w2 (fun x hx => hbI _ (List.mem_map.2 ⟨x, hx, rfl⟩) _ (by simp)) h2
  unfold loadAll at h3
  cases hI : load w2 I with
  | error f => rw [hI] at h3; cases h3
  | ok w3 =>
    rw [hI] at h3
    simp only at h3
    have k3 := loadAll_keeps (e := I.name) _ w3 w' (fun x hx g => hIa (List.mem_map.2 ⟨x, hx, g⟩)) h3
    refine loadAll_maps after w3 w' h3 _ _ _ ?_
    unfold load at hI
    cases hr : run I.name (I.stmts.length + 2) w2 I.stmts with
    | error f => rw [hr] at hI; cases hI
    | ok w4 =>
      rw [hr] at hI
      cases hI
      refine run_register (v := typeMapName I.settings c.decl) (cpp := k.decl.fullName)
        (x := typeLv I.settings ⟨k.decl, false⟩) rfl I.stmts w2 w4 ?_ ?_ ?_ ?_ hr
      · rw [k2.2.1]; exact hfresh _
      · unfold Ext.stmts
        rw [stmts_vars]
        exact vars_nodup _ _ hsyms
      · refine ownStmt_mem I.settings k _ ?_ I.root [] hk
        intro p
        simp only [ownStmts, List.mem_append, registerStmts, hkn]
        simp
      · rw [← hshared, k3.2.1]

/-! ### Examples and counterexamples -/

def cls (n : String) : ClassDecl := .top [] [] n.toList []

/-- `Base`, a narrowing root. -/
def exBase : Ext := { root := .mk "base".toList [{ decl := cls "Base", narrow := .self }] [] [] }

/-- Another module: imports `Base` in its root module, and has a class `Derived` of it in a
submodule. -/
def exUser : Ext :=
  { root := .mk "user".toList
      [{ decl := cls "Base", source := "base".toList, narrow := .self }] []
      [.mk "sub".toList [{ decl := cls "Derived", bases := [⟨cls "Base", true⟩],
                           narrow := .ancestor ⟨cls "Base", true⟩ }] [] []] }

def flat (n : String) (classes : List Cls) (s : Settings := {}) : Ext :=
  ⟨s, .mk n.toList classes [] []⟩

/-- The pointer, the bases of a type and the contents of a map after loading. -/
def ptrAfter (xs : List Ext) (ext var : String) : Option (Option Addr) :=
  (loadAll World.start xs).toOption.map (fun w => w.ptr ext.toList var.toList)
def basesAfter (xs : List Ext) (ext sym : String) : Option (Option (List Addr)) :=
  (loadAll World.start xs).toOption.map (fun w => w.ready (.glob ext.toList sym.toList))
def mapAfter (xs : List Ext) (ext sym : String) : Option (List (Str × Addr)) :=
  (loadAll World.start xs).toOption.map (fun w => w.maps (.glob ext.toList sym.toList))

example : (loadAll World.start [exBase, exUser]).toOption.isSome = true ∧
    exBase.attributes.Nodup ∧
    (exUser.root.allImported.map (fun c => c.decl.pystruct exUser.settings.pre)).Nodup ∧
    ptrAfter [exBase, exUser] "user" "_PyBase_Type" = some (some (.glob "base".toList "PyBase_Type".toList)) ∧
    basesAfter [exBase, exUser] "user" "PyDerived_Type" =
      some (some [.glob "base".toList "PyBase_Type".toList]) ∧
    mapAfter [exBase, exUser] "base" "PyBase__typeid_map" =
      some [("Base".toList, .glob "base".toList "PyBase_Type".toList),
            ("Derived".toList, .glob "user".toList "PyDerived_Type".toList)] := by
  decide +kernel

example : exBase.defines { decl := cls "Base", narrow := .self } :=
  ⟨by simp [exBase, Mod.classes], rfl, rfl⟩

/-- **C104**: the name under which a class is exported and looked for is the custom name, or else, for a class without
template arguments, the C++ name as it is. -/
theorem C104_names (c : Cls) :
    (∀ n, c.customName = some n → c.pythonName = n) ∧
    (c.customName = none → c.decl.targs = [] → c.pythonName = c.decl.name) := by
  unfold Cls.pythonName
  constructor
  · intro n h
    rw [h]
    split <;> rfl
  · intro h ht
    rw [h, if_neg (fun hn => hn ht)]

/-- **C104 (counterexample)**: a class the other module does not have.  The import goes through, and the
type pointer is `NULL`. -/
theorem C104_missing_counterexample :
    ptrAfter [exBase, flat "user" [{ decl := cls "Other", source := "base".toList }]] "user" "_PyOther_Type" = some none := by
  decide +kernel

/-- **C104 (counterexample)**: the name after ` named ` is ignored.  Module `base` shows `Base`; importing
C++ class `Root` from `"base named Base"` looks for `Root`. -/
theorem C104_named_counterexample :
    importBlock {} { decl := cls "Root", source := "base named Base".toList } =
      [.importModule "base".toList, .getType "_PyRoot_Type".toList "Root".toList] ∧
    ptrAfter [exBase, flat "user" [{ decl := cls "Root", source := "base named Base".toList }]] "user" "_PyRoot_Type" =
      some none := by
  decide +kernel

/-- **C104 (counterexample)**: a class defined inside another one is an attribute of that class, but is
looked for in the module. -/
theorem C104_nested_counterexample :
    let outer := cls "Outer"
    let inner : ClassDecl := .nested outer "Inner".toList []
    let E : Ext := flat "base" [{ decl := outer }, { decl := inner }]
    let I : Ext := flat "user" [{ decl := outer, source := "base".toList },
      { decl := inner, source := "base".toList, outerImported := true }]
    ptrAfter [E, I] "user" "_PyOuter_Type" = some (some (.glob "base".toList "PyOuter_Type".toList)) ∧
    ptrAfter [E, I] "user" "_PyOuterInner_Type" = some none := by
  decide +kernel

/-- **C104 (counterexample)**: when the two modules are generated with different `name_prefix` settings,
the registry of the other module is not found (`NULL`), and the importing module has a type map of its
own. -/
theorem C104_prefix_counterexample :
    let E : Ext := flat "base" [{ decl := cls "Base" },
      { decl := cls "Nar", bases := [⟨cls "Base", false⟩], narrow := .self }] ⟨"Foo".toList, true⟩
    let I : Ext := flat "user" [{ decl := cls "Base", source := "base".toList },
      { decl := cls "Nar", source := "base".toList, bases := [⟨cls "Base", true⟩], narrow := .self }]
      ⟨"Bar".toList, true⟩
    ptrAfter [E, I] "user" "_PyBarBase_Type" = some (some (.glob "base".toList "PyFooBase_Type".toList)) ∧
    ptrAfter [E, I] "user" "_PyBarBase_wrapper_registry" = some none ∧
    ptrAfter [E, I] "user" "_PyBarNar__typeid_map" = some (some (.fresh 0)) := by
  decide +kernel

/-- **C104 (counterexample)**: a class of a submodule cannot be imported (Python 3). -/
theorem C104_submodule_counterexample :
    loadAll World.start
      [{ root := .mk "base".toList [] [] [.mk "sub".toList [{ decl := cls "Base" }] [] []] },
       flat "user" [{ decl := cls "Base", source := "base.sub".toList }]]
      = .error .exception := by
  rfl

/-- **C104 (counterexample)**: the generated code of a module that imports a class which is a narrowing
root without bases does not compile when wrapper registries are in use: `_cobj` is declared twice in
one block. -/
theorem C104_compile_counterexample :
    ¬ Compiles (flat "user" [{ decl := cls "Base", source := "base".toList, narrow := .self }] ⟨[], true⟩).stmts := by
  intro h
  exact absurd (h _ (List.mem_cons_self ..)) (by decide +kernel)

/-- **C104 (partial)**: and that is the only case. -/
theorem C104_compiles_partial (x : Ext) (h : ∀ c ∈ x.root.allImported,
    ¬ (c.narrow = .self ∧ c.bases = [] ∧ x.settings.stdMap = true)) : Compiles x.stmts := by
  intro b hb
  have key : ∀ c : Cls, ¬ (c.narrow = .self ∧ c.bases = [] ∧ x.settings.stdMap = true) →
      ((importBlock x.settings c).flatMap BStmt.locals).Nodup := by
    intro c hc
    unfold importBlock
    by_cases h1 : c.narrow = .self
    · have h2 : ¬ (c.bases = [] ∧ x.settings.stdMap = true) := fun g => hc ⟨h1, g⟩
      rw [if_pos h1, if_neg h2]
      simp only [List.flatMap_append, List.flatMap_cons, List.flatMap_nil, BStmt.locals]
      decide
    · rw [if_neg h1]
      split
      · simp only [List.flatMap_append, List.flatMap_cons, List.flatMap_nil, BStmt.locals]
        decide
      · simp only [List.flatMap_append, List.flatMap_cons, List.flatMap_nil, BStmt.locals]
        decide
  obtain ⟨c, hc, rfl⟩ := stmts_blocks x.settings b x.root [] hb
  exact key c (h c hc)

end Verif.Imports
