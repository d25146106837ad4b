import Verif.Imports.Shared

/-!
# C105: type objects get the bases that were declared
-/
namespace Verif.Imports
open Verif Verif.Names

/-! ## Specification -/

/-- What happens during the initialisation of an extension, in this order. -/
inductive Event where
  | imp (c : Cls)
  | own (path : List Str) (c : Cls)
  | typedef (path : List Str) (r : Ref) (name : Str)
  | sub (path : List Str) (name : Str)

mutual
def Mod.events (path : List Str) : Mod → List Event
  | .mk _ classes typedefs subs =>
    (classes.filter (·.imported)).map .imp
    ++ (classes.filter (!·.imported)).map (.own path)
    ++ typedefs.map (fun t => .typedef path t.1 t.2)
    ++ subsEvents path subs
def subsEvents (path : List Str) : List Mod → List Event
  | [] => []
  | m :: ms => m.events (path ++ [m.name]) ++ [.sub path m.name] ++ subsEvents path ms
end

/-- Every class a class or typedef needs is there before it: its bases, the class around it, the imported
narrowing root, the imported class a typedef stands for. -/
def Ordered (seen : List Ref) : List Event → Prop
  | [] => True
  | .imp c :: l => Ordered (⟨c.decl, true⟩ :: seen) l
  | .own _ c :: l =>
    (∀ r ∈ c.bases, r ∈ seen) ∧
    (∀ outer n t, c.decl = .nested outer n t → ⟨outer, c.outerImported⟩ ∈ seen) ∧
    (∀ r, c.narrow = .ancestor r → r ∈ seen) ∧
    Ordered (⟨c.decl, false⟩ :: seen) l
  | .typedef _ r _ :: l => r ∈ seen ∧ Ordered seen l
  | .sub _ _ :: l => Ordered seen l

/-- The class `c` can be imported in state `w`: its module is found (and is not the one being
initialised), and has a type that is ready under the class's name. -/
def Available (w : World) (s : Settings) (ext : Str) (c : Cls) (a : Addr) : Prop :=
  ∃ e p, e ≠ ext ∧ w.sys (moduleName c.source) = some (.module e p) ∧
    w.attrs (.module e p) c.pythonName = some a ∧ isType a = true ∧ (w.ready a).isSome = true ∧
    (∀ b, w.attrs (.module e p) (hidden (typeMapName s c.decl)) = some b → (asVoidPtr b).isSome = true)

/-- The type object a reference stands for. -/
def Ref.target (s : Settings) (ext : Str) (found : ClassDecl → Addr) (r : Ref) : Addr :=
  if r.imported = true then found r.decl else .glob ext (r.decl.pytypestruct s.pre)

/-- The `__bases__` a class should have in Python. -/
def Cls.pyBases (s : Settings) (ext : Str) (found : ClassDecl → Addr) (c : Cls) : List Addr :=
  if c.bases = [] then [.object] else c.bases.map (Ref.target s ext found)

/-- Nothing of the extension has been initialised, and `object` is ready. -/
def Fresh (w : World) (ext : Str) : Prop :=
  (∀ sym, w.ready (.glob ext sym) = none ∧ w.base (.glob ext sym) = none ∧ w.bases (.glob ext sym) = none) ∧
  (w.ready .object).isSome = true

/-! ## Statements by events -/

def Event.stmts (s : Settings) : Event → List Stmt
  | .imp c => [.block (importBlock s c)]
  | .own path c => ownStmts s path c
  | .typedef path r n => [.addType path n (typeLv s r)]
  | .sub path n => [.addModule path n]

mutual
theorem stmts_events (s : Settings) : ∀ (m : Mod) (path : List Str),
    Imports.stmts s path m = (m.events path).flatMap (Event.stmts s)
  | .mk name classes typedefs subs, path => by
    simp only [Imports.stmts, Mod.events, List.flatMap_append, List.flatMap_map]
    rw [subStmts_events s subs path]
    congr 1
    congr 1
    · congr 1
      simp only [Event.stmts]
      generalize classes.filter (·.imported) = l
      induction l with
      | nil => rfl
      | cons a l ih => simp [ih]
    · simp only [Event.stmts]
      induction typedefs with
      | nil => rfl
      | cons a l ih => simp [ih]
theorem subStmts_events (s : Settings) : ∀ (ms : List Mod) (path : List Str),
    subStmts s path ms = (subsEvents path ms).flatMap (Event.stmts s)
  | [], _ => rfl
  | m :: ms, path => by
    simp only [subStmts, subsEvents, List.flatMap_append]
    rw [stmts_events s m (path ++ [m.name]), subStmts_events s ms path]
    simp [Event.stmts]
end

/-! ## Running -/

theorem run_app_ok {ext : Str} {fuel : Nat} : ∀ (l₁ l₂ : List Stmt) (w w1 : World),
    run ext fuel w l₁ = .ok w1 → run ext fuel w (l₁ ++ l₂) = run ext fuel w1 l₂
  | [], l₂, w, w1, h => by cases h; rfl
  | st :: l, l₂, w, w1, h => by
    rw [List.cons_append]
    unfold run at h
    conv => lhs; unfold run
    cases hs : step ext fuel w st with
    | error f => rw [hs] at h; cases h
    | ok w2 =>
      rw [hs] at h
      exact run_app_ok l l₂ w2 w1 h

theorem run_one {ext : Str} {fuel : Nat} {w w1 : World} {st : Stmt} (h : step ext fuel w st = .ok w1) :
    run ext fuel w [st] = .ok w1 := by
  unfold run
  rw [h]
  rfl

/-- The state agrees in what concerns type objects and pointers; attributes of modules of other
extensions stay. -/
structure Frame (ext : Str) (w w' : World) : Prop where
  ptr : w'.ptr = w.ptr
  sys : w'.sys = w.sys
  ready : w'.ready = w.ready
  base : w'.base = w.base
  bases : w'.bases = w.bases
  attrs : ∀ e p, e ≠ ext → w'.attrs (.module e p) = w.attrs (.module e p)

theorem Frame.refl (ext : Str) (w : World) : Frame ext w w := ⟨rfl, rfl, rfl, rfl, rfl, fun _ _ _ => rfl⟩

theorem Frame.trans {ext : Str} {a b c : World} (h : Frame ext a b) (g : Frame ext b c) : Frame ext a c :=
  ⟨g.ptr.trans h.ptr, g.sys.trans h.sys, g.ready.trans h.ready, g.base.trans h.base, g.bases.trans h.bases,
   fun e p he => (g.attrs e p he).trans (h.attrs e p he)⟩

theorem frame_module (ext : Str) (w : World) (path : List Str) (n : Str) (v : Addr) :
    Frame ext w (setAttr w (.module ext path) n v) :=
  ⟨rfl, rfl, rfl, rfl, rfl, fun e p he => upd_ne _ _ _ _ (by intro g; cases g; exact he rfl)⟩

theorem frame_type (ext : Str) (w : World) (o : Addr) (n : Str) (v : Addr) (ht : isType o = true) :
    Frame ext w (setAttr w o n v) :=
  ⟨rfl, rfl, rfl, rfl, rfl, fun e p _ => upd_ne _ _ _ _ (by intro g; subst g; cases ht)⟩

/-- The invariant: `done` events have happened, `rest` are to come. -/
structure Inv (s : Settings) (ext : Str) (found : ClassDecl → Addr) (imps : List Cls)
    (done rest : List Event) (w : World) : Prop where
  types : ∀ c, .imp c ∈ done → w.ptr ext (hidden (c.decl.pytypestruct s.pre)) = some (found c.decl)
  maps : ∀ c, .imp c ∈ done → c.narrow = .self →
    (w.ptr ext (hidden (typeMapName s c.decl))).isSome = true
  ready : ∀ p c, .own p c ∈ done →
    w.ready (.glob ext (c.decl.pytypestruct s.pre)) = some (c.pyBases s ext found)
  fresh : ∀ p c, .own p c ∈ rest → w.ready (.glob ext (c.decl.pytypestruct s.pre)) = none ∧
    w.base (.glob ext (c.decl.pytypestruct s.pre)) = none ∧
    w.bases (.glob ext (c.decl.pytypestruct s.pre)) = none
  avail : ∀ c ∈ imps, Available w s ext c (found c.decl)
  object : (w.ready .object).isSome = true

theorem Available.frame {s : Settings} {ext : Str} {w w' : World} {c : Cls} {a : Addr}
    (h : Available w s ext c a) (hs : w'.sys = w.sys)
    (ha : ∀ e p, e ≠ ext → w'.attrs (.module e p) = w.attrs (.module e p))
    (hr : ∀ b, (w.ready b).isSome = true → (w'.ready b).isSome = true) : Available w' s ext c a := by
  obtain ⟨e, p, h1, h2, h3, h4, h5, h6⟩ := h
  refine ⟨e, p, h1, by rw [hs]; exact h2, by rw [ha e p h1]; exact h3, h4, hr _ h5, ?_⟩
  rw [ha e p h1]
  exact h6

/-- Moving an event that only has to do with attributes from `rest` to `done`. -/
theorem Inv.frame {s : Settings} {ext : Str} {found : ClassDecl → Addr} {imps : List Cls}
    {done rest : List Event} {w w' : World} {ev : Event} (hi : Inv s ext found imps done (ev :: rest) w)
    (hev : (∀ c, ev ≠ .imp c) ∧ ∀ p c, ev ≠ .own p c) (hf : Frame ext w w') :
    Inv s ext found imps (done ++ [ev]) rest w' := by
  have mem : ∀ e, e ∈ done ++ [ev] → e ≠ ev → e ∈ done := by
    intro e he hne
    rcases List.mem_append.1 he with h | h
    · exact h
    · exact absurd (List.mem_singleton.1 h) hne
  refine ⟨?_, ?_, ?_, ?_, ?_, ?_⟩
  · intro c hc
    rw [hf.ptr]
    exact hi.types c (mem _ hc (fun g => hev.1 c g.symm))
  · intro c hc hn
    rw [hf.ptr]
    exact hi.maps c (mem _ hc (fun g => hev.1 c g.symm)) hn
  · intro p c hc
    rw [hf.ready]
    exact hi.ready p c (mem _ hc (fun g => hev.2 p c g.symm))
  · intro p c hc
    rw [hf.ready, hf.base, hf.bases]
    exact hi.fresh p c (List.mem_cons_of_mem _ hc)
  · intro c hc
    exact (hi.avail c hc).frame hf.sys hf.attrs (fun b hb => by rw [hf.ready]; exact hb)
  · rw [hf.ready]; exact hi.object

/-! ### An import -/

theorem brun_ok {ext : Str} {s : Settings} {w : World} {c : Cls} {a : Addr} (h : Available w s ext c a) :
    ∃ w', brun ext w .object (importBlock s c) = .ok w' ∧
      w'.ptr ext (hidden (c.decl.pytypestruct s.pre)) = some a ∧
      (c.narrow = .self → (w'.ptr ext (hidden (typeMapName s c.decl))).isSome = true) ∧
      (∀ v, v ∉ (importBlock s c).flatMap BStmt.vars → w'.ptr ext v = w.ptr ext v) ∧
      w'.sys = w.sys ∧ w'.attrs = w.attrs ∧ w'.ready = w.ready ∧ w'.base = w.base ∧ w'.bases = w.bases := by
  obtain ⟨e, p, _, hsys, hattr, _, _, hcap⟩ := h
  have n1 : hidden (c.decl.pytypestruct s.pre) ≠ hidden (typeMapName s c.decl) := type_ne_map _ _
  have n2 : hidden (c.decl.pytypestruct s.pre) ≠ hidden (registryName s c.decl) := type_ne_reg _ _
  have n3 : hidden (typeMapName s c.decl) ≠ hidden (registryName s c.decl) := map_ne_reg _ _
  have reg : ∀ w1 : World, ∃ w2, brun ext w1 (.module e p)
      (if c.bases = [] ∧ s.stdMap = true then
        [.getRegistry (hidden (registryName s c.decl)) (hidden (registryName s c.decl))] else []) = .ok w2 ∧
      (∀ v, v ≠ hidden (registryName s c.decl) → w2.ptr ext v = w1.ptr ext v) ∧
      w2.sys = w1.sys ∧ w2.attrs = w1.attrs ∧ w2.ready = w1.ready ∧ w2.base = w1.base ∧
      w2.bases = w1.bases := by
    intro w1
    split
    · unfold brun
      simp only [bstep]
      cases w1.attrs (.module e p) (hidden (registryName s c.decl)) with
      | none =>
        refine ⟨setPtr w1 ext (hidden (registryName s c.decl)) none, rfl, ?_, rfl, rfl, rfl, rfl, rfl⟩
        intro v hv
        simp only [setPtr, upd_same]
        exact upd_ne _ _ _ _ hv
      | some q =>
        refine ⟨setPtr w1 ext (hidden (registryName s c.decl)) (asVoidPtr q), rfl, ?_, rfl, rfl, rfl, rfl, rfl⟩
        intro v hv
        simp only [setPtr, upd_same]
        exact upd_ne _ _ _ _ hv
    · exact ⟨w1, rfl, fun _ _ => rfl, rfl, rfl, rfl, rfl, rfl⟩
  have map : ∀ w1 : World, w1.attrs = w.attrs → ∃ w2, (∀ l, brun ext w1 (.module e p)
      ((if c.narrow = .self then
        [.getMap (hidden (typeMapName s c.decl)) (hidden (typeMapName s c.decl))] else []) ++ l) =
        brun ext w2 (.module e p) l) ∧
      (c.narrow = .self → (w2.ptr ext (hidden (typeMapName s c.decl))).isSome = true) ∧
      (∀ v, v ≠ hidden (typeMapName s c.decl) → w2.ptr ext v = w1.ptr ext v) ∧
      w2.sys = w1.sys ∧ w2.attrs = w1.attrs ∧ w2.ready = w1.ready ∧ w2.base = w1.base ∧
      w2.bases = w1.bases := by
    intro w1 hw1
    by_cases hn : c.narrow = .self
    · rw [if_pos hn]
      cases hq : w.attrs (.module e p) (hidden (typeMapName s c.decl)) with
      | none =>
        refine ⟨{ setPtr w1 ext (hidden (typeMapName s c.decl)) (some (.fresh w1.next)) with
            maps := upd w1.maps (.fresh w1.next) [], next := w1.next + 1 }, ?_, ?_, ?_, rfl, rfl, rfl, rfl, rfl⟩
        · intro l
          rw [List.cons_append, List.nil_append]
          conv => lhs; unfold brun
          simp only [bstep, hw1, hq]
        · intro _
          simp [setPtr, upd_same]
        · intro v hv
          simp only [setPtr, upd_same]
          exact upd_ne _ _ _ _ hv
      | some q =>
        refine ⟨setPtr w1 ext (hidden (typeMapName s c.decl)) (asVoidPtr q), ?_, ?_, ?_, rfl, rfl, rfl, rfl, rfl⟩
        · intro l
          rw [List.cons_append, List.nil_append]
          conv => lhs; unfold brun
          simp only [bstep, hw1, hq]
        · intro _
          simp only [setPtr, upd_same]
          exact hcap q hq
        · intro v hv
          simp only [setPtr, upd_same]
          exact upd_ne _ _ _ _ hv
    · rw [if_neg hn]
      exact ⟨w1, fun _ => rfl, fun g => absurd g hn, fun _ _ => rfl, rfl, rfl, rfl, rfl, rfl⟩
  obtain ⟨w2, m1, m2, m3, m4, m5, m6, m7, m8⟩ :=
    map (setPtr w ext (hidden (c.decl.pytypestruct s.pre)) (w.attrs (.module e p) c.pythonName)) rfl
  obtain ⟨w3, r1, r2, r3, r4, r5, r6, r7⟩ := reg w2
  refine ⟨w3, ?_, ?_, ?_, ?_, r3.trans m4, r4.trans m5, r5.trans m6, r6.trans m7, r7.trans m8⟩
  · simp only [importBlock, List.cons_append, List.nil_append]
    unfold brun
    simp only [bstep, hsys]
    unfold brun
    simp only [bstep]
    rw [m1]
    exact r1
  · rw [r2 _ n2, m3 _ n1]
    simp only [setPtr, upd_same]
    exact hattr
  · intro hn
    rw [r2 _ n3]
    exact m2 hn
  · intro v hv
    rw [importBlock_vars] at hv
    simp only [List.mem_append, List.mem_singleton, not_or] at hv
    have h1 : w3.ptr ext v = w2.ptr ext v := by
      by_cases hb : c.bases = [] ∧ s.stdMap = true
      · rw [if_pos hb, List.mem_singleton] at hv
        exact r2 v hv.2
      · rw [if_neg hb] at r1
        cases r1
        rfl
    have h2 : w2.ptr ext v =
        (setPtr w ext (hidden (c.decl.pytypestruct s.pre)) (w.attrs (.module e p) c.pythonName)).ptr ext v := by
      by_cases hb : c.narrow = .self
      · rw [if_pos hb, List.mem_singleton] at hv
        exact m3 v hv.1.2
      · have := m1 []
        rw [if_neg hb] at this
        cases this
        rfl
    rw [h1, h2]
    simp only [setPtr, upd_same]
    exact upd_ne _ _ _ _ hv.1.1

/-! ### A class of the extension -/

/-- What the invariant says about a class that has been seen. -/
def Seen (s : Settings) (ext : Str) (found : ClassDecl → Addr) (w : World) (r : Ref) : Prop :=
  addr w ext (typeLv s r) = some (r.target s ext found) ∧ isType (r.target s ext found) = true ∧
  (w.ready (r.target s ext found)).isSome = true

theorem Seen.frame {s : Settings} {ext : Str} {found : ClassDecl → Addr} {w w' : World} {r : Ref}
    (h : Seen s ext found w r) (hp : w'.ptr = w.ptr) (hr : w'.ready = w.ready) : Seen s ext found w' r := by
  obtain ⟨h1, h2, h3⟩ := h
  refine ⟨?_, h2, by rw [hr]; exact h3⟩
  unfold addr at h1 ⊢
  rw [hp]
  exact h1

/-- The state of a type object that only has its fields set. -/
structure Own (ext : Str) (me : Addr) (w w' : World) : Prop where
  ptr : w'.ptr = w.ptr
  sys : w'.sys = w.sys
  ready : ∀ a, a ≠ me → w'.ready a = w.ready a
  base : ∀ a, a ≠ me → w'.base a = w.base a
  bases : ∀ a, a ≠ me → w'.bases a = w.bases a
  attrs : ∀ e p, e ≠ ext → w'.attrs (.module e p) = w.attrs (.module e p)

theorem ready_ok {fuel : Nat} {w : World} {me : Addr} {bs : List Addr} (hn : w.ready me = none)
    (ht : isType me = true) (hne : me ≠ .object)
    (hb : (w.ready ((w.base me).getD .object)).isSome = true)
    (hbs : (w.bases me).getD [(w.base me).getD .object] = bs) (hall : ∀ b ∈ bs, (w.ready b).isSome = true) :
    readyType (fuel + 2) w me = .ok { w with ready := upd w.ready me (some bs) } := by
  unfold readyType
  rw [hn]
  simp only [ht, Bool.true_eq_false, if_false, if_neg hne, hbs]
  have h1 : readyType (fuel + 1) w ((w.base me).getD .object) = .ok w := by
    unfold readyType
    cases hq : w.ready ((w.base me).getD .object) with
    | none => rw [hq] at hb; cases hb
    | some l => rfl
  rw [h1]
  simp only
  rw [if_pos]
  simpa [List.all_eq_true] using hall

theorem base_run {ext : Str} {fuel : Nat} {s : Settings} {found : ClassDecl → Addr} {c : Cls} {w : World}
    (hobj : (w.ready .object).isSome = true)
    (hfresh : w.ready (.glob ext (c.decl.pytypestruct s.pre)) = none ∧
      w.base (.glob ext (c.decl.pytypestruct s.pre)) = none ∧
      w.bases (.glob ext (c.decl.pytypestruct s.pre)) = none)
    (hseen : ∀ r ∈ c.bases, Seen s ext found w r) :
    ∃ w', run ext (fuel + 2) w (baseStmts s c ++ [.ready (typeLv s ⟨c.decl, false⟩)]) = .ok w' ∧
      w'.ready (.glob ext (c.decl.pytypestruct s.pre)) = some (c.pyBases s ext found) ∧
      Own ext (.glob ext (c.decl.pytypestruct s.pre)) w w' := by
  generalize hme : Addr.glob ext (c.decl.pytypestruct s.pre) = me at *
  have hadr : ∀ w : World, addr w ext (typeLv s ⟨c.decl, false⟩) = some me := by
    intro w
    rw [← hme]
    rfl
  have hty : isType me = true := by rw [← hme]; rfl
  have hno : me ≠ .object := by rw [← hme]; simp
  unfold baseStmts Cls.pyBases
  rcases hb : c.bases with _ | ⟨b, _ | ⟨b2, bs⟩⟩
  · refine ⟨{ w with ready := upd w.ready me (some [.object]) }, ?_, upd_same _ _ _, ?_⟩
    · simp only [List.nil_append]
      refine run_one ?_
      simp only [step, hadr]
      exact ready_ok hfresh.1 hty hno (by rw [hfresh.2.1]; exact hobj) (by rw [hfresh.2.1, hfresh.2.2]; rfl)
        (by simp; exact hobj)
    · exact ⟨rfl, rfl, fun a ha => upd_ne _ _ _ _ ha, fun _ _ => rfl, fun _ _ => rfl, fun _ _ _ => rfl⟩
  · have h1 := hseen b (by rw [hb]; simp)
    refine ⟨{ w with base := upd w.base me (some (b.target s ext found)),
                     ready := upd w.ready me (some [b.target s ext found]) }, ?_, upd_same _ _ _, ?_⟩
    · rw [run_app_ok _ _ w { w with base := upd w.base me (some (b.target s ext found)) }
        (run_one (by simp only [step, hadr, h1.1]))]
      refine run_one ?_
      simp only [step, hadr]
      exact ready_ok hfresh.1 hty hno (by simp only [upd_same]; exact h1.2.2)
        (by simp only [upd_same, hfresh.2.2]; rfl) (by simp; exact h1.2.2)
    · exact ⟨rfl, rfl, fun a ha => upd_ne _ _ _ _ ha, fun a ha => upd_ne _ _ _ _ ha, fun _ _ => rfl,
        fun _ _ _ => rfl⟩
  · have h1 := hseen b (by rw [hb]; simp)
    have hall : ∀ r ∈ b :: b2 :: bs, Seen s ext found w r := by rw [← hb]; exact hseen
    have hmap : ∀ (l : List Ref), (∀ r ∈ l, Seen s ext found w r) → ∀ w1 : World, w1.ptr = w.ptr →
        (l.map (typeLv s)).filterMap (addr w1 ext) = l.map (Ref.target s ext found) ∧
        (l.map (typeLv s)).all (fun b => (addr w1 ext b).isSome) = true := by
      intro l hl w1 hw1
      induction l with
      | nil => exact ⟨rfl, rfl⟩
      | cons r l ih =>
        have hr : addr w1 ext (typeLv s r) = some (r.target s ext found) := by
          have := (hl r (by simp)).1
          unfold addr at this ⊢
          rw [hw1]
          exact this
        obtain ⟨i1, i2⟩ := ih (fun q hq => hl q (by simp [hq]))
        constructor
        · rw [List.map_cons, List.filterMap_cons, hr, i1]
          rfl
        · rw [List.map_cons, List.all_cons, hr, i2]
          rfl
    refine ⟨{ w with
                base := upd w.base me (some (b.target s ext found)),
                bases := upd w.bases me (some ((b :: b2 :: bs).map (Ref.target s ext found))),
                ready := upd w.ready me (some ((b :: b2 :: bs).map (Ref.target s ext found))) },
      ?_, upd_same _ _ _, ?_⟩
    · have s1 : step ext (fuel + 2) w (.setBase (typeLv s ⟨c.decl, false⟩) (typeLv s b)) =
          .ok { w with base := upd w.base me (some (b.target s ext found)) } := by
        simp only [step, hadr, h1.1]
      have s2 : step ext (fuel + 2) { w with base := upd w.base me (some (b.target s ext found)) }
          (.setBases (typeLv s ⟨c.decl, false⟩) ((b :: b2 :: bs).map (typeLv s))) =
          .ok { w with
                base := upd w.base me (some (b.target s ext found)),
                bases := upd w.bases me (some ((b :: b2 :: bs).map (Ref.target s ext found))) } := by
        have := hmap (b :: b2 :: bs) hall { w with base := upd w.base me (some (b.target s ext found)) } rfl
        simp only [step, hadr]
        rw [if_pos this.2, this.1]
      have r12 := run_app_ok [.setBase (typeLv s ⟨c.decl, false⟩) (typeLv s b)]
        [.setBases (typeLv s ⟨c.decl, false⟩) ((b :: b2 :: bs).map (typeLv s))] w _ (run_one s1)
      rw [run_one s2] at r12
      refine (run_app_ok _ _ w _ r12).trans (run_one ?_)
      simp only [step, hadr]
      refine ready_ok hfresh.1 hty hno (by simp only [upd_same]; exact h1.2.2)
        (by simp only [upd_same]; rfl) ?_
      intro q hq
      obtain ⟨r, hr, rfl⟩ := List.mem_map.1 hq
      exact (hall r hr).2.2
    · exact ⟨rfl, rfl, fun a ha => upd_ne _ _ _ _ ha, fun a ha => upd_ne _ _ _ _ ha,
        fun a ha => upd_ne _ _ _ _ ha, fun _ _ _ => rfl⟩

/-- All statements of an own class. -/
theorem own_run {ext : Str} {fuel : Nat} {s : Settings} {found : ClassDecl → Addr} {c : Cls} {w : World}
    {path : List Str} (hobj : (w.ready .object).isSome = true)
    (hfresh : w.ready (.glob ext (c.decl.pytypestruct s.pre)) = none ∧
      w.base (.glob ext (c.decl.pytypestruct s.pre)) = none ∧
      w.bases (.glob ext (c.decl.pytypestruct s.pre)) = none)
    (hseen : ∀ r ∈ c.bases, Seen s ext found w r)
    (hmap : ∀ r, c.narrow = .ancestor r → (addr w ext ⟨typeMapName s r.decl, r.imported⟩).isSome = true)
    (houter : ∀ outer n t, c.decl = .nested outer n t → Seen s ext found w ⟨outer, c.outerImported⟩) :
    ∃ w', run ext (fuel + 2) w (ownStmts s path c) = .ok w' ∧
      w'.ready (.glob ext (c.decl.pytypestruct s.pre)) = some (c.pyBases s ext found) ∧
      Own ext (.glob ext (c.decl.pytypestruct s.pre)) w w' := by
  have st1 : ∃ w1, run ext (fuel + 2) w (if c.narrow = .self then
      [.addPointer path (hidden (typeMapName s c.decl)) ⟨typeMapName s c.decl, false⟩] else []) = .ok w1 ∧
      Frame ext w w1 := by
    split
    · exact ⟨_, run_one (by simp only [step, addr]; rfl), frame_module _ _ _ _ _⟩
    · exact ⟨w, rfl, Frame.refl ext w⟩
  obtain ⟨w1, r1, f1⟩ := st1
  have st2 : ∃ w2, run ext (fuel + 2) w1 (registerStmts s c) = .ok w2 ∧ Frame ext w1 w2 := by
    unfold registerStmts
    have fr : ∀ (m : Addr) (v : List (Str × Addr)), Frame ext w1 { w1 with maps := upd w1.maps m v } :=
      fun m v => ⟨rfl, rfl, rfl, rfl, rfl, fun _ _ _ => rfl⟩
    cases hn : c.narrow with
    | off => exact ⟨w1, rfl, Frame.refl ext w1⟩
    | self => exact ⟨_, run_one (by simp only [step, addr, typeLv]; rfl), fr _ _⟩
    | ancestor r =>
      have h := hmap r hn
      have h' : (addr w1 ext ⟨typeMapName s r.decl, r.imported⟩).isSome = true := by
        unfold addr at h ⊢
        rw [f1.ptr]
        exact h
      cases hq : addr w1 ext ⟨typeMapName s r.decl, r.imported⟩ with
      | none => rw [hq] at h'; cases h'
      | some m =>
        have ha : addr w1 ext (typeLv s ⟨c.decl, false⟩) = some (.glob ext (c.decl.pytypestruct s.pre)) := rfl
        exact ⟨_, run_one (by simp only [step, hq, ha]; rfl), fr _ _⟩
  obtain ⟨w2, r2, f2⟩ := st2
  have st3 : ∃ w3, run ext (fuel + 2) w2 (if c.bases = [] ∧ s.stdMap = true then
      [.addPointer path (hidden (registryName s c.decl)) ⟨registryName s c.decl, false⟩] else []) = .ok w3 ∧
      Frame ext w2 w3 := by
    split
    · exact ⟨_, run_one (by simp only [step, addr]; rfl), frame_module _ _ _ _ _⟩
    · exact ⟨w2, rfl, Frame.refl ext w2⟩
  obtain ⟨w3, r3, f3⟩ := st3
  have f := (f1.trans f2).trans f3
  obtain ⟨w4, r4, hr4, o4⟩ := base_run (ext := ext) (fuel := fuel) (s := s) (found := found) (c := c) (w := w3)
    (by rw [f.ready]; exact hobj) (by rw [f.ready, f.base, f.bases]; exact hfresh)
    (fun r hr => (hseen r hr).frame f.ptr f.ready)
  have st5 : ∃ w5, run ext (fuel + 2) w4 (placeStmts s path c) = .ok w5 ∧ Frame ext w4 w5 := by
    unfold placeStmts
    cases hd : c.decl with
    | top a b d e => exact ⟨_, run_one (by simp only [step, addr, typeLv]; rfl), frame_module _ _ _ _ _⟩
    | nested outer n t =>
      have hs := (houter outer n t hd).frame f.ptr f.ready
      have hq : addr w4 ext (typeLv s ⟨outer, c.outerImported⟩) =
          some (Ref.target s ext found ⟨outer, c.outerImported⟩) := by
        have := hs.1
        unfold addr at this ⊢
        rw [o4.ptr]
        exact this
      have hrd : (w4.ready (Ref.target s ext found ⟨outer, c.outerImported⟩)).isSome = true := by
        by_cases hsame : Ref.target s ext found ⟨outer, c.outerImported⟩ = .glob ext (c.decl.pytypestruct s.pre)
        · rw [hsame, hr4]; rfl
        · rw [o4.ready _ hsame]; exact hs.2.2
      refine ⟨setAttr w4 (Ref.target s ext found ⟨outer, c.outerImported⟩) c.pythonName
        (.glob ext ((ClassDecl.nested outer n t).pytypestruct s.pre)), run_one ?_,
        frame_type _ _ _ _ _ hs.2.1⟩
      have ha : addr w4 ext (typeLv s ⟨.nested outer n t, false⟩) =
          some (.glob ext ((ClassDecl.nested outer n t).pytypestruct s.pre)) := rfl
      simp only [step, hq, ha, hs.2.1, Bool.true_eq_false, if_false, hrd, if_true]
  obtain ⟨w5, r5, f5⟩ := st5
  refine ⟨w5, ?_, by rw [f5.ready]; exact hr4, ?_⟩
  · have e : ownStmts s path c = (if c.narrow = .self then
        [.addPointer path (hidden (typeMapName s c.decl)) ⟨typeMapName s c.decl, false⟩] else []) ++
        (registerStmts s c ++ ((if c.bases = [] ∧ s.stdMap = true then
          [.addPointer path (hidden (registryName s c.decl)) ⟨registryName s c.decl, false⟩] else []) ++
          ((baseStmts s c ++ [.ready (typeLv s ⟨c.decl, false⟩)]) ++ placeStmts s path c))) := by
      simp [ownStmts]
    rw [e, run_app_ok _ _ _ _ r1, run_app_ok _ _ _ _ r2, run_app_ok _ _ _ _ r3, run_app_ok _ _ _ _ r4]
    exact r5
  · refine ⟨?_, ?_, ?_, ?_, ?_, ?_⟩
    · rw [f5.ptr, o4.ptr, f.ptr]
    · rw [f5.sys, o4.sys, f.sys]
    · intro a ha; rw [f5.ready, o4.ready a ha, f.ready]
    · intro a ha; rw [f5.base, o4.base a ha, f.base]
    · intro a ha; rw [f5.bases, o4.bases a ha, f.bases]
    · intro e p he; rw [f5.attrs e p he, o4.attrs e p he, f.attrs e p he]

/-! ### All events -/

/-- The name of the structure an event makes. -/
def Event.struct (s : Settings) : Event → Option Str
  | .imp c => some (c.decl.pystruct s.pre)
  | .own _ c => some (c.decl.pystruct s.pre)
  | _ => none

theorem type_struct {s : Settings} {c d : ClassDecl} (h : c.pytypestruct s.pre = d.pytypestruct s.pre) :
    c.pystruct s.pre = d.pystruct s.pre := List.append_cancel_right h

theorem events_run {ext : Str} {fuel : Nat} {s : Settings} {found : ClassDecl → Addr} {imps : List Cls} :
    ∀ (rest done : List Event) (seen : List Ref) (w : World),
    Inv s ext found imps done rest w → Ordered seen rest →
    ((done ++ rest).filterMap (Event.struct s)).Nodup →
    (∀ c, .imp c ∈ done ++ rest → c ∈ imps) →
    (∀ p c r, .own p c ∈ rest → c.narrow = .ancestor r → ∀ k ∈ imps, k.decl = r.decl → k.narrow = .self) →
    (∀ r ∈ seen, (r.imported = true ∧ ∃ c, .imp c ∈ done ∧ c.decl = r.decl) ∨
      (r.imported = false ∧ ∃ p c, .own p c ∈ done ∧ c.decl = r.decl)) →
    ∃ w', run ext (fuel + 2) w (rest.flatMap (Event.stmts s)) = .ok w' ∧
      Inv s ext found imps (done ++ rest) [] w'
  | [], done, seen, w, hi, _, _, _, _, _ => ⟨w, rfl, by rw [List.append_nil]; exact hi⟩
  | ev :: rest, done, seen, w, hi, hord, hnd, himp, hroot, hseen => by
    have seenOk : ∀ r ∈ seen, Seen s ext found w r := by
      intro r hr
      rcases hseen r hr with ⟨h1, c, hc, hcd⟩ | ⟨h1, p, c, hc, hcd⟩
      · have ht : r.target s ext found = found c.decl := by rw [Ref.target, if_pos h1, hcd]
        obtain ⟨e, q, _, _, _, a4, a5, _⟩ := hi.avail c (himp c (List.mem_append_left _ hc))
        refine ⟨?_, by rw [ht]; exact a4, by rw [ht]; exact a5⟩
        rw [ht, ← hi.types c hc, hcd]
        simp only [addr, typeLv, h1, if_true]
      · have ht : r.target s ext found = .glob ext (c.decl.pytypestruct s.pre) := by
          rw [Ref.target, if_neg (by rw [h1]; simp), hcd]
        refine ⟨?_, by rw [ht]; rfl, by rw [ht, hi.ready p c hc]; rfl⟩
        rw [ht, hcd]
        simp only [addr, typeLv, h1]
        rfl
    have assoc : done ++ ev :: rest = (done ++ [ev]) ++ rest := by simp
    have seenMono : ∀ r : Ref, ((r.imported = true ∧ ∃ c, .imp c ∈ done ∧ c.decl = r.decl) ∨
        (r.imported = false ∧ ∃ p c, .own p c ∈ done ∧ c.decl = r.decl)) →
        ((r.imported = true ∧ ∃ c, .imp c ∈ done ++ [ev] ∧ c.decl = r.decl) ∨
        (r.imported = false ∧ ∃ p c, .own p c ∈ done ++ [ev] ∧ c.decl = r.decl)) := by
      intro r h
      rcases h with ⟨h1, c, hc, hcd⟩ | ⟨h1, p, c, hc, hcd⟩
      · exact Or.inl ⟨h1, c, List.mem_append_left _ hc, hcd⟩
      · exact Or.inr ⟨h1, p, c, List.mem_append_left _ hc, hcd⟩
    rw [List.flatMap_cons]
    have fin : ∀ (seen' : List Ref) (w1 : World), run ext (fuel + 2) w (ev.stmts s) = .ok w1 →
        Inv s ext found imps (done ++ [ev]) rest w1 → Ordered seen' rest →
        (∀ r ∈ seen', (r.imported = true ∧ ∃ c, .imp c ∈ done ++ [ev] ∧ c.decl = r.decl) ∨
          (r.imported = false ∧ ∃ p c, .own p c ∈ done ++ [ev] ∧ c.decl = r.decl)) →
        ∃ w', run ext (fuel + 2) w (ev.stmts s ++ rest.flatMap (Event.stmts s)) = .ok w' ∧
          Inv s ext found imps (done ++ ev :: rest) [] w' := by
      intro seen' w1 hr1 hi1 ho1 hs1
      rw [run_app_ok _ _ _ _ hr1, assoc]
      exact events_run rest (done ++ [ev]) seen' w1 hi1 ho1 (by rw [← assoc]; exact hnd)
        (by rw [← assoc]; exact himp)
        (fun p c r hc => hroot p c r (List.mem_cons_of_mem _ hc)) hs1
    -- other events of the same structure name do not exist
    have distinct : ∀ n, ev.struct s = some n → ∀ e', e' ∈ done ∨ e' ∈ rest → e'.struct s ≠ some n := by
      intro n hn e' he' hc
      rw [List.filterMap_append, List.nodup_append, List.filterMap_cons_some hn, List.nodup_cons] at hnd
      rcases he' with h | h
      · exact hnd.2.2 n (List.mem_filterMap.2 ⟨e', h, hc⟩) n (by simp) rfl
      · exact hnd.2.1.1 (List.mem_filterMap.2 ⟨e', h, hc⟩)
    cases ev with
    | imp c =>
      obtain ⟨w1, b1, b2, b3, b4, b5, b6, b7, b8, b9⟩ := brun_ok (hi.avail c (himp c (by simp)))
      have other : ∀ d, .imp d ∈ done → ∀ v, v ∈ [hidden (d.decl.pytypestruct s.pre), hidden (typeMapName s d.decl)] →
          v ∉ (importBlock s c).flatMap BStmt.vars := by
        intro d hd v hv hm
        have hne := distinct _ rfl _ (Or.inl hd)
        apply hne
        simp only [Event.struct]
        congr 1
        simp only [List.mem_cons, List.not_mem_nil, or_false] at hv
        rcases hv with rfl | rfl
        · rcases var_pystruct hm with h | h | h
          · exact List.append_cancel_right (hidden_inj h)
          · exact absurd h (type_ne_map _ _)
          · exact absurd h (type_ne_reg _ _)
        · rcases var_pystruct hm with h | h | h
          · exact absurd h.symm (type_ne_map _ _)
          · exact List.append_cancel_right (hidden_inj h)
          · exact absurd h (map_ne_reg _ _)
      refine fin (⟨c.decl, true⟩ :: seen) w1 (run_one b1) ?_ hord ?_
      · refine ⟨?_, ?_, ?_, ?_, ?_, ?_⟩
        · intro d hd
          rcases List.mem_append.1 hd with hd | hd
          · rw [b4 _ (other d hd _ (by simp))]; exact hi.types d hd
          · cases List.mem_singleton.1 hd; exact b2
        · intro d hd hn
          rcases List.mem_append.1 hd with hd | hd
          · rw [b4 _ (other d hd _ (by simp))]; exact hi.maps d hd hn
          · cases List.mem_singleton.1 hd; exact b3 hn
        · intro p d hd
          rcases List.mem_append.1 hd with hd | hd
          · rw [b7]; exact hi.ready p d hd
          · cases List.mem_singleton.1 hd
        · intro p d hd
          rw [b7, b8, b9]
          exact hi.fresh p d (List.mem_cons_of_mem _ hd)
        · intro d hd
          exact (hi.avail d hd).frame b5 (fun e p _ => by rw [b6]) (fun b hb => by rw [b7]; exact hb)
        · rw [b7]; exact hi.object
      · intro r hr
        rcases List.mem_cons.1 hr with rfl | hr
        · exact Or.inl ⟨rfl, c, by simp, rfl⟩
        · exact seenMono r (hseen r hr)
    | own path c =>
      obtain ⟨o1, o2, o3, o4⟩ := hord
      obtain ⟨w1, r1, hr1, own⟩ := own_run (fuel := fuel) (path := path) (found := found) hi.object
        (hi.fresh path c (by simp)) (fun r hr => seenOk r (o1 r hr))
        (by
          intro r hr
          rcases hseen r (o3 r hr) with ⟨h1, k, hk, hkd⟩ | ⟨h1, _⟩
          · have := hi.maps k hk (hroot path c r (by simp) hr k (himp k (List.mem_append_left _ hk)) hkd)
            simp only [addr, h1, if_true]
            rw [hkd] at this
            exact this
          · simp only [addr, h1]
            rfl)
        (fun outer n t hd => seenOk _ (o2 outer n t hd))
      have other : ∀ p d, .own p d ∈ done ∨ .own p d ∈ rest →
          Addr.glob ext (d.decl.pytypestruct s.pre) ≠ .glob ext (c.decl.pytypestruct s.pre) := by
        intro p d hd hm
        have hne := distinct _ rfl _ hd
        apply hne
        simp only [Event.struct]
        injection hm with _ hm
        rw [type_struct hm]
      refine fin (⟨c.decl, false⟩ :: seen) w1 r1 ?_ o4 ?_
      · have mono : ∀ b, (w.ready b).isSome = true → (w1.ready b).isSome = true := by
          intro b hb
          by_cases hbm : b = .glob ext (c.decl.pytypestruct s.pre)
          · rw [hbm, hr1]; rfl
          · rw [own.ready b hbm]; exact hb
        refine ⟨?_, ?_, ?_, ?_, ?_, ?_⟩
        · intro d hd
          rcases List.mem_append.1 hd with hd | hd
          · rw [own.ptr]; exact hi.types d hd
          · cases List.mem_singleton.1 hd
        · intro d hd hn
          rcases List.mem_append.1 hd with hd | hd
          · rw [own.ptr]; exact hi.maps d hd hn
          · cases List.mem_singleton.1 hd
        · intro p d hd
          rcases List.mem_append.1 hd with hd | hd
          · rw [own.ready _ (other p d (Or.inl hd))]; exact hi.ready p d hd
          · cases List.mem_singleton.1 hd; exact hr1
        · intro p d hd
          have hne := other p d (Or.inr hd)
          rw [own.ready _ hne, own.base _ hne, own.bases _ hne]
          exact hi.fresh p d (List.mem_cons_of_mem _ hd)
        · intro d hd
          exact (hi.avail d hd).frame own.sys own.attrs mono
        · exact mono _ hi.object
      · intro r hr
        rcases List.mem_cons.1 hr with rfl | hr
        · exact Or.inr ⟨rfl, path, c, by simp, rfl⟩
        · exact seenMono r (hseen r hr)
    | typedef path r n =>
      obtain ⟨o1, o2⟩ := hord
      have hs := seenOk r o1
      refine fin seen (setAttr w (.module ext path) n (r.target s ext found))
        (run_one (by simp only [step, hs.1])) (hi.frame ⟨fun c g => (by cases g), fun p c g => (by cases g)⟩
          (frame_module _ _ _ _ _)) o2 (fun q hq => seenMono q (hseen q hq))
    | sub path n =>
      refine fin seen (setAttr w (.module ext path) n (.module ext (path ++ [n])))
        (run_one rfl) (hi.frame ⟨fun c g => (by cases g), fun p c g => (by cases g)⟩
          (frame_module _ _ _ _ _)) hord (fun q hq => seenMono q (hseen q hq))

mutual
theorem events_imp (c : Cls) : ∀ (m : Mod) (path : List Str), .imp c ∈ m.events path → c ∈ m.allImported
  | .mk name classes typedefs subs, path, h => by
    simp only [Mod.events, List.mem_append, List.mem_map] at h
    simp only [Mod.allImported, List.mem_append]
    rcases h with ((⟨d, hd, he⟩ | ⟨d, hd, he⟩) | ⟨d, hd, he⟩) | h
    · cases he; exact Or.inl hd
    · cases he
    · cases he
    · exact Or.inr (subsEvents_imp c subs path h)
theorem subsEvents_imp (c : Cls) : ∀ (ms : List Mod) (path : List Str), .imp c ∈ subsEvents path ms → c ∈ subsImported ms
  | [], _, h => by cases h
  | m :: ms, path, h => by
    simp only [subsEvents, List.mem_append, List.mem_singleton] at h
    simp only [subsImported, List.mem_append]
    rcases h with (h | h) | h
    · exact Or.inl (events_imp c m _ h)
    · cases h
    · exact Or.inr (subsEvents_imp c ms path h)
end

mutual
theorem events_own (c : Cls) : ∀ (m : Mod) (path : List Str), c ∈ m.allOwn → ∃ p, .own p c ∈ m.events path
  | .mk name classes typedefs subs, path, h => by
    simp only [Mod.allOwn, List.mem_append] at h
    simp only [Mod.events, List.mem_append, List.mem_map]
    rcases h with h | h
    · exact ⟨path, Or.inl (Or.inl (Or.inr ⟨c, h, rfl⟩))⟩
    · obtain ⟨p, hp⟩ := subsEvents_own c subs path h
      exact ⟨p, Or.inr hp⟩
theorem subsEvents_own (c : Cls) : ∀ (ms : List Mod) (path : List Str), c ∈ subsOwn ms → ∃ p, .own p c ∈ subsEvents path ms
  | [], _, h => by cases h
  | m :: ms, path, h => by
    simp only [subsOwn, List.mem_append] at h
    simp only [subsEvents, List.mem_append, List.mem_singleton]
    rcases h with h | h
    · obtain ⟨p, hp⟩ := events_own c m (path ++ [m.name]) h
      exact ⟨p, Or.inl (Or.inl hp)⟩
    · obtain ⟨p, hp⟩ := subsEvents_own c ms path h
      exact ⟨p, Or.inr hp⟩
end

mutual
theorem events_own' (c : Cls) (q : List Str) : ∀ (m : Mod) (path : List Str), .own q c ∈ m.events path → c ∈ m.allOwn
  | .mk name classes typedefs subs, path, h => by
    simp only [Mod.events, List.mem_append, List.mem_map] at h
    simp only [Mod.allOwn, List.mem_append]
    rcases h with ((⟨d, hd, he⟩ | ⟨d, hd, he⟩) | ⟨d, hd, he⟩) | h
    · cases he
    · cases he; exact Or.inl hd
    · cases he
    · exact Or.inr (subsEvents_own' c q subs path h)
theorem subsEvents_own' (c : Cls) (q : List Str) : ∀ (ms : List Mod) (path : List Str),
    .own q c ∈ subsEvents path ms → c ∈ subsOwn ms
  | [], _, h => by cases h
  | m :: ms, path, h => by
    simp only [subsEvents, List.mem_append, List.mem_singleton] at h
    simp only [subsOwn, List.mem_append]
    rcases h with (h | h) | h
    · exact Or.inl (events_own' c q m _ h)
    · cases h
    · exact Or.inr (subsEvents_own' c q ms path h)
end

/-! ## C105 -/

/-- **C105 (partial)**: an extension module of any number of classes and submodules, nested to any depth,
in which every class comes after the classes it needs, and whose imported classes can be found,
initialises without an error, and then each of its types has as `__bases__` exactly the types of its
declared bases, in order (`object` for a class without bases): types of the extension itself or types of
the modules they are imported from.

Missing (false): see the counterexamples. -/
theorem C105_bases_partial (x : Ext) (w : World) (found : ClassDecl → Addr) (hfresh : Fresh w x.name)
    (hord : Ordered [] (x.root.events []))
    (hnames : ((x.root.events []).filterMap (Event.struct x.settings)).Nodup)
    (havail : ∀ c ∈ x.root.allImported, Available w x.settings x.name c (found c.decl))
    (hroot : ∀ c ∈ x.root.allOwn, ∀ r, c.narrow = .ancestor r →
      ∀ k ∈ x.root.allImported, k.decl = r.decl → k.narrow = .self) :
    ∃ w', load w x = .ok w' ∧
      ∀ c ∈ x.root.allOwn, w'.ready (.glob x.name (c.decl.pytypestruct x.settings.pre)) =
        some (c.pyBases x.settings x.name found) := by
  have hi : Inv x.settings x.name found x.root.allImported [] (x.root.events []) w :=
    ⟨fun c h => (List.not_mem_nil h).elim, fun c h => (List.not_mem_nil h).elim,
     fun p c h => (List.not_mem_nil h).elim, fun p c _ => hfresh.1 _, havail, hfresh.2⟩
  obtain ⟨w', hr, hi'⟩ := events_run (fuel := x.stmts.length) (x.root.events []) [] [] w hi hord hnames
    (fun c hc => events_imp c x.root [] hc)
    (fun p c r hc hn => hroot c (events_own' c p x.root [] hc) r hn)
    (fun r hr => (List.not_mem_nil hr).elim)
  refine ⟨{ w' with sys := upd w'.sys x.name (some (.module x.name [])) }, ?_, ?_⟩
  · unfold load
    have : x.stmts = (x.root.events []).flatMap (Event.stmts x.settings) := stmts_events _ _ _
    rw [← this] at hr
    rw [hr]
  · intro c hc
    obtain ⟨p, hp⟩ := events_own c x.root [] hc
    exact hi'.ready p c (by simpa using hp)

/-- A module with an imported class, classes with one and several bases, a nested class and a submodule
meets the hypotheses. -/
def exTree : Ext :=
  ⟨{}, .mk "tree".toList
    [{ decl := cls "A" },
     { decl := cls "B", bases := [⟨cls "A", false⟩, ⟨cls "Base", true⟩] },
     { decl := .nested (cls "B") "In".toList [] },
     { decl := cls "Base", source := "base".toList }]
    [(⟨cls "Base", true⟩, "Alias".toList)]
    [.mk "sub".toList [{ decl := cls "C", bases := [⟨cls "B", false⟩] }] [] []]⟩

/-- The state after `base` has been loaded. -/
def wBase : World := (loadAll World.start [exBase]).toOption.getD World.start

example : Ordered [] (exTree.root.events []) := by
  refine ⟨?_, ?_, ?_, ?_, ?_, ?_, ?_, ?_, ?_, ?_, ?_, ?_, ?_, ?_⟩
  all_goals try simp [cls]
  · intro outer _ _ h _ _
    exact Or.inl h.symm
  · exact trivial

example : Fresh wBase exTree.name := by
  refine ⟨fun sym => ⟨?_, ?_, ?_⟩, rfl⟩ <;> rfl

example : Available wBase exTree.settings exTree.name { decl := cls "Base", source := "base".toList }
    (.glob "base".toList "PyBase_Type".toList) := by
  refine ⟨"base".toList, [], by decide, rfl, rfl, rfl, rfl, ?_⟩
  intro b hb
  cases hb
  rfl

example : ((exTree.root.events []).filterMap (Event.struct exTree.settings)).Nodup ∧
    basesAfter [exBase, exTree] "tree" "PyB_Type" =
      some (some [.glob "tree".toList "PyA_Type".toList, .glob "base".toList "PyBase_Type".toList]) ∧
    basesAfter [exBase, exTree] "tree" "PyBIn_Type" = some (some [.object]) ∧
    basesAfter [exBase, exTree] "tree" "PyC_Type" = some (some [.glob "tree".toList "PyB_Type".toList]) := by
  decide +kernel

/-- **C105 (counterexample)**: a base class that lives in a submodule loses its own base.  `C`, in the root
module, derives from `B`, in the submodule, which derives from `A`: the root module makes `C` ready
first, and with it `B`, whose base has not been set yet. -/
theorem C105_submodule_counterexample :
    let x : Ext := ⟨{}, .mk "m".toList
      [{ decl := cls "A" }, { decl := cls "C", bases := [⟨cls "B", false⟩] }] []
      [.mk "sub".toList [{ decl := cls "B", bases := [⟨cls "A", false⟩] }] [] []]⟩
    basesAfter [x] "m" "PyC_Type" = some (some [.glob "m".toList "PyB_Type".toList]) ∧
    basesAfter [x] "m" "PyB_Type" = some (some [.object]) := by
  decide +kernel

/-- **C105 (counterexample)**: a base class imported by a submodule is not there yet when the classes of
the root module are made: the class has no base but `object`. -/
theorem C105_imported_counterexample :
    let x : Ext := ⟨{}, .mk "m".toList
      [{ decl := cls "C", bases := [⟨cls "Base", true⟩] }] []
      [.mk "sub".toList [{ decl := cls "Base", source := "base".toList }] [] []]⟩
    basesAfter [exBase, x] "m" "PyC_Type" = some (some [.object]) := by
  decide +kernel

/-- **C105 (counterexample)**: a base class imported under a name the other module does not have: no
error, and the class has no base but `object`. -/
theorem C105_missing_counterexample :
    basesAfter [exBase, flat "m" [{ decl := cls "Gone", source := "base".toList },
      { decl := cls "C", bases := [⟨cls "Gone", true⟩] }]] "m" "PyC_Type" = some (some [.object]) := by
  decide +kernel

end Verif.Imports
