import Verif.Wrapper.Trial
import Mathlib.Logic.Relation

/-!
# C127: trial generations leave no trace
-/
namespace Verif.Trial
open Verif Verif.CodeBlock Verif.DeclScope Verif.Params

/-! ## Specification -/

/-- What a handler must not touch: the error returns of the blocks and its own
`REQUIRES_ASSIGNMENT_CONSTRUCTOR`. -/
def Core.frame (c : Core) : Str × Str × Str × Bool :=
  (c.parseB.errorReturn, c.callB.errorReturn, c.afterB.errorReturn, c.requires)

/-- Two states that agree but for the variables remembered by handlers outside `K`. -/
def Agree (K : Nat → Prop) (s t : St) : Prop := s.core = t.core ∧ ∀ k, K k → s.names k = t.names k

/-- A handler that, where only the handlers of `K` have remembered a variable in this run, does not look at
what the others may have remembered in an earlier one; after it those of `K'` have. -/
structure Fits (K K' : Nat → Prop) (g : Stage) : Prop where
  same : ∀ s t, Agree K s t → (g s).2 = (g t).2 ∧ (g s).1.core = (g t).1.core ∧
    ((g s).2 = none → Agree K' (g s).1 (g t).1)
  frame : ∀ s, (g s).1.core.frame = s.core.frame

/-- A handler that leaves the method flags alone (only `generate_body` sets them, base.py:903-922). -/
def KeepsFlags (g : Stage) : Prop := ∀ s, (g s).1.core.flags = s.core.flags

/-- Handlers one after the other: `K` grows. -/
inductive Chained : (Nat → Prop) → List Stage → (Nat → Prop) → Prop
  | nil (K) : Chained K [] K
  | cons {K K' K'' g gs} : Fits K K' g → Chained K' gs K'' → Chained K (g :: gs) K''

/-- A wrapper whose handlers look only at the wrapper and at what the handlers before them remembered in the
same run, and touch neither error returns nor flags. -/
structure Wrapper.Ok (w : Wrapper) : Prop where
  stages : ∃ K K', Chained (fun _ => False) w.params K ∧ Fits K K w.hookBefore ∧ Fits K K w.callStage ∧
    Fits K' K' w.hookReturn ∧
    (match w.ret with | some g => Fits K K' g | none => K' = K)
  flags : KeepsFlags w.hookReturn ∧ ∀ g, w.ret = some g → KeepsFlags g

/-- Histories in which a definition is written only in a wrapper that is new or has been started afresh,
and at most once before it is started afresh again (`made`: a definition has been written). -/
def Orderly : (made : Bool) → List Event → Prop
  | _, [] => True
  | made, .define :: es => made = false ∧ Orderly true es
  | made, .flags :: es => Orderly made es
  | _, .declare :: es => Orderly false es
  | _, .reset :: es => Orderly false es

/-! ## Lemmas -/

theorem Fits.andThen {K K' K'' g h} (hg : Fits K K' g) (hh : Fits K' K'' h) : Fits K K'' (g.andThen h) := by
  constructor
  · intro s t hst
    obtain ⟨h1, h2, h3⟩ := hg.same s t hst
    unfold Stage.andThen
    rcases hgs : g s with ⟨s1, _ | e⟩ <;> rcases hgt : g t with ⟨t1, _ | e'⟩ <;>
      simp only [hgs, hgt] at h1 h2 h3 ⊢
    · exact hh.same s1 t1 (h3 trivial)
    · exact absurd h1 (by simp)
    · exact absurd h1 (by simp)
    · exact ⟨h1, h2, fun h => absurd h (by simp)⟩
  · intro s
    have h1 := hg.frame s
    unfold Stage.andThen
    rcases hgs : g s with ⟨s1, _ | e⟩ <;> simp only [hgs] at h1 ⊢
    · rw [hh.frame s1, h1]
    · exact h1

theorem Fits.implemented {K K' g} (hg : Fits K K' g) : Fits K K' (implemented g) := by
  have key : ∀ s, (Trial.implemented g s).1 = (g s).1 ∧ (Trial.implemented g s).2 =
      (match (g s).2 with | some .notImplementedError => some .codeGenerationError | r => r) := by
    intro s
    unfold Trial.implemented
    rcases g s with ⟨s1, _ | e⟩
    · exact ⟨rfl, rfl⟩
    · cases e <;> exact ⟨rfl, rfl⟩
  constructor
  · intro s t hst
    obtain ⟨h1, h2, h3⟩ := hg.same s t hst
    rw [(key s).1, (key s).2, (key t).1, (key t).2, h1]
    refine ⟨rfl, h2, fun h => h3 ?_⟩
    rw [h1]
    rcases hgt : (g t).2 with _ | e
    · rfl
    · rw [hgt] at h; cases e <;> simp at h
  · intro s; rw [(key s).1]; exact hg.frame s

theorem fits_lift {f : Core → Core × Option PyErr} (hf : ∀ c, (f c).1.frame = c.frame) (K : Nat → Prop) :
    Fits K K (lift f) := by
  refine ⟨fun s t hst => ?_, fun s => hf s.core⟩
  simp only [lift, hst.1]
  exact ⟨trivial, trivial, fun _ => ⟨rfl, hst.2⟩⟩

theorem Chained.convertAll {K gs K'} (h : Chained K gs K') : Fits K K' (convertAll gs) := by
  induction h with
  | nil K => exact fits_lift (fun _ => rfl) K
  | cons hg _ ih => exact hg.implemented.andThen ih

theorem step_errors {c d : Chain} {o : Op} (h : c.step o = .ok d) (i : Nat) :
    (d i).errorReturn = (c i).errorReturn := by
  cases o with
  | add j code =>
    simp only [Chain.step] at h
    cases h
    simp only [Chain.upd]; split
    · subst_vars; rfl
    · rfl
  | cancel j pos =>
    simp only [Chain.step, Block.removeCleanup, bind, Except.bind, pure, Except.pure, Except.map] at h
    split at h
    · cases h
    · rename_i v hv
      split at hv
      · cases hv
      · cases hv; cases h
        simp only [Chain.upd]; split
        · subst_vars; rfl
        · rfl
  | clear j =>
    simp only [Chain.step] at h
    cases h
    simp only [Chain.upd]; split
    · subst_vars; rfl
    · rfl
  | writeCode j s =>
    simp only [Chain.step] at h
    cases h
    simp only [Chain.upd]; split
    · subst_vars; rfl
    · rfl
  | indent j n =>
    simp only [Chain.step] at h
    cases h
    simp only [Chain.upd]; split
    · subst_vars; rfl
    · rfl
  | unindent j =>
    simp only [Chain.step, bind, Except.bind, pure, Except.pure] at h
    split at h
    · cases h
    · cases h
      simp only [Chain.upd]; split
      · subst_vars; rfl
      · rfl
  | writeCleanup j =>
    simp only [Chain.step] at h
    cases h
    simp only [Chain.upd]; split
    · subst_vars; rfl
    · rfl
  | errorReturn j =>
    simp only [Chain.step] at h
    cases h
    simp only [Chain.upd]; split
    · subst_vars; rfl
    · rfl
  | errorCheck j e x =>
    simp only [Chain.step, bind, Except.bind, pure, Except.pure] at h
    split at h
    · cases h
    · cases h
      simp only [Chain.upd]; split
      · subst_vars; rfl
      · rfl

theorem block_frame (c : Core) (o : Op) : (c.block o).1.frame = c.frame := by
  unfold Core.block
  rcases h : c.chain.step o with e | d
  · rfl
  · simp only [Core.frame, step_errors h]; rfl

theorem block_flags (c : Core) (o : Op) : (c.block o).1.flags = c.flags := by
  unfold Core.block
  rcases h : c.chain.step o with e | d <;> rfl

theorem blocks_frame (c : Core) (os : List Op) : (c.blocks os).1.frame = c.frame := by
  induction os generalizing c with
  | nil => rfl
  | cons o os ih =>
    unfold Core.blocks
    have := block_frame c o
    rcases h : c.block o with ⟨c1, _ | e⟩ <;> rw [h] at this
    · exact (ih c1).trans this
    · exact this

theorem blocks_flags (c : Core) (os : List Op) : (c.blocks os).1.flags = c.flags := by
  induction os generalizing c with
  | nil => rfl
  | cons o os ih =>
    unfold Core.blocks
    have := block_flags c o
    rcases h : c.block o with ⟨c1, _ | e⟩ <;> rw [h] at this
    · exact (ih c1).trans this
    · exact this

theorem declare_frame (c : Core) (t n : Str) (i a : Option Str) : (c.declare t n i a).1.frame = c.frame := rfl

theorem openThreads_frame (w : Wrapper) (c : Core) : (openThreads w c).1.frame = c.frame := by
  unfold openThreads
  split
  · have h0 := declare_frame c "PyThreadState*".toList "py_thread_state".toList (some "NULL".toList) none
    rcases h : c.declare "PyThreadState*".toList "py_thread_state".toList (some "NULL".toList) with ⟨c1, e | v⟩
    · rw [h] at h0; exact h0
    · rw [h] at h0
      simp only
      have h1 := block_frame c1 (.writeCode 2 ("\nif (".toList ++ v ++ ")\n     PyEval_RestoreThread(".toList ++ v ++
          ");\n".toList))
      rcases h' : c1.block (.writeCode 2 ("\nif (".toList ++ v ++ ")\n     PyEval_RestoreThread(".toList ++ v ++
          ");\n".toList)) with ⟨c2, _ | e⟩ <;> rw [h'] at h1
      · exact h1.trans h0
      · exact h1.trans h0
  · rfl

theorem warn_frame (w : Wrapper) (c : Core) : (warn w c).1.frame = c.frame := by
  unfold warn; split
  · rfl
  · exact block_frame _ _

theorem saveThread_frame (w : Wrapper) (v : Str) (c : Core) : (saveThread w v c).1.frame = c.frame := by
  unfold saveThread; split
  · exact block_frame _ _
  · rfl

theorem parseKeywords_frame (p : Str) (r kw : List Str) (c : Core) :
    (parseKeywords p r kw c).1.frame = c.frame := by
  unfold parseKeywords
  split
  · rename_i c1 e h
    have := declare_frame c "const char *".toList "keywords".toList
      (some (['{'] ++ pyJoin ", ".toList (kw.map (fun k => '"' :: k ++ ['"']) ++ ["NULL".toList]) ++ ['}']))
      (some "[]".toList)
    rw [h] at this; exact this
  · rename_i c1 v h
    have h0 := declare_frame c "const char *".toList "keywords".toList
      (some (['{'] ++ pyJoin ", ".toList (kw.map (fun k => '"' :: k ++ ['"']) ++ ["NULL".toList]) ++ ['}']))
      (some "[]".toList)
    rw [h] at h0
    split <;> rename_i c2 _ h2 <;> skip
    · exact (by have := block_frame c1 (.errorCheck 0 ("!PyArg_ParseTupleAndKeywords(".toList ++ pyJoin ", ".toList
        (["args".toList, "kwargs".toList, "(char *) ".toList ++ p, "(char **) ".toList ++ v] ++ r) ++
        ")".toList) none); rw [‹c1.block _ = _›] at this; exact this.trans h0)
    · exact (by have := block_frame c1 (.errorCheck 0 ("!PyArg_ParseTupleAndKeywords(".toList ++ pyJoin ", ".toList
        (["args".toList, "kwargs".toList, "(char *) ".toList ++ p, "(char **) ".toList ++ v] ++ r) ++
        ")".toList) none); rw [‹c1.block _ = _›] at this; exact this.trans h0)

theorem parseCall_frame (w : Wrapper) (c : Core) : (parseCall w c).1.frame = c.frame := by
  unfold parseCall
  split
  · rfl
  · split
    · rfl
    · split
      · split
        · exact (block_frame _ _).trans rfl
        · exact (parseKeywords_frame _ _ _ _).trans rfl
      · rfl

/-- Parsing sets flags. -/
theorem parseCall_flags (w : Wrapper) (c : Core) (h : (parseCall w c).2 = none) :
    (parseCall w c).1.flags ≠ [] := by
  revert h
  unfold parseCall
  split
  · intro h; cases h
  · split
    · intro h; cases h
    · split
      · split
        · intro _; simp [block_flags, Core.flag]
        · unfold parseKeywords
          split
          · intro h; cases h
          · split
            · intro h; cases h
            · intro _; simp [Core.flag]
      · intro _; simp [Core.flag]

theorem noBuild_frame (c : Core) : (noBuild c).1.frame = c.frame := by
  unfold noBuild; split <;> rfl

theorem noBuild_flags (c : Core) : (noBuild c).1.flags = c.flags := by
  unfold noBuild; split <;> rfl

theorem rest_fits (w : Wrapper) (ok : w.Ok) (v : Str) : ∃ K, Fits (fun _ => False) K (rest w v) := by
  obtain ⟨K, K', h1, h2, h3, h4, h5⟩ := ok.stages
  refine ⟨K', ?_⟩
  refine h1.convertAll.andThen ((fits_lift (warn_frame w) K).andThen (h2.andThen
    ((fits_lift (saveThread_frame w v) K).andThen (h3.andThen
      ((fits_lift (parseCall_frame w) K).andThen ?_)))))
  unfold finish
  split
  · refine Fits.andThen ?_ (h4.andThen (fits_lift (fun c => blocks_frame c _) K'))
    cases hr : w.ret with
    | some g => rw [hr] at h5; exact Fits.implemented h5
    | none => rw [hr] at h5; subst h5; exact fits_lift (fun _ => rfl) K'
  · rename_i hret
    have hr : w.ret = none := by
      cases h : w.ret with
      | none => rfl
      | some g => simp [Wrapper.returns, h] at hret
    rw [hr] at h5; subst h5
    exact (fits_lift noBuild_frame K').andThen (h4.andThen (fits_lift (fun c => block_frame c _) K'))

/-- The collecting phase does not look at what was remembered before. -/
theorem body_same (w : Wrapper) (ok : w.Ok) (s t : St) (h : s.core = t.core) :
    (body w s).2 = (body w t).2 ∧ (body w s).1.core = (body w t).1.core := by
  unfold body
  rw [h]
  rcases openThreads w t.core with ⟨c, e | v⟩
  · exact ⟨rfl, rfl⟩
  · obtain ⟨K, hK⟩ := rest_fits w ok v
    obtain ⟨h1, h2, _⟩ := hK.same { s with core := c } { t with core := c } ⟨rfl, fun _ hf => hf.elim⟩
    exact ⟨h1, h2⟩

theorem body_frame (w : Wrapper) (ok : w.Ok) (s : St) : (body w s).1.core.frame = s.core.frame := by
  unfold body
  have := openThreads_frame w s.core
  rcases h : openThreads w s.core with ⟨c, e | v⟩ <;> rw [h] at this
  · exact this
  · obtain ⟨K, hK⟩ := rest_fits w ok v
    exact (hK.frame _).trans this

theorem andThen_none {g h : Stage} {s : St} (he : (g.andThen h s).2 = none) :
    (g s).2 = none ∧ g.andThen h s = h (g s).1 := by
  unfold Stage.andThen at he ⊢
  rcases hg : g s with ⟨s1, _ | e⟩ <;> rw [hg] at he
  · exact ⟨rfl, rfl⟩
  · cases he

theorem buildReturn_flags (c : Core) : (buildReturn c).1.flags = c.flags := blocks_flags c _

theorem finish_flags (w : Wrapper) (ok : w.Ok) (s : St) (he : (finish w s).2 = none) :
    (finish w s).1.core.flags = s.core.flags := by
  unfold finish at he ⊢
  split at he <;> rename_i hret <;> simp only [hret, if_true, if_false, Bool.false_eq_true] at he ⊢
  · obtain ⟨_, e2⟩ := andThen_none he
    rw [e2] at he ⊢
    obtain ⟨_, e3⟩ := andThen_none he
    rw [e3]
    show (buildReturn _).1.flags = _
    rw [buildReturn_flags, ok.flags.1]
    cases hr : w.ret with
    | none => rfl
    | some g =>
      simp only
      unfold implemented
      have := ok.flags.2 g hr s
      rcases hg : g s with ⟨s1, _ | e⟩ <;> rw [hg] at this
      · exact this
      · cases e <;> exact this
  · obtain ⟨_, e2⟩ := andThen_none he
    rw [e2] at he ⊢
    obtain ⟨_, e3⟩ := andThen_none he
    rw [e3]
    show (Core.block _ _).1.flags = _
    rw [block_flags, ok.flags.1]
    exact noBuild_flags _

theorem body_flags (w : Wrapper) (ok : w.Ok) (s : St) (he : (body w s).2 = none) :
    (body w s).1.core.flags ≠ [] := by
  unfold body at he ⊢
  rcases h : openThreads w s.core with ⟨c, e | v⟩
  · simp only [h] at he; cases he
  · simp only [h] at he ⊢
    unfold rest at he ⊢
    obtain ⟨_, e1⟩ := andThen_none he; rw [e1] at he ⊢
    obtain ⟨_, e2⟩ := andThen_none he; rw [e2] at he ⊢
    obtain ⟨_, e3⟩ := andThen_none he; rw [e3] at he ⊢
    obtain ⟨_, e4⟩ := andThen_none he; rw [e4] at he ⊢
    obtain ⟨_, e5⟩ := andThen_none he; rw [e5] at he ⊢
    obtain ⟨p, e6⟩ := andThen_none he; rw [e6] at he ⊢
    rw [finish_flags w ok _ he]
    exact parseCall_flags w _ p

/-- What the blocks of a wrapper must have kept. -/
def Framed (w : Wrapper) (r : Bool) (c : Core) : Prop := c.frame = (w.parseError, w.parseError, w.errorReturn, r)

theorem init_frame (w : Wrapper) (c : Core) : (Core.init w c).frame = c.frame := by
  have key : ∀ (l : List (Str × Str)) (c : Core),
      (l.foldl (fun c d => (c.declare d.1 d.2).1) c).frame = c.frame := by
    intro l
    induction l with
    | nil => intro c; rfl
    | cons d l ih => intro c; exact (ih _).trans rfl
  unfold Core.init
  dsimp only
  rw [key]
  split <;> split <;> rfl

theorem start_framed (w : Wrapper) (r : Bool) : Framed w r (startCore w r) := init_frame w _

/-- A reset makes a new wrapper of any state. -/
theorem reset_core (w : Wrapper) (r : Bool) (c : Core) (h : Framed w r c) : c.reset w = startCore w r := by
  obtain ⟨cn, ds, pB, cB, aB, ps, bs, cs, fs, rq⟩ := c
  simp only [Framed, Core.frame, Prod.mk.injEq] at h
  obtain ⟨h1, h2, h3, h4⟩ := h
  unfold Core.reset startCore
  simp only [Block.clear, Family.clear, h1, h2, h3, h4]
  rfl

theorem flushed_frame (c : Core) : c.flushed.frame = c.frame := rfl

/-- `REQUIRES_ASSIGNMENT_CONSTRUCTOR` when the definition is collected. -/
def Wrapper.final (w : Wrapper) : Bool := if w.throws then false else w.requires

/-- A new wrapper whose return handler is as it is when the definition is collected. -/
def ready (w : Wrapper) : St := { core := startCore w w.final }

/-- The state of a wrapper between two uses: new, or after its definition. -/
def Inv (w : Wrapper) (fl : List Str) (made : Bool) (s : St) : Prop :=
  if made then s.core.flags = fl ∧ fl ≠ [] ∧ Framed w w.final s.core
  else ∃ r, (r = w.requires ∨ r = w.final) ∧ s.core = startCore w r

theorem reset_inv (w : Wrapper) {r : Bool} (s : St) (h : Framed w r s.core)
    (hr : r = w.requires ∨ r = w.final) (fl : List Str) : Inv w fl false (reset w s) :=
  ⟨r, hr, reset_core w r s.core h⟩

theorem inv_reset (w : Wrapper) {fl : List Str} {made : Bool} {s : St} (h : Inv w fl made s) :
    Inv w fl false (reset w s) := by
  cases made with
  | true => exact reset_inv w s h.2.2 (Or.inr rfl) fl
  | false =>
    obtain ⟨r, hr, hs⟩ := h
    exact reset_inv w s (by rw [hs]; exact start_framed w r) hr fl

/-- The state in which the collecting phase of a definition starts. -/
theorem generate_from (w : Wrapper) {fl : List Str} (s : St) (h : Inv w fl false s) :
    (if w.throws then reset w { s with core := { s.core with requires := false } } else s).core =
      startCore w w.final := by
  obtain ⟨r, hr, hs⟩ := h
  cases ht : w.throws with
  | true =>
    simp only [if_true]
    have : w.final = false := by simp [Wrapper.final, ht]
    rw [this]
    apply reset_core
    have := start_framed w r
    rw [hs]
    simp only [Framed, Core.frame, Prod.mk.injEq] at this ⊢
    exact ⟨this.1, this.2.1, this.2.2.1, trivial⟩
  | false =>
    have hf : w.final = w.requires := by simp [Wrapper.final, ht]
    simp only [Bool.false_eq_true, if_false]
    rcases hr with rfl | rfl
    · rw [hs, hf]
    · exact hs

/-- What a definition is, in terms of the collecting phase. -/
theorem generate_main (w : Wrapper) (ok : w.Ok) {fl : List Str} (s : St) (h : Inv w fl false s) :
    (generate w s).2 = (match (body w (ready w)) with
      | (_, some e) => .error e
      | (s1, none) => match w.signature s1.core.flags with
        | .error e => .error e
        | .ok args => .ok (args, text s1.core)) ∧
    ((body w (ready w)).2 = none → Inv w (body w (ready w)).1.core.flags true (generate w s).1) ∧
    Framed w w.final (generate w s).1.core := by
  have hk := generate_from w s h
  unfold generate
  dsimp only
  generalize (if w.throws then reset w { s with core := { s.core with requires := false } } else s) = t at hk
  obtain ⟨b1, b2⟩ := body_same w ok t (ready w) hk
  have bf := body_frame w ok t
  have bn := body_flags w ok (ready w)
  have bt : Framed w w.final (body w t).1.core := by
    show (body w t).1.core.frame = _
    rw [bf, hk]; exact start_framed w _
  rcases hb : body w t with ⟨t1, _ | e⟩ <;> rcases hr : body w (ready w) with ⟨s1, _ | e'⟩ <;>
    simp only [hb, hr] at b1 b2 bf bn bt ⊢
  · have hne := bn trivial
    have hfl : t1.core.flushed.flags = s1.core.flags := by rw [← b2]; rfl
    have hfr : Framed w w.final t1.core.flushed := bt
    unfold withSignature getFlags
    simp only [hfl, ne_eq, hne, not_false_eq_true, if_true]
    rcases w.signature s1.core.flags with e | args
    · exact ⟨rfl, fun _ => ⟨hfl, hne, hfr⟩, hfr⟩
    · exact ⟨by rw [b2], fun _ => ⟨hfl, hne, hfr⟩, hfr⟩
  · exact absurd b1 (by simp)
  · exact absurd b1 (by simp)
  · injection b1 with b1; subst b1
    exact ⟨rfl, fun h => absurd h (by simp), bt⟩

theorem start_inv (w : Wrapper) (fl : List Str) : Inv w fl false (start w) := ⟨_, Or.inl rfl, rfl⟩

/-- Success of `generate` is success of the collecting phase. -/
theorem generate_ok (w : Wrapper) (ok : w.Ok) {args t : List Str}
    (h : (generate w (start w)).2 = .ok (args, t)) :
    (body w (ready w)).2 = none ∧ w.signature (body w (ready w)).1.core.flags = .ok args := by
  rw [(generate_main w ok (start w) (start_inv w [])).1] at h
  rcases hr : body w (ready w) with ⟨s1, _ | e⟩ <;> simp only [hr] at h ⊢
  · rcases hsg : w.signature s1.core.flags with e | a <;> rw [hsg] at h
    · cases h
    · injection h with h; injection h with h1 h2; subst h1; exact ⟨trivial, rfl⟩
  · cases h

/-- Without a change of the return handler on generation, the definition is collected from the new state. -/
theorem final_steady (w : Wrapper) (h : ¬ (w.throws = true ∧ w.requires = true)) : w.final = w.requires := by
  unfold Wrapper.final
  cases ht : w.throws with
  | false => rfl
  | true => cases hr : w.requires with
    | false => rfl
    | true => exact absurd ⟨ht, hr⟩ h

/-- Asking a wrapper that is new for its flags. -/
theorem getFlags_new (w : Wrapper) (ok : w.Ok) {fl : List Str} (s : St) (h : Inv w fl false s) :
    Inv w fl false (getFlags w s).1 ∧
    (w.final = w.requires → (getFlags w s).2 = match body w (ready w) with
      | (_, some e) => .error e
      | (s1, none) => .ok s1.core.flags) := by
  obtain ⟨r, hr, hs⟩ := h
  have h0 : s.core.flags = [] := by
    rw [hs]
    have key : ∀ (l : List (Str × Str)) (c : Core),
        (l.foldl (fun c d => (c.declare d.1 d.2).1) c).flags = c.flags := by
      intro l
      induction l with
      | nil => intro c; rfl
      | cons d l ih => intro c; exact (ih _).trans rfl
    unfold startCore Core.init
    dsimp only
    rw [key]
    split <;> split <;> rfl
  have hf : Framed w r (body w s).1.core := by
    show (body w s).1.core.frame = _
    rw [body_frame w ok, hs]; exact start_framed w r
  unfold getFlags
  simp only [h0, ne_eq, not_true_eq_false, if_false]
  constructor
  · rcases hb : body w s with ⟨s1, _ | e⟩ <;> rw [hb] at hf
    · exact reset_inv w s1 hf hr fl
    · exact reset_inv w s1 hf hr fl
  · intro hsame
    have hrr : r = w.final := by rcases hr with h | h <;> simp [h, hsame]
    obtain ⟨b1, b2⟩ := body_same w ok s (ready w) (by rw [hs, hrr]; rfl)
    rcases hb : body w s with ⟨s1, _ | e⟩ <;> rcases hq : body w (ready w) with ⟨q1, _ | e'⟩ <;>
      simp only [hb, hq] at b1 b2 ⊢
    · rw [b2]
    · exact absurd b1 (by simp)
    · exact absurd b1 (by simp)
    · injection b1 with b1; rw [b1]

/-- Every use keeps the error returns, and the return handler if it is not changed on generation. -/
theorem step_framed (w : Wrapper) (ok : w.Ok) (hst : ¬ (w.throws = true ∧ w.requires = true)) (s : St) (ev : Event)
    (h : Framed w w.requires s.core) : Framed w w.requires (step w s ev).1.core := by
  have hreset : ∀ s : St, Framed w w.requires s.core → Framed w w.requires (reset w s).core := by
    intro s hs
    show Framed w w.requires (s.core.reset w)
    rw [reset_core w _ _ hs]; exact start_framed w _
  have hbody : ∀ s : St, Framed w w.requires s.core → Framed w w.requires (body w s).1.core := by
    intro s hs
    show (body w s).1.core.frame = _
    rw [body_frame w ok]; exact hs
  have hflags : ∀ s : St, Framed w w.requires s.core → Framed w w.requires (getFlags w s).1.core := by
    intro s hs
    have := hbody s hs
    unfold getFlags
    split
    · exact hs
    · rcases hb : body w s with ⟨s1, _ | e⟩ <;> rw [hb] at this <;> exact hreset s1 this
  have hsig : ∀ (s : St) (t : List Str), Framed w w.requires s.core →
      Framed w w.requires (withSignature w s t).1.core := by
    intro s t hs
    have := hflags s hs
    unfold withSignature
    rcases hg : getFlags w s with ⟨s1, e | fl⟩ <;> rw [hg] at this
    · exact this
    · simp only
      rcases w.signature fl with e | a <;> exact this
  have hgen : ∀ s : St, Framed w w.requires s.core → Framed w w.requires (generate w s).1.core := by
    intro s hs
    unfold generate
    dsimp only
    have h0 : Framed w w.requires
        (if w.throws then reset w { s with core := { s.core with requires := false } } else s).core := by
      cases ht : w.throws with
      | false => simp only [Bool.false_eq_true, if_false]; exact hs
      | true =>
        have hq : w.requires = false := by cases hr : w.requires <;> simp_all
        simp only [if_true]
        apply hreset
        simp only [Framed, Core.frame, Prod.mk.injEq, hq] at hs ⊢
        exact ⟨hs.1, hs.2.1, hs.2.2.1, trivial⟩
    generalize (if w.throws then reset w { s with core := { s.core with requires := false } } else s) = t at h0
    have := hbody t h0
    rcases hb : body w t with ⟨s1, _ | e⟩ <;> rw [hb] at this
    · exact hsig _ _ this
    · exact this
  cases ev with
  | flags =>
    have := hflags s h
    simp only [step]
    rcases hg : getFlags w s with ⟨s1, e | f⟩ <;> rw [hg] at this <;> exact this
  | declare =>
    have := hgen _ (hreset s h)
    simp only [step, Trial.declare]
    rcases hg : generate w (reset w s) with ⟨s1, e | f⟩ <;> rw [hg] at this
    · exact this
    · exact hreset s1 this
  | define =>
    have := hgen s h
    simp only [step]
    rcases hg : generate w s with ⟨s1, e | f⟩ <;> rw [hg] at this <;> exact this
  | reset => exact hreset s h

/-! ## Theorems -/

/-- C127: if a wrapper, generated once, has the C parameters `args` and the text `t`, then whatever has been
done with it before - its flags asked for any number of times, before and after the definition, forward
declarations written, the whole started afresh - every definition has these parameters and this text, every
declaration these parameters, and every answer about the flags is the one the parameters belong to.

Missing: the flags where exceptions are caught and the return handler is not yet changed; definitions written
twice (counterexample), handlers shared with another wrapper (counterexample). -/
theorem C127_agree_partial (w : Wrapper) (ok : w.Ok) {args t : List Str}
    (once : (generate w (start w)).2 = .ok (args, t)) :
    ∃ fl, w.signature fl = .ok args ∧ fl ≠ [] ∧
      ∀ h, Orderly false h → ∀ p ∈ answers w (start w) h,
        match p.1 with
        | .flags => ¬ (w.throws = true ∧ w.requires = true) → p.2 = .flags fl
        | .declare => p.2 = .declared args
        | .define => p.2 = .defined args t
        | .reset => p.2 = .done := by
  obtain ⟨hb, hsg⟩ := generate_ok w ok once
  refine ⟨(body w (ready w)).1.core.flags, hsg, body_flags w ok _ hb, ?_⟩
  have hdef : ∀ (fl : List Str) (s : St), Inv w fl false s → (generate w s).2 = .ok (args, t) := by
    intro fl s hs
    rw [(generate_main w ok s hs).1, ← (generate_main w ok (start w) (start_inv w [])).1]
    exact once
  have key : ∀ h (made : Bool) (s : St), Orderly made h → Inv w (body w (ready w)).1.core.flags made s →
      ∀ p ∈ answers w s h,
        match p.1 with
        | .flags => ¬ (w.throws = true ∧ w.requires = true) →
            p.2 = .flags (body w (ready w)).1.core.flags
        | .declare => p.2 = .declared args
        | .define => p.2 = .defined args t
        | .reset => p.2 = .done := by
    intro h
    induction h with
    | nil => intro _ _ _ _ p hp; cases hp
    | cons ev es ih =>
      intro made s ho hi p hp
      cases ev with
      | flags =>
        have hstep : Inv w (body w (ready w)).1.core.flags made (step w s .flags).1 ∧
            (¬ (w.throws = true ∧ w.requires = true) →
              (step w s .flags).2 = .flags (body w (ready w)).1.core.flags) := by
          cases made with
          | true =>
            have : getFlags w s = (s, .ok (body w (ready w)).1.core.flags) := by
              unfold getFlags
              rw [hi.1]; simp only [ne_eq, hi.2.1, not_false_eq_true, if_true]
            simp only [step, this]
            exact ⟨hi, fun _ => trivial⟩
          | false =>
            obtain ⟨g1, g2⟩ := getFlags_new w ok s hi
            constructor
            · show Inv w _ false (match getFlags w s with
                | (s1, .ok fl) => (s1, Answer.flags fl)
                | (s1, .error e) => (s1, Answer.failed e)).1
              rcases hg : getFlags w s with ⟨s1, e | f⟩ <;> rw [hg] at g1 <;> exact g1
            · intro hst
              have g2 := g2 (final_steady w hst)
              rcases hq : body w (ready w) with ⟨q1, _ | e'⟩
              · rw [hq] at g2
                show (match getFlags w s with
                | (s1, .ok fl) => (s1, Answer.flags fl)
                | (s1, .error e) => (s1, Answer.failed e)).2 = _
                rcases hg : getFlags w s with ⟨s1, e | f⟩ <;> rw [hg] at g2
                · cases g2
                · injection g2 with g2; rw [g2]
              · rw [hq] at hb; cases hb
        rcases List.mem_cons.1 hp with rfl | hp
        · exact hstep.2
        · exact ih made _ ho hstep.1 p hp
      | declare =>
        have hr := inv_reset w hi
        have hd := hdef _ _ hr
        have hm := (generate_main w ok _ hr).2.2
        have hstep : Inv w (body w (ready w)).1.core.flags false (step w s .declare).1 ∧
            (step w s .declare).2 = .declared args := by
          simp only [step, Trial.declare]
          rcases hg : generate w (reset w s) with ⟨s1, e | ⟨a, b⟩⟩ <;> rw [hg] at hd hm
          · cases hd
          · injection hd with hd; injection hd with h1 h2; subst h1
            exact ⟨reset_inv w s1 hm (Or.inr rfl) _, rfl⟩
        rcases List.mem_cons.1 hp with rfl | hp
        · exact hstep.2
        · exact ih false _ ho hstep.1 p hp
      | define =>
        obtain ⟨hmade, ho⟩ := ho
        subst hmade
        have hd := hdef _ _ hi
        have hm := (generate_main w ok s hi).2.1 hb
        have hstep : Inv w (body w (ready w)).1.core.flags true (step w s .define).1 ∧
            (step w s .define).2 = .defined args t := by
          simp only [step]
          rcases hg : generate w s with ⟨s1, e | ⟨a, b⟩⟩ <;> rw [hg] at hd hm
          · cases hd
          · injection hd with hd; injection hd with h1 h2; subst h1 h2
            exact ⟨hm, rfl⟩
        rcases List.mem_cons.1 hp with rfl | hp
        · exact hstep.2
        · exact ih true _ ho hstep.1 p hp
      | reset =>
        rcases List.mem_cons.1 hp with rfl | hp
        · rfl
        · exact ih false _ ho (inv_reset w hi) p hp
  intro h ho
  exact key h false (start w) ho (start_inv w _)

/-- Histories of a wrapper that cannot be generated: it is asked for its flags, or its definition written,
only when new or started afresh (a declaration starts afresh by itself). -/
def Sound : (dirty : Bool) → List Event → Prop
  | _, [] => True
  | dirty, .flags :: es => dirty = false ∧ Sound false es
  | dirty, .define :: es => dirty = false ∧ Sound true es
  | _, .declare :: es => Sound true es
  | _, .reset :: es => Sound false es

/-- C127 (failures): a wrapper that cannot be generated fails every time with the same exception. -/
theorem C127_failed_partial (w : Wrapper) (ok : w.Ok) (hst : ¬ (w.throws = true ∧ w.requires = true))
    {e : PyErr} (once : (getFlags w (start w)).2 = .error e) (h : List Event) (ho : Sound false h) :
    ∀ p ∈ answers w (start w) h, p.1 ≠ .reset → p.2 = .failed e := by
  have hfin := final_steady w hst
  have hb : (body w (ready w)).2 = some e := by
    have := (getFlags_new w ok (start w) (start_inv w [])).2 hfin
    rw [once] at this
    rcases hq : body w (ready w) with ⟨q1, _ | e'⟩ <;> rw [hq] at this
    · cases this
    · injection this with this; rw [this]
  have hdef : ∀ s : St, Inv w [] false s → (generate w s).2 = .error e := by
    intro s hs
    rw [(generate_main w ok s hs).1]
    rcases hq : body w (ready w) with ⟨q1, _ | e'⟩ <;> rw [hq] at hb
    · cases hb
    · injection hb with hb; rw [hb]
  have hflag : ∀ s : St, Inv w [] false s → (getFlags w s).2 = .error e := by
    intro s hs
    rw [(getFlags_new w ok s hs).2 hfin]
    rcases hq : body w (ready w) with ⟨q1, _ | e'⟩ <;> rw [hq] at hb
    · cases hb
    · injection hb with hb; rw [hb]
  have key : ∀ h (dirty : Bool) (s : St), Sound dirty h →
      (if dirty then Framed w w.final s.core else Inv w [] false s) →
      ∀ p ∈ answers w s h, p.1 ≠ .reset → p.2 = .failed e := by
    intro h
    induction h with
    | nil => intro _ _ _ _ p hp; cases hp
    | cons ev es ih =>
      intro dirty s ho hi p hp hne
      have hfr : Framed w w.final s.core := by
        cases dirty with
        | true => exact hi
        | false =>
          obtain ⟨r, hr, hs⟩ := hi
          have : r = w.final := by rcases hr with h | h <;> simp [h, hfin]
          rw [hs, this]; exact start_framed w _
      have hre : Inv w [] false (reset w s) := reset_inv w s hfr (Or.inr rfl) []
      cases ev with
      | flags =>
        obtain ⟨hd, ho⟩ := ho
        subst hd
        have h1 := hflag s hi
        have h2 := (getFlags_new (fl := []) w ok s hi).1
        have hstep : Inv w [] false (step w s .flags).1 ∧ (step w s .flags).2 = .failed e := by
          simp only [step]
          rcases hg : getFlags w s with ⟨s1, e' | f⟩ <;> rw [hg] at h1 h2
          · injection h1 with h1; subst h1; exact ⟨h2, rfl⟩
          · cases h1
        rcases List.mem_cons.1 hp with rfl | hp
        · exact hstep.2
        · exact ih false _ ho hstep.1 p hp hne
      | declare =>
        have h1 := hdef _ hre
        have h2 := (generate_main w ok _ hre).2.2
        have hstep : Framed w w.final (step w s .declare).1.core ∧ (step w s .declare).2 = .failed e := by
          simp only [step, Trial.declare]
          rcases hg : generate w (reset w s) with ⟨s1, e' | f⟩ <;> rw [hg] at h1 h2
          · injection h1 with h1; subst h1; exact ⟨h2, rfl⟩
          · cases h1
        rcases List.mem_cons.1 hp with rfl | hp
        · exact hstep.2
        · exact ih true _ ho hstep.1 p hp hne
      | define =>
        obtain ⟨hd, ho⟩ := ho
        subst hd
        have h1 := hdef s hi
        have h2 := (generate_main (fl := []) w ok s hi).2.2
        have hstep : Framed w w.final (step w s .define).1.core ∧ (step w s .define).2 = .failed e := by
          simp only [step]
          rcases hg : generate w s with ⟨s1, e' | f⟩ <;> rw [hg] at h1 h2
          · injection h1 with h1; subst h1; exact ⟨h2, rfl⟩
          · cases h1
        rcases List.mem_cons.1 hp with rfl | hp
        · exact hstep.2
        · exact ih true _ ho hstep.1 p hp hne
      | reset =>
        rcases List.mem_cons.1 hp with rfl | hp
        · exact absurd rfl hne
        · exact ih false _ ho hre p hp hne
  exact key h false (start w) ho (start_inv w [])

/-- C127: however often a wrapper has been tried out or used, and however that ended, once it is started
afresh it is as new (but for what its handlers remember, which no step looks at). -/
theorem C127_afresh (w : Wrapper) (ok : w.Ok) (hst : ¬ (w.throws = true ∧ w.requires = true)) (s : St)
    (used : Relation.ReflTransGen (fun a b => ∃ ev, b = (step w a ev).1) (start w) s) :
    (reset w s).core = (start w).core := by
  suffices h : Framed w w.requires s.core from reset_core w _ _ h
  induction used with
  | refl => exact start_framed w _
  | tail _ hstep ih =>
    obtain ⟨ev, rfl⟩ := hstep
    exact step_framed w ok hst _ ev ih

/-! ## Handlers that fit -/

theorem KeepsFlags.lift {f : Core → Core × Option PyErr} (hf : ∀ c, (f c).1.flags = c.flags) :
    KeepsFlags (lift f) := fun s => hf s.core

theorem intParam_fits (n : Str) (K : Nat → Prop) : Fits K K (intParam n) := by
  refine fits_lift (fun c => ?_) K
  have h0 := declare_frame c "int".toList n none none
  split <;> rename_i h <;> rw [h] at h0 <;> exact h0

theorem classParam_fits (k : Nat) (p t n : Str) (K : Nat → Prop) :
    Fits K (fun j => j = k ∨ K j) (classParam k p t n) := by
  constructor
  · intro a b ⟨hc, hn⟩
    unfold classParam
    rw [hc]
    rcases b.core.declare (p ++ ['*']) n with ⟨c1, e | v⟩
    · exact ⟨rfl, rfl, fun h => absurd h (by simp)⟩
    · refine ⟨rfl, rfl, fun _ => ⟨rfl, fun j hj => ?_⟩⟩
      show (if j = k then some v else a.names j) = (if j = k then some v else b.names j)
      split
      · rfl
      · rcases hj with h | h
        · contradiction
        · exact hn j h
  · intro s
    unfold classParam
    have h0 := declare_frame s.core (p ++ ['*']) n none none
    rcases h : s.core.declare (p ++ ['*']) n with ⟨c1, e | v⟩ <;> rw [h] at h0 <;> exact h0

theorem callFunction_fits (fn t : Str) (K : Nat → Prop) : Fits K K (callFunction fn t) :=
  fits_lift (fun c => block_frame c _) K

theorem intReturn_fits (K : Nat → Prop) : Fits K K intReturn := fits_lift (fun _ => rfl) K

theorem noHook_fits (K : Nat → Prop) : Fits K K noHook := fits_lift (fun _ => rfl) K

theorem wardHook_fits (i j : Nat) (K : Nat → Prop) (hi : K i) (hj : K j) : Fits K K (wardHook i j) := by
  constructor
  · intro a b ⟨hc, hn⟩
    unfold wardHook
    rw [hc, hn i hi, hn j hj]
    rcases b.names i with _ | x <;> rcases b.names j with _ | y
    · exact ⟨rfl, hc, fun h => absurd h (by simp)⟩
    · exact ⟨rfl, hc, fun h => absurd h (by simp)⟩
    · exact ⟨rfl, hc, fun h => absurd h (by simp)⟩
    · simp only
      rcases b.core.declare "PyObject*".toList "wards".toList with ⟨c1, e | v⟩
      · exact ⟨rfl, rfl, fun _ => ⟨rfl, hn⟩⟩
      · exact ⟨rfl, rfl, fun _ => ⟨rfl, hn⟩⟩
  · intro s
    unfold wardHook
    rcases s.names i with _ | x <;> rcases s.names j with _ | y <;> rfl

theorem wardHook_flags (i j : Nat) : KeepsFlags (wardHook i j) := by
  intro s
  unfold wardHook
  rcases s.names i with _ | x <;> rcases s.names j with _ | y <;> rfl

/-- Functions with parameters of classes and integers, returning an integer, one of whose class parameters
keeps another alive: all of them fit (arbitrary names and types, any number of parameters). -/
theorem C127_functions (ps : List (Option (Str × Str) × Str)) (fn : Str) (ward : Option (Nat × Nat))
    (hward : ∀ i j, ward = some (i, j) →
      (∃ c n, ps[i]? = some (some c, n)) ∧ (∃ c n, ps[j]? = some (some c, n))) (w : Wrapper)
    (hp : w.params = ps.mapIdx (fun k p =>
      match p.1 with
      | some (pystruct, pytype) => classParam (k + 1) pystruct pytype p.2
      | none => intParam p.2))
    (hc : w.callStage = callFunction fn w.retType) (hb : w.hookBefore = noHook)
    (hr : w.ret = some intReturn)
    (hh : w.hookReturn = match ward with | some (i, j) => wardHook (i + 1) (j + 1) | none => noHook) : w.Ok := by
  have chain : ∀ (l : List (Option (Str × Str) × Str)) (o : Nat) (K : Nat → Prop),
      ∃ K', Chained K (l.mapIdx (fun k p =>
        match p.1 with
        | some (pystruct, pytype) => classParam (k + o + 1) pystruct pytype p.2
        | none => intParam p.2)) K' ∧ (∀ k, K k → K' k) ∧
        ∀ i c n, l[i]? = some (some c, n) → K' (i + o + 1) := by
    intro l
    induction l with
    | nil => intro o K; exact ⟨K, .nil K, fun _ h => h, fun i c n h => by simp at h⟩
    | cons p l ih =>
      intro o K
      obtain ⟨p1, pn⟩ := p
      rw [List.mapIdx_cons]
      cases p1 with
      | none =>
        obtain ⟨K', h1, h2, h3⟩ := ih (o + 1) K
        refine ⟨K', .cons (intParam_fits _ K) ?_, h2, ?_⟩
        · simpa only [Nat.add_right_comm _ 1 o, Nat.add_assoc, Nat.add_comm, Nat.add_left_comm] using h1
        · intro i c n h
          cases i with
          | zero => simp at h
          | succ i =>
            have := h3 i c n (by simpa using h)
            rwa [show i + 1 + o + 1 = i + (o + 1) + 1 by omega]
      | some pc =>
        obtain ⟨ps, pt⟩ := pc
        obtain ⟨K', h1, h2, h3⟩ := ih (o + 1) (fun j => j = o + 1 ∨ K j)
        refine ⟨K', .cons (K' := fun j => j = o + 1 ∨ K j) ?_ ?_, fun k hk => h2 k (Or.inr hk), ?_⟩
        · simpa only [Nat.zero_add] using classParam_fits (o + 1) ps pt pn K
        · simpa only [Nat.add_right_comm _ 1 o, Nat.add_assoc, Nat.add_comm, Nat.add_left_comm] using h1
        · intro i c n h
          cases i with
          | zero => rw [Nat.zero_add]; exact h2 _ (Or.inl rfl)
          | succ i =>
            have := h3 i c n (by simpa using h)
            rwa [show i + 1 + o + 1 = i + (o + 1) + 1 by omega]
  obtain ⟨K, h1, _, h3⟩ := chain ps 0 (fun _ => False)
  refine ⟨⟨K, K, ?_, ?_, ?_, ?_, ?_⟩, ?_, ?_⟩
  · rw [hp]; simpa only [Nat.add_zero] using h1
  · rw [hb]; exact noHook_fits K
  · rw [hc]; exact callFunction_fits _ _ K
  · rw [hh]
    cases ward with
    | none => exact noHook_fits K
    | some ij =>
      obtain ⟨i, j⟩ := ij
      obtain ⟨⟨c, n, hi⟩, ⟨c', n', hj⟩⟩ := hward i j rfl
      exact wardHook_fits _ _ K (h3 i c n hi) (h3 j c' n' hj)
  · rw [hr]; exact intReturn_fits K
  · rw [hh]
    cases ward with
    | none => exact fun _ => rfl
    | some ij => exact wardHook_flags _ _
  · intro g hg
    rw [hr] at hg; cases hg
    exact fun _ => rfl

/-! ## Examples and counterexamples -/

/-- `int keep(A *&a, A *&b, int n)`-like function whose second parameter is kept alive by its first. -/
def keepFn (throws requires : Bool) : Wrapper where
  params := [classParam 1 "PyA".toList "PyA_Type".toList "a".toList,
    classParam 2 "PyA".toList "PyA_Type".toList "b".toList, intParam "n".toList]
  callStage := callFunction "keep".toList "int".toList
  hookBefore := noHook
  hookReturn := wardHook 1 2
  ret := some intReturn
  retType := "int".toList
  throws := throws
  requires := requires
  parseError := "return NULL;".toList
  errorReturn := "return NULL;".toList
  signature := fun fl => .ok (Wrap.functionArgs fl none [])

theorem keepFn_ok (t r : Bool) : (keepFn t r).Ok :=
  C127_functions [(some ("PyA".toList, "PyA_Type".toList), "a".toList),
    (some ("PyA".toList, "PyA_Type".toList), "b".toList), (none, "n".toList)] "keep".toList (some (0, 1))
    (by
      intro i j h
      injection h with h; injection h with h1 h2; subst h1 h2
      exact ⟨⟨_, _, rfl⟩, ⟨_, _, rfl⟩⟩) _ rfl rfl rfl rfl rfl

/-- The text of `keepFn`. -/
def keepText : List Str := ["PyObject *py_retval;", "int retval;", "PyA *a;", "PyA *b;", "int n;",
  "const char *keywords[] = {\"a\", \"b\", \"n\", NULL};", "PyObject *wards;", "",
  "if (!PyArg_ParseTupleAndKeywords(args, kwargs, (char *) \"O!O!i\", (char **) keywords, &PyA_Type, &a, &PyA_Type, &b, &n)) {",
  "    return NULL;", "}",
  "retval = keep(*((PyA *) a)->obj, *((PyA *) b)->obj, n);",
  "wards = PyObject_GetAttrString(((PyObject *) a), (char *) \"__wards__\");"].map String.toList

example : (generate (keepFn false false) (start (keepFn false false))).2.toOption.map (fun r => r.2.take 13) =
    some keepText := by decide +kernel

/-- The flags are asked for, the definition is written, then a forward declaration, then the flags again: all
as for a wrapper generated once. -/
example : (answers (keepFn false false) (start (keepFn false false)) [.flags, .define, .declare, .flags, .define]).map
    (fun p => match p.2 with
      | .flags fl => fl.length
      | .declared a => a.length
      | .defined _ t => t.length
      | .failed _ => 100
      | .done => 200) = [2, 23, 3, 2, 23] := by decide +kernel

/-- C127 fails for a definition written twice: the second has other variables and parses the arguments
twice.  (This is why `Orderly` wants a fresh start in between.) -/
theorem C127_twice_counterexample :
    (match (answers (keepFn false false) (start (keepFn false false)) [.define, .define]).map (·.2) with
      | [.defined _ a, .defined _ b] => (a.take 5, b.take 8)
      | _ => ([], [])) =
    (keepText.take 5, ["PyA *a2;", "PyA *b2;", "int n2;",
      "const char *keywords2[] = {\"a\", \"b\", \"n\", \"a\", \"b\", \"n\", NULL};", "PyObject *wards2;", "",
      "if (!PyArg_ParseTupleAndKeywords(args, kwargs, (char *) \"O!O!iO!O!i\", (char **) keywords2, &PyA_Type, &a, &PyA_Type, &b, &n, &PyA_Type, &a2, &PyA_Type, &b2, &n2)) {",
      "    return NULL;"].map String.toList) := by decide +kernel

/-- C127 fails for wrappers that share a return handler (a method and the wrapper that calls its parent
implementation, cppmethod.py:884-885): when one that catches exceptions has been generated, the handler is
changed (function.py:242, cppmethod.py:389) and the other one is generated with a declaration of its result
without a value, which a class without default constructor does not have. -/
theorem C127_shared_counterexample :
    let method := keepFn true true
    let caller := keepFn false true
    let after := (step method (start method) .define).1.core.requires
    (generate caller (start caller)).2.toOption.map (fun r => (r.2.take 2, r.2[10]?)) =
      some (["PyObject *py_retval;", "PyA *a;"].map String.toList,
        some "int retval = keep(*((PyA *) a)->obj, *((PyA *) b)->obj, n);".toList) ∧
    after = false ∧
    (generate caller (reset caller { start caller with core := { (start caller).core with requires := after } })).2.toOption.map
      (fun r => (r.2.take 2, r.2[11]?)) =
      some (["PyObject *py_retval;", "int retval;"].map String.toList,
        some "retval = keep(*((PyA *) a)->obj, *((PyA *) b)->obj, n);".toList) := by decide +kernel

/-- A parameter handler that is not implemented: every use fails. -/
example : (answers { keepFn false false with params := [fun s => (s, some .notImplementedError)] }
    (start (keepFn false false)) [.flags, .declare, .reset, .flags, .define]).map (·.2) =
    [.failed .codeGenerationError, .failed .codeGenerationError, .done, .failed .codeGenerationError,
      .failed .codeGenerationError] := by decide +kernel

end Verif.Trial
