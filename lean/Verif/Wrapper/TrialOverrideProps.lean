import Verif.Wrapper.TrialProps
import Verif.Wrapper.TrialOverride

/-!
# C127 for overrides of virtual methods
-/
namespace Verif.Trial
open Verif Verif.CodeBlock Verif.DeclScope Verif.Params

/-! ## Specification -/

/-- A handler of an override: it does not look at what handlers have remembered, and leaves the error returns
alone. -/
def Plain (g : Stage) : Prop := Fits (fun _ => False) (fun _ => False) g

structure Override.Ok (w : Override) : Prop where
  params : ∀ g ∈ w.params, Plain g
  ret : Plain w.ret

/-- The error return a trial may leave behind. -/
def Left (w : Override) (e : Str) : Prop := e = w.error ∨ (w.isVoid = false ∧ w.leave = some e)

/-! ## Lemmas -/

theorem framed_lift {f : Core → Core × Option PyErr} (hf : ∀ c, (f c).1.frame = c.frame) : Plain (lift f) :=
  fits_lift hf _

theorem allStages_plain (gs : List Stage) (h : ∀ g ∈ gs, Plain g) : Plain (allStages gs) := by
  induction gs with
  | nil => exact framed_lift (fun _ => rfl)
  | cons g gs ih =>
    exact Fits.andThen (h g (List.mem_cons_self ..)) (ih (fun g' hg => h g' (List.mem_cons_of_mem _ hg)))

theorem leaveOverride_frame (w : Override) (c : Core) : (leaveOverride w c).1.frame = c.frame := by
  unfold leaveOverride
  dsimp only
  generalize (if w.isVoid then
      (match w.leave with | some x => [Op.writeCode 1 ("    ".toList ++ x)] | none => []) ++
        [.indent 1 4, .writeCleanup 1, .writeCode 1 "return;".toList, .unindent 1]
    else [.indent 1 4, .writeCleanup 1, .writeCode 1 c.callB.errorReturn, .unindent 1]) = ops
  split
  · next c1 e heq =>
    have h0 := blocks_frame c (ops ++ [.writeCode 1 ['}']])
    rw [heq] at h0
    exact h0
  · next c1 heq =>
    have h0 := blocks_frame c (ops ++ [.writeCode 1 ['}']])
    rw [heq] at h0
    have h1 := declare_frame c1 (w.className ++ ['*']) "self_obj_before".toList none none
    split
    · next c2 e heq1 => rw [heq1] at h1; exact h1.trans h0
    · next c2 v heq1 => rw [heq1] at h1; exact (blocks_frame c2 _).trans (h1.trans h0)

theorem declareResults_frame (w : Override) (c : Core) : (declareResults w c).1.frame = c.frame := by
  unfold declareResults
  have h0 := declare_frame c "PyObject*".toList "py_retval".toList none none
  rcases e0 : c.declare "PyObject*".toList "py_retval".toList with ⟨c1, e | v⟩ <;> rw [e0] at h0
  · exact h0
  · dsimp only
    split
    · exact h0
    · split
      · have h1 := declare_frame c1 w.retType "retval".toList none none
        rcases e1 : c1.declare w.retType "retval".toList with ⟨c2, e | v⟩ <;> rw [e1] at h1 <;> exact h1.trans h0
      · exact h0

theorem parseResult_frame (w : Override) (c : Core) : (parseResult w c).1.frame = c.frame := by
  unfold parseResult
  split
  · rfl
  · exact blocks_frame _ _

theorem askPython_frame (w : Override) (c : Core) : (askPython w c).1.frame = c.frame := by
  unfold askPython
  have h0 := declare_frame c "PyObject*".toList "py_method".toList none none
  rcases e0 : c.declare "PyObject*".toList "py_method".toList with ⟨c1, e | v⟩ <;> rw [e0] at h0
  · exact h0
  · exact (blocks_frame _ _).trans h0

theorem restOverride_plain (w : Override) (ok : w.Ok) : Plain (restOverride w) :=
  (framed_lift (leaveOverride_frame w)).andThen <| (framed_lift (declareResults_frame w)).andThen <|
    (allStages_plain _ ok.params).andThen <| (framed_lift (fun c => blocks_frame c _)).andThen <|
      Fits.andThen ok.ret (framed_lift (parseResult_frame w))

theorem askPython_withError (w : Override) (c : Core) (e : Str) :
    askPython w (c.withError e) = ((askPython w c).1.withError e, (askPython w c).2) := by
  have hd : (c.withError e).declare "PyObject*".toList "py_method".toList =
      ((c.declare "PyObject*".toList "py_method".toList).1.withError e,
        (c.declare "PyObject*".toList "py_method".toList).2) := rfl
  unfold askPython
  rw [hd]
  rcases c.declare "PyObject*".toList "py_method".toList with ⟨c1, er | v⟩
  · rfl
  · rfl

theorem gilCode_withError (w : Override) (c : Core) (e : Str) :
    gilCode w (c.withError e) = (gilCode w c).withError e := by
  unfold gilCode
  split
  · rfl
  · rfl

theorem gilCode_frame (w : Override) (c : Core) : (gilCode w c).frame = c.frame := by
  unfold gilCode
  split
  · rfl
  · exact (blocks_frame _ _).trans rfl

theorem fresh_frame (w : Override) (e : Str) : (freshOverride w e).frame = ([], e, e, false) :=
  gilCode_frame w _

theorem fresh_withError (w : Override) (e e' : Str) : (freshOverride w e).withError e' = freshOverride w e' :=
  (gilCode_withError w _ e').symm

/-- A reset makes a new override of any state, but for the error return. -/
theorem resetOverride_core (w : Override) (s : St) (e : Str) (h : s.core.frame = ([], e, e, false)) :
    (resetOverride w s).core = freshOverride w e := by
  obtain ⟨⟨cn, ds, pB, cB, aB, ps, bs, cs, fs, rq⟩, nm⟩ := s
  simp only [Core.frame, Prod.mk.injEq] at h
  obtain ⟨_, h2, h3, h4⟩ := h
  unfold resetOverride freshOverride
  simp only [Block.clear, Family.clear, h2, h3, h4, if_true]

/-- The collecting phase does not depend on the error return left behind. -/
theorem bodyOverride_same (w : Override) (ok : w.Ok) (s t : St) (e e' : Str) (he : Left w e) (he' : Left w e')
    (hs : s.core = freshOverride w e) (ht : t.core = freshOverride w e') :
    (bodyOverride w s).2 = (bodyOverride w t).2 ∧
    ((bodyOverride w s).2 = none → (bodyOverride w s).1.core = (bodyOverride w t).1.core) ∧
    ∃ e2, Left w e2 ∧ (bodyOverride w s).1.core.frame = ([], e2, e2, false) := by
  have hrel : t.core = s.core.withError e' := by rw [hs, ht, fresh_withError]
  have ha := askPython_withError w s.core e'
  rw [← hrel] at ha
  have hfr : (askPython w s.core).1.frame = ([], e, e, false) := by
    rw [askPython_frame, hs, fresh_frame]
  unfold bodyOverride Stage.andThen lift
  rcases h1 : askPython w s.core with ⟨c1, _ | er⟩
  · rw [h1] at ha hfr
    rw [ha]
    simp only
    have hset : (setError w c1).1 = (setError w (c1.withError e')).1 ∧ ∃ e2, Left w e2 ∧
        (setError w c1).1.frame = ([], e2, e2, false) := by
      unfold setError
      cases hv : w.isVoid with
      | true =>
        have a : e = w.error := by rcases he with h | ⟨h, _⟩ <;> simp_all
        have b : e' = w.error := by rcases he' with h | ⟨h, _⟩ <;> simp_all
        refine ⟨?_, e, he, hfr⟩
        simp only [Core.frame, Prod.mk.injEq] at hfr
        show c1 = c1.withError e'
        rw [b, ← a]
        obtain ⟨cn, ds, pB, cB, aB, ps, bs, cs, fs, rq⟩ := c1
        obtain ⟨_, hc, ha', _⟩ := hfr
        cases cB; cases aB
        simp only at hc ha'
        subst hc
        simp only [Core.withError]
        rw [ha']
      | false =>
        cases hl : w.leave with
        | none =>
          have a : e = w.error := by rcases he with h | ⟨_, h⟩ <;> simp_all
          have b : e' = w.error := by rcases he' with h | ⟨_, h⟩ <;> simp_all
          refine ⟨?_, e, he, hfr⟩
          simp only [Core.frame, Prod.mk.injEq] at hfr
          show c1 = c1.withError e'
          rw [b, ← a]
          obtain ⟨cn, ds, pB, cB, aB, ps, bs, cs, fs, rq⟩ := c1
          obtain ⟨_, hc, ha', _⟩ := hfr
          cases cB; cases aB
          simp only at hc ha'
          subst hc
          simp only [Core.withError]
          rw [ha']
        | some x =>
          refine ⟨rfl, x, Or.inr ⟨hv, hl⟩, ?_⟩
          simp only [Core.frame, Prod.mk.injEq] at hfr
          obtain ⟨hp, _, _, hq⟩ := hfr
          simp only [Core.withError, Core.frame, hp, hq]
    obtain ⟨hs1, e2, he2, hf2⟩ := hset
    obtain ⟨r1, r2, _⟩ := (restOverride_plain w ok).same { s with core := (setError w c1).1 }
      { t with core := (setError w (c1.withError e')).1 } ⟨hs1, fun _ h => h.elim⟩
    exact ⟨r1, fun _ => r2, e2, he2, ((restOverride_plain w ok).frame _).trans hf2⟩
  · rw [h1] at ha hfr
    rw [ha]
    exact ⟨rfl, fun h => absurd h (by simp), e, he, hfr⟩

theorem generateOverride_same (w : Override) (ok : w.Ok) (s : St) (e : Str) (he : Left w e)
    (hs : s.core = freshOverride w e) :
    (generateOverride w s).2 = (generateOverride w (startOverride w)).2 ∧
    ∃ e2, Left w e2 ∧ (generateOverride w s).1.core.frame = ([], e2, e2, false) := by
  obtain ⟨b1, b2, e2, he2, hf⟩ := bodyOverride_same w ok s (startOverride w) e w.error he (Or.inl rfl) hs rfl
  unfold generateOverride
  rcases h1 : bodyOverride w s with ⟨s1, _ | er⟩ <;> rcases h2 : bodyOverride w (startOverride w) with ⟨t1, _ | er'⟩ <;>
    simp only [h1, h2] at b1 b2 hf ⊢
  · exact ⟨by rw [b2 trivial], e2, he2, hf⟩
  · exact absurd b1 (by simp)
  · exact absurd b1 (by simp)
  · injection b1 with b1; subst b1; exact ⟨rfl, e2, he2, hf⟩

/-! ## Theorems -/

/-- C127 (overrides): after any number of trials, successful or not, the override of a virtual method has the
text - or fails with the exception - of one generated at once, and so has every trial.

Missing: handlers shared with a method that catches exceptions (C127_shared_counterexample). -/
theorem C127_overrides_partial (w : Override) (ok : w.Ok) (n : Nat) :
    (generateOverride w (afterTrials w n)).2 = (generateOverride w (startOverride w)).2 ∧
    (tryOverride w (afterTrials w n)).2 = (generateOverride w (startOverride w)).2 := by
  have inv : ∀ n, ∃ e, Left w e ∧ (afterTrials w n).core = freshOverride w e := by
    intro n
    induction n with
    | zero => exact ⟨w.error, Or.inl rfl, rfl⟩
    | succ n ih =>
      obtain ⟨e, he, hs⟩ := ih
      have hr := resetOverride_core w (afterTrials w n) e (by rw [hs, fresh_frame])
      obtain ⟨_, e2, he2, hf⟩ := generateOverride_same w ok _ e he hr
      exact ⟨e2, he2, resetOverride_core w _ e2 hf⟩
  obtain ⟨e, he, hs⟩ := inv n
  have hr := resetOverride_core w (afterTrials w n) e (by rw [hs, fresh_frame])
  exact ⟨(generateOverride_same w ok _ e he hs).1, (generateOverride_same w ok _ e he hr).1⟩

/-! ## Examples -/

/-- `ownCleanup` without sorting where nothing is out of order. -/
def ownQuick (b : Block) : List Str :=
  if b.cleanup.Pairwise (fun a b => decide (a.1 ≤ b.1) = true) then (b.cleanup.map (·.2)).reverse else b.ownCleanup

theorem ownQuick_eq : Block.ownCleanup = ownQuick := by
  funext b
  unfold ownQuick
  split
  · next h => unfold Block.ownCleanup; rw [List.mergeSort_of_pairwise h]
  · rfl

/-- The override of `virtual int Base::add(int x) const`. -/
def addOverride : Override where
  params := [intArgument "x".toList]
  ret := intResult
  isVoid := false
  retType := "int".toList
  method := "add".toList
  error := "return INT_MIN;".toList
  leave := some "return Base::add(x);".toList
  className := "Base".toList
  pystruct := "PyBase".toList
  this := "const_cast< Base* >((const Base*) this)".toList

theorem addOverride_ok : addOverride.Ok where
  params := by
    intro g hg
    rw [List.mem_singleton.1 hg]
    exact framed_lift (fun _ => rfl)
  ret := by
    show Plain intResult
    unfold intResult
    exact framed_lift (fun _ => rfl)

/-- After three trials the text is that of an override generated at once; its error return is the parent's
method although the blocks started with another one. -/
example : (generateOverride addOverride (afterTrials addOverride 3)).2.toOption.map
      (fun t => (t.length, t[0]?, t[7]?, t[8]?)) =
    some (41, some "PyGILState_STATE __py_gil_state;".toList, some "py_method = PyObject_GetAttrString(m_pyself, (char *) \"add\"); PyErr_Clear();".toList,
      some "if (py_method == NULL || Py_TYPE(py_method) == &PyCFunction_Type) {".toList) ∧
    (afterTrials addOverride 3).core.callB.errorReturn = "return Base::add(x);".toList ∧
    (startOverride addOverride).core.callB.errorReturn = "return INT_MIN;".toList := by
  delta afterTrials afterTrials._f tryOverride generateOverride resetOverride startOverride freshOverride gilCode bodyOverride restOverride askPython leaveOverride callPython parseResult Core.blocks Core.blocks._f Core.block Chain.step Chain.writeErrorCheckTo Chain.writeErrorReturnTo Chain.writeCleanupTo Chain.getCleanup Chain.getCleanup._f
  rw [ownQuick_eq]
  decide +kernel

/-- Generating it twice without a fresh start fails (base.py:620). -/
theorem C127_override_twice_counterexample :
    (generateOverride addOverride (generateOverride addOverride (startOverride addOverride)).1).2 =
      .error .assertionError := by
  delta afterTrials afterTrials._f tryOverride generateOverride resetOverride startOverride freshOverride gilCode bodyOverride restOverride askPython leaveOverride callPython parseResult Core.blocks Core.blocks._f Core.block Chain.step Chain.writeErrorCheckTo Chain.writeErrorReturnTo Chain.writeCleanupTo Chain.getCleanup Chain.getCleanup._f
  rw [ownQuick_eq]
  decide +kernel

end Verif.Trial
