import Verif.Wrapper.Contract

/-!
# C42 and C44 for forward wrappers
-/
namespace Verif.Wrap
open Verif Verif.Flow Verif.Params Verif.DeclScope

/-- The stages of `generate_body`. -/
theorem generateBody_stages {c : Config} {w0 w : W} (h : generateBody c w0 = .ok w) :
    ∃ wa ts wb wc wd we wf wg, startStep c.unblock w0 = .ok (wa, ts) ∧
      convertParams c.params wa = .ok wb ∧ c.pre (depStep c.deprecated wb) = .ok wc ∧
      c.call (saveStep c.unblock ts wc) = .ok wd ∧ parseStep c.force wd = .ok we ∧
      retStep c we = .ok wf ∧ c.post wf = .ok wg ∧ w = finishStep c wg := by
  unfold generateBody at h
  obtain ⟨⟨wa, ts⟩, h1, h⟩ := bind_ok.mp h
  obtain ⟨wb, h2, h⟩ := bind_ok.mp h
  obtain ⟨wc, h3, h⟩ := bind_ok.mp h
  obtain ⟨wd, h4, h⟩ := bind_ok.mp h
  obtain ⟨we, h5, h⟩ := bind_ok.mp h
  obtain ⟨wf, h6, h⟩ := bind_ok.mp h
  obtain ⟨wg, h7, h⟩ := bind_ok.mp h
  exact ⟨wa, ts, wb, wc, wd, we, wf, wg, h1, h2, h3, h4, h5, h6, h7, (Except.ok.inj h).symm⟩

/-! ## Composition -/

theorem opsIn_ok (P : Op → Prop) : OpsIn P (fun w => .ok w) := by
  intro w w' h; cases h; exact ⟨[], by simp, by simp⟩

theorem guardNI_ok {r : PyRes W} {w : W} : guardNI r = .ok w ↔ r = .ok w := by
  unfold guardNI
  split
  · simp
  · exact Iff.rfl

theorem opsIn_convertParams {P : Op → Prop} : ∀ {ps : List Gen1}, (∀ p ∈ ps, OpsIn P p) →
    OpsIn P (convertParams ps)
  | [], _ => opsIn_ok P
  | p :: ps, h => by
    intro w w' hw
    simp only [convertParams] at hw
    obtain ⟨w1, h1, h2⟩ := bind_ok.mp hw
    obtain ⟨l1, e1, p1⟩ := h p List.mem_cons_self w w1 (guardNI_ok.mp h1)
    obtain ⟨l2, e2, p2⟩ := opsIn_convertParams (fun q hq => h q (List.mem_cons_of_mem _ hq)) w1 w' h2
    refine ⟨l1 ++ l2, by rw [e2, e1, List.append_assoc], ?_⟩
    intro op hop
    rcases List.mem_append.mp hop with hop | hop
    · exact p1 op hop
    · exact p2 op hop

theorem parseStep_ops {force : Option ParseKind} {w w' : W} (h : parseStep force w = .ok w') :
    ∃ l, w'.ops = w.ops ++ l ∧ ∀ op ∈ l, ∃ cond, op = .check 0 cond none := by
  unfold parseStep at h
  obtain ⟨ps, -, h⟩ := bind_ok.mp h
  obtain ⟨kw, -, h⟩ := bind_ok.mp h
  dsimp only at h
  split at h
  · split at h
    · cases h
      exact ⟨[_], rfl, by simp⟩
    · obtain ⟨⟨w1, v⟩, h1, h⟩ := bind_ok.mp h
      cases h
      refine ⟨[_], by simp only [W.op]; rw [declare_ops h1], by simp⟩
  · cases h
    exact ⟨[], by simp, by simp⟩

/-- The operations of a forward wrapper body: first the early ones, then the late ones, then the
cleanup and the return. -/
theorem generateBody_ops {c : Config} {w0 w : W} (h : generateBody c w0 = .ok w)
    (hparams : ∀ p ∈ c.params, OpsIn Early p) (hpre : OpsIn Early c.pre) (hcall : OpsIn Early c.call)
    (hret : ∀ r, c.ret = some r → OpsIn Late r) (hpost : OpsIn Late c.post) :
    ∃ A B tail, w.ops = w0.ops ++ (A ++ B) ++ .cleanup 2 :: tail ∧ (∀ op ∈ A, Early op) ∧
      (∀ op ∈ B, Late op) ∧ ∀ op ∈ tail, op.last 2 = true := by
  obtain ⟨wa, ts, wb, wc, wd, we, wf, wg, h1, h2, h3, h4, h5, h6, h7, rfl⟩ := generateBody_stages h
  have ha : ∃ l, wa.ops = w0.ops ++ l ∧ ∀ op ∈ l, Early op := by
    unfold startStep at h1
    split at h1
    · obtain ⟨⟨w1, v⟩, hd, hw⟩ := bind_ok.mp h1
      cases hw
      exact ⟨[_], by simp only [W.op]; rw [declare_ops hd], by simp [Early]⟩
    · cases h1; exact ⟨[], by simp, by simp⟩
  obtain ⟨la, ea, pa⟩ := ha
  obtain ⟨lb, eb, pb⟩ := opsIn_convertParams hparams _ _ h2
  have hdep : ∃ l, (depStep c.deprecated wb).ops = wb.ops ++ l ∧ ∀ op ∈ l, Early op := by
    unfold depStep
    split
    · exact ⟨[_], rfl, by simp [Early]⟩
    · exact ⟨[], by simp, by simp⟩
  obtain ⟨ld, ed, pd⟩ := hdep
  obtain ⟨lc, ec, pc⟩ := hpre _ _ h3
  have hsave : ∃ l, (saveStep c.unblock ts wc).ops = wc.ops ++ l ∧ ∀ op ∈ l, Early op := by
    unfold saveStep
    split
    · exact ⟨[_], rfl, by simp [Early]⟩
    · exact ⟨[], by simp, by simp⟩
  obtain ⟨ls, es, ps⟩ := hsave
  obtain ⟨lk, ek, pk⟩ := hcall _ _ h4
  obtain ⟨lp, ep, pp⟩ := parseStep_ops h5
  have hr : ∃ l, wf.ops = we.ops ++ l ∧ ∀ op ∈ l, Late op := by
    unfold retStep at h6
    split at h6
    · rename_i r hr; exact hret r hr _ _ (guardNI_ok.mp h6)
    · split at h6
      · cases h6
      · cases h6; exact ⟨[], by simp, by simp⟩
  obtain ⟨lr, er, pr⟩ := hr
  obtain ⟨lo, eo, po⟩ := hpost _ _ h7
  have hf : ∃ l1 tail, (finishStep c wg).ops = wg.ops ++ l1 ++ .cleanup 2 :: tail ∧
      (∀ op ∈ l1, Late op) ∧ ∀ op ∈ tail, op.last 2 = true := by
    unfold finishStep
    split
    · exact ⟨[], [], by simp [W.op], by simp, by simp⟩
    · unfold resultStep
      dsimp only
      split
      · refine ⟨[.write 2 "Py_INCREF(Py_None);".toList, .write 2 "py_retval = Py_None;".toList],
          [.ret 2 "return py_retval;".toList], ?_, by simp [Late], by simp [Op.last]⟩
        simp only [W.op, List.append_assoc, List.cons_append, List.nil_append]
      · refine ⟨[.write 2 ("py_retval = ".toList ++ callText "Py_BuildValue"
          (castFirst (buildParameters wg.build false)) ++ ";".toList)],
          [.ret 2 "return py_retval;".toList], ?_, by simp [Late], by simp [Op.last]⟩
        simp only [W.op, List.append_assoc, List.cons_append, List.nil_append]
  obtain ⟨l1, tail, ef, pf, pt⟩ := hf
  refine ⟨la ++ lb ++ ld ++ lc ++ ls ++ lk ++ lp, lr ++ lo ++ l1, tail, ?_, ?_, ?_, pt⟩
  · rw [ef, eo, er, ep, ek, es, ec, ed, eb, ea]; simp
  · intro op hop
    simp only [List.mem_append] at hop
    rcases hop with (((((hop | hop) | hop) | hop) | hop) | hop) | hop
    · exact pa op hop
    · exact pb op hop
    · exact pd op hop
    · exact pc op hop
    · exact ps op hop
    · exact pk op hop
    · obtain ⟨cond, rfl⟩ := pp op hop; simp [Early]
  · intro op hop
    simp only [List.mem_append] at hop
    rcases hop with (hop | hop) | hop
    · exact pr op hop
    · exact po op hop
    · exact pf op hop

theorem plain_early {op : Op} (h : Early op) : op.plain = true := by
  cases op <;> simp_all [Early, Op.plain]

theorem plain_late {op : Op} (h : Late op) : op.plain = true := by
  cases op <;> simp_all [Late, Op.plain]

theorem disciplined_early_late {A B : List Op} (hA : ∀ op ∈ A, Early op) (hB : ∀ op ∈ B, Late op) :
    Disciplined (A ++ B) := by
  have exA : ∀ op ∈ A, ∀ i, op.exits = some i → i ≤ 1 := by
    intro op hop i hi
    have := hA op hop
    cases op <;> simp_all [Early, Op.exits]
  have exB : ∀ op ∈ B, ∀ i, op.exits = some i → i ≤ 2 := by
    intro op hop i hi
    have := hB op hop
    cases op <;> simp_all [Late, Op.exits]
  intro a b j s h op hop i hi
  rcases List.append_eq_append_iff.mp h with ⟨as, h1, h2⟩ | ⟨bs, h1, h2⟩
  · -- the acquisition is in B
    have hj : j = 2 := hB (.add j s) (by rw [h2]; simp)
    subst hj
    rw [h1] at hop
    rcases List.mem_append.mp hop with hop | hop
    · exact Nat.le_trans (exA op hop i hi) (by decide)
    · exact exB op (by rw [h2]; exact List.mem_append_left _ hop) i hi
  · cases bs with
    | nil =>
      simp only [List.nil_append] at h2
      have hj : j = 2 := hB (.add j s) (by rw [← h2]; simp)
      subst hj
      exact Nat.le_trans (exA op (by rw [h1]; simpa using hop) i hi) (by decide)
    | cons x bs =>
      simp only [List.cons_append, List.cons.injEq] at h2
      obtain ⟨rfl, -⟩ := h2
      have hj : j = 1 := hA (.add j s) (by rw [h1]; simp)
      subst hj
      exact exA op (by rw [h1]; exact List.mem_append_left _ hop) i hi

/-- **C42, forward wrappers.**  Whatever the parameters, hooks, call and return handlers are, as
long as they follow the rule (`Early` before the return value is converted, `Late` afterwards):
every execution of the generated function runs exactly the cleanups registered on its way, each
once, newest first, and nothing is acquired after cleanup began. -/
theorem C42_forward_partial (c : Config) (w0 w : W) (h0 : w0.ops = [])
    (h : generateBody c w0 = .ok w)
    (hparams : ∀ p ∈ c.params, OpsIn Early p) (hpre : OpsIn Early c.pre) (hcall : OpsIn Early c.call)
    (hret : ∀ r, c.ret = some r → OpsIn Late r) (hpost : OpsIn Late c.post)
    (er : Nat → Str) (t : List Ev) (ht : Path (((Gen.fresh er).run w.ops).body 3) t) :
    cleaned t = (taken t).reverse ∧ ∃ t1 t2, t = t1 ++ t2 ∧ cleaned t1 = [] ∧ taken t2 = [] := by
  obtain ⟨A, B, tail, hops, hA, hB, htail⟩ := generateBody_ops h hparams hpre hcall hret hpost
  rw [h0, List.nil_append] at hops
  rw [hops] at ht
  refine C42_release_every_path_partial er 2 (A ++ B) tail ?_ (disciplined_early_late hA hB) htail t ht
  intro op hop
  rcases List.mem_append.mp hop with hop | hop
  · exact plain_early (hA op hop)
  · exact plain_late (hB op hop)

/-! ## The package's own handlers follow the rule -/

/-- The range check operation of a scalar handler. -/
def Scalar.checkOps (s : Scalar) (v : Str) : List Op :=
  match s.check with
  | some c => [.check 1 (v ++ c)
      (some "PyErr_SetString(PyExc_ValueError, \"Out of range\");".toList)]
  | none => []

/-- The effect of a scalar handler. -/
theorem scalar_spec {s : Scalar} {w w' : W} (h : s.convert w = .ok w') :
    ∃ f v, w.decls.declare 0 s.ctype (s.name ++ s.suffix) s.init none = (f, .ok v) ∧
      w' = { decls := f, vars := w.vars ++ [(v, s.init)], ops := w.ops ++ s.checkOps v
             parse := w.parse ++ (if s.isIn then [⟨s.fmt, ['&' :: v], some s.name, s.optional⟩] else [])
             build := w.build ++ (if s.isOut then [⟨s.fmt, [v], none⟩] else [])
             call := w.call ++ [if s.byPtr then '&' :: v else v], flags := w.flags } := by
  unfold Scalar.convert at h
  obtain ⟨⟨w1, v⟩, h1, h⟩ := bind_ok.mp h
  have h := (Except.ok.inj h).symm
  obtain ⟨hv, hw⟩ := declare_spec h1
  refine ⟨_, v, Prod.ext rfl hv, ?_⟩
  subst hw
  rw [h]
  cases hi : s.isIn <;> cases ho : s.isOut <;> cases hc : s.check <;>
    simp [W.addCall, W.addBuild, W.addParse, W.op, addParam, Params.addBuild, Scalar.checkOps, hc]

theorem opsIn_scalar (s : Scalar) : OpsIn Early s.convert := by
  intro w w' h
  obtain ⟨f, v, -, rfl⟩ := scalar_spec h
  refine ⟨s.checkOps v, rfl, ?_⟩
  unfold Scalar.checkOps
  split <;> simp [Early]

theorem opsIn_bool (ctype name : Str) (dflt : Option Str) : OpsIn Early (boolParam ctype name dflt) := by
  intro w w' h
  unfold boolParam at h
  obtain ⟨⟨w1, v⟩, h1, h⟩ := bind_ok.mp h
  obtain ⟨⟨w2, p⟩, h2, h⟩ := bind_ok.mp h
  cases h
  exact ⟨[_], by simp [W.addCall, W.addParse, W.op, declare_ops h1, declare_ops h2]; rfl, by simp [Early]⟩

theorem opsIn_boolRef (ctype name : Str) (isIn isOut byPtr : Bool) :
    OpsIn Early (boolRef ctype name isIn isOut byPtr) := by
  intro w w' h
  unfold boolRef at h
  obtain ⟨⟨w1, v⟩, h1, h⟩ := bind_ok.mp h
  obtain ⟨w2, h2, h⟩ := bind_ok.mp h
  cases h
  have e2 : ∃ l, w2.ops = w1.ops ++ l ∧ ∀ op ∈ l, Early op := by
    unfold whenG at h2
    split at h2
    · obtain ⟨⟨w3, p⟩, h3, h2⟩ := bind_ok.mp h2
      cases h2
      exact ⟨[_], by simp [W.addParse, W.op, declare_ops h3, W.addCall]; rfl, by simp [Early]⟩
    · cases h2; exact ⟨[], by simp [W.addCall], by simp⟩
  obtain ⟨l, e2, p2⟩ := e2
  refine ⟨l, ?_, p2⟩
  split <;> simp [W.addBuild, e2, declare_ops h1]

theorem opsIn_array (ctype name : Str) (len : Nat) (isIn isOut : Bool) (ec gt mk : Str → Str) :
    OpsIn Early (arrayParam ctype name len isIn isOut ec gt mk) := by
  intro w w' h
  unfold arrayParam at h
  obtain ⟨⟨w1, v⟩, h1, h⟩ := bind_ok.mp h
  obtain ⟨⟨w2, l⟩, h2, h⟩ := bind_ok.mp h
  obtain ⟨⟨w3, idx⟩, h3, h⟩ := bind_ok.mp h
  obtain ⟨w4, h4, h⟩ := bind_ok.mp h
  cases h
  have e4 : ∃ l, w4.ops = w3.ops ++ l ∧ ∀ op ∈ l, Early op := by
    unfold whenG at h4
    split at h4
    · obtain ⟨⟨w5, e⟩, h5, h4⟩ := bind_ok.mp h4
      cases h4
      exact ⟨[_, _, _, _, _, _], by
        simp [W.addParse, W.op, declare_ops h5, W.addCall]; exact ⟨rfl, rfl, rfl, rfl, rfl, rfl⟩,
        by simp [Early]⟩
    · cases h4; exact ⟨[], by simp [W.addCall], by simp⟩
  obtain ⟨m, e4, p4⟩ := e4
  have e3 : w3.ops = w.ops := by rw [declare_ops h3, declare_ops h2, declare_ops h1]
  split
  · refine ⟨m ++ [_, _, _, _], by simp [W.addBuild, W.op, e4, e3]; exact ⟨rfl, rfl, rfl, rfl⟩, ?_⟩
    intro op hop
    rcases List.mem_append.mp hop with hop | hop
    · exact p4 op hop
    · simp at hop; rcases hop with rfl | rfl | rfl | rfl <;> simp [Early]
  · exact ⟨m, by rw [e4, e3], p4⟩

theorem opsIn_genCall (assign callee : Str) (excs : List (Str × Str)) (er : Str) :
    OpsIn Early (genCall assign callee excs er) := by
  intro w w' h
  unfold genCall at h
  cases h
  split
  · rename_i he
    subst he
    exact ⟨[_], by simp [W.op]; rfl, by simp [Early]⟩
  · refine ⟨_, by simp [W.op]; rfl, ?_⟩
    intro op hop
    simp only [List.mem_cons, List.mem_map] at hop
    rcases hop with rfl | rfl | ⟨e, -, rfl⟩ <;> simp [Early, catchClause]

theorem opsIn_addWard {P : Op → Prop} (i : Nat) (hw : ∀ s, P (.write i s)) (ha : ∀ s, P (.add i s))
    (c d : Str) : OpsIn P (addWard i c d) := by
  intro w w' h
  unfold addWard at h
  obtain ⟨⟨w1, v⟩, h1, h⟩ := bind_ok.mp h
  cases h
  exact ⟨[_, _, _, _], by simp [W.op, declare_ops h1]; exact ⟨rfl, rfl, rfl, rfl⟩, by simp [hw, ha]⟩

theorem opsIn_addWards {P : Op → Prop} (i : Nat) (hw : ∀ s, P (.write i s)) (ha : ∀ s, P (.add i s)) :
    ∀ l, OpsIn P (addWards i l)
  | [] => opsIn_ok P
  | (c, d) :: rest => by
    intro w w' h
    simp only [addWards] at h
    obtain ⟨w1, h1, h2⟩ := bind_ok.mp h
    obtain ⟨l1, e1, p1⟩ := opsIn_addWard i hw ha c d w w1 h1
    obtain ⟨l2, e2, p2⟩ := opsIn_addWards i hw ha rest w1 w' h2
    refine ⟨l1 ++ l2, by rw [e2, e1, List.append_assoc], ?_⟩
    intro op hop
    rcases List.mem_append.mp hop with hop | hop
    · exact p1 op hop
    · exact p2 op hop

theorem opsIn_scalarReturn (f v : Str) : OpsIn Late (scalarReturn f v) := by
  intro w w' h
  cases h
  exact ⟨[], by simp [W.addBuild], by simp⟩

/-- The parameter handlers modelled. -/
inductive ParamH where
  | scalar (s : Scalar)
  | bool (ctype name : Str) (dflt : Option Str)
  | boolRef (ctype name : Str) (isIn isOut byPtr : Bool)
  | array (ctype name : Str) (len : Nat) (isIn isOut : Bool) (elemCheck get mk : Str → Str)
  | other (h : Handler)

def ParamH.convert : ParamH → Gen1
  | .scalar s => s.convert
  | .bool t n d => boolParam t n d
  | .boolRef t n i o p => Wrap.boolRef t n i o p
  | .array t n l i o e g m => arrayParam t n l i o e g m
  | .other h => h.convert

theorem opsIn_paramH (p : ParamH) : OpsIn Early p.convert := by
  cases p
  · exact opsIn_scalar _
  · exact opsIn_bool _ _ _
  · exact opsIn_boolRef _ _ _ _ _
  · exact opsIn_array _ _ _ _ _ _ _ _
  · rename_i h; exact h.early

/-- A function or method wrapper made of the modelled parts: function.py:179-231,
cppmethod.py:240-319. -/
def funConfig (unblock : Bool) (ps : List ParamH) (dep : Option Str) (assign callee : Str)
    (excs : List (Str × Str)) (er : Str) (force : Option ParseKind) (ret : FRet)
    (before after : List (Str × Str)) : Config :=
  { unblock, params := ps.map ParamH.convert, deprecated := dep, pre := addWards 1 before
    call := genCall assign callee excs er, force, ret := some ret.convert, post := addWards 2 after }

/-- C42 for every such wrapper, without further hypotheses on the handlers: any parameters of the
modelled classes, any custodians before and after the call, any exceptions translated, deprecation,
threads unblocked or not. -/
theorem C42_function_partial (unblock : Bool) (ps : List ParamH) (dep : Option Str)
    (assign callee : Str) (excs : List (Str × Str)) (er0 : Str) (force : Option ParseKind)
    (ret : FRet)
    (before after : List (Str × Str)) (w0 w : W) (h0 : w0.ops = [])
    (h : generateBody (funConfig unblock ps dep assign callee excs er0 force ret before after) w0 = .ok w)
    (er : Nat → Str) (t : List Ev) (ht : Path (((Gen.fresh er).run w.ops).body 3) t) :
    cleaned t = (taken t).reverse ∧ ∃ t1 t2, t = t1 ++ t2 ∧ cleaned t1 = [] ∧ taken t2 = [] := by
  refine C42_forward_partial _ w0 w h0 h ?_ ?_ ?_ ?_ ?_ er t ht
  · intro p hp
    simp only [funConfig, List.mem_map] at hp
    obtain ⟨q, -, rfl⟩ := hp
    exact opsIn_paramH q
  · exact opsIn_addWards 1 (fun _ => trivial) (fun _ => rfl) before
  · exact opsIn_genCall assign callee excs er0
  · intro r hr
    simp only [funConfig, Option.some.injEq] at hr
    subst hr
    exact ret.handler_convert ▸ ret.handler.late
  · exact opsIn_addWards 2 (fun _ => rfl) (fun _ => rfl) after

/-! Non-vacuity: `int f(int a, int &b)` with a custodian before and a translated exception. -/

/-- The wrapper of the example. -/
def exampleConfig : Config :=
  funConfig true
    [.scalar (byValue "i".toList "int".toList "a".toList none),
     .scalar (byRef "i".toList "int".toList "b".toList true true)] none
    "retval = ".toList "f".toList [("Err".toList, "PyErr_SetString(...);".toList)] "return NULL;".toList
    none (.scalar "i".toList "retval".toList) [("self".toList, "a".toList)] []

example : (generateBody exampleConfig {}).toOption.map (fun w => (w.ops.length, w.call)) =
    some (13, ["a".toList, "b".toList]) := by
  decide +kernel

end Verif.Wrap
