import Verif.Wrapper.ForwardFlow
import Verif.Wrapper.Texts

/-!
# C44: giving up the GIL around the call

With `unblock_threads` the thread state is saved before the call and restored at the start of the
`after_call` block.
-/
namespace Verif.Wrap
open Verif Verif.Flow Verif.Params Verif.DeclScope

/-! ## Specification -/

/-- The GIL is neither given up nor taken back in `t`. -/
def Never (ts : Str) (t : List Ev) : Prop :=
  ∀ e ∈ t, e.text ≠ some (saveText ts) ∧ e.text ≠ some (restoreText ts)

/-- The GIL is given up once, exactly the events `mid` happen without it, and it is taken back
once. -/
def Around (ts : Str) (mid t : List Ev) : Prop :=
  ∃ t1 t2, t = t1 ++ .did (.code (saveText ts)) :: mid ++ .did (.code (restoreText ts)) :: t2 ∧
    Never ts t1 ∧ Never ts mid ∧ Never ts t2

/-! ## Proof -/

theorem never_of_q {ts : Str} {t : List Ev} (h : EvQ Q0 t) : Never ts t := by
  intro e he
  exact ⟨fun hs => h e he _ hs rfl, fun hs => h e he _ hs rfl⟩

/-- The events of the call: nothing but the call itself, with the catch clauses passed by. -/
def callEvents (assign callee : Str) (args : List Str) (excs : List (Str × Str)) (er : Str) : List Ev :=
  (if excs = [] then [] else [.did (.code "try\n{".toList)]) ++
    .did (.code (assign ++ callText (String.ofList callee) args ++ ";".toList)) ::
      excs.map (fun e => .passed ("catch (".toList ++ e.1 ++ " const &exc)".toList))

/-- Running through a series of exits. -/
theorem path_exits {B : List Stmt} : ∀ {L : List (Str × List Act)} {t : List Ev},
    Path (L.map (fun p => .exit p.1 p.2) ++ B) t →
    (∃ L1 p L2, L = L1 ++ p :: L2 ∧
      t = L1.map (fun q => .passed q.1) ++ .left p.1 :: p.2.map .did) ∨
    ∃ t2, t = L.map (fun q => .passed q.1) ++ t2 ∧ Path B t2
  | [], t, h => Or.inr ⟨t, rfl, h⟩
  | p :: L, t, h => by
    cases h with
    | pass h =>
      rcases path_exits h with ⟨L1, q, L2, rfl, rfl⟩ | ⟨t2, rfl, h2⟩
      · exact Or.inl ⟨p :: L1, q, L2, rfl, rfl⟩
      · exact Or.inr ⟨t2, rfl, h2⟩
    | leave => exact Or.inl ⟨[], p, L, rfl, rfl⟩

/-- Operations of the call generator. -/
def callOps (assign callee : Str) (args : List Str) (excs : List (Str × Str)) (er : Str) : List Op :=
  (if excs = [] then [] else [.write 1 "try\n{".toList]) ++
    .write 1 (assign ++ callText (String.ofList callee) args ++ ";".toList) ::
      excs.map (catchClause er)

theorem genCall_ops {assign callee : Str} {excs : List (Str × Str)} {er : Str} {w w' : W}
    (h : genCall assign callee excs er w = .ok w') :
    w'.ops = w.ops ++ callOps assign callee w.call excs er := by
  unfold genCall at h
  cases h
  unfold callOps
  split <;> simp [W.op]

/-- Statements the call operations add. -/
def callStmts (assign callee : Str) (args : List Str) (excs : List (Str × Str)) (er : Str)
    (cl : List Act) : List Stmt :=
  (if excs = [] then [] else [.act (.code "try\n{".toList)]) ++
    .act (.code (assign ++ callText (String.ofList callee) args ++ ";".toList)) ::
      (excs.map (fun e => ("catch (".toList ++ e.1 ++ " const &exc)".toList,
        (cl ++ [.code e.2, .ret er] : List Act)))).map (fun p => .exit p.1 p.2)

theorem cleanup_congr {g g' : Gen} (h : ∀ j, (g' j).due = (g j).due) : ∀ i, g'.cleanup i = g.cleanup i
  | 0 => by simp [Gen.cleanup, h]
  | i + 1 => by simp [Gen.cleanup, h, cleanup_congr h i]

theorem cleanup_emit (g : Gen) (k : Nat) (l : List Stmt) (i : Nat) :
    (g.emit k l).cleanup i = g.cleanup i := cleanup_congr (due_emit g k l) i

theorem run_catch (er : Str) : ∀ (excs : List (Str × Str)) (g : Gen),
    (∀ j, ((g.run (excs.map (catchClause er))) j).due = (g j).due) ∧
    ∀ j, ((g.run (excs.map (catchClause er))) j).stmts = if j = 1 then (g 1).stmts ++
      (excs.map (fun e => ("catch (".toList ++ e.1 ++ " const &exc)".toList,
        (g.cleanup 1 ++ [.code e.2, .ret er] : List Act)))).map (fun p => .exit p.1 p.2)
      else (g j).stmts
  | [], g => ⟨fun _ => rfl, fun j => by
      simp only [List.map_nil, List.append_nil]
      change (g j).stmts = _
      split
      · rename_i h; rw [h]
      · rfl⟩
  | e :: excs, g => by
    have ih := run_catch er excs (g.step (catchClause er e))
    have hs : g.step (catchClause er e) = g.emit 1 [.exit ("catch (".toList ++ e.1 ++
      " const &exc)".toList) (g.cleanup 1 ++ [.code e.2, .ret er])] := by
      simp [catchClause, Gen.step]
    refine ⟨fun j => ?_, fun j => ?_⟩
    · change (((g.step (catchClause er e)).run (excs.map (catchClause er))) j).due = _
      rw [ih.1 j, hs, due_emit]
    · change (((g.step (catchClause er e)).run (excs.map (catchClause er))) j).stmts = _
      rw [ih.2 j, hs]
      simp only [stmts_emit, cleanup_emit]
      split
      · simp
      · rfl

theorem run_call (assign callee : Str) (args : List Str) (excs : List (Str × Str)) (er : Str) (g : Gen) :
    (∀ j, ((g.run (callOps assign callee args excs er)) j).due = (g j).due) ∧
    ∀ j, ((g.run (callOps assign callee args excs er)) j).stmts = if j = 1 then (g 1).stmts ++
      callStmts assign callee args excs er (g.cleanup 1) else (g j).stmts := by
  unfold callOps callStmts
  by_cases he : excs = []
  · subst he
    simp only [if_true, List.nil_append, List.map_nil]
    refine ⟨fun j => ?_, fun j => ?_⟩
    · change ((g.emit 1 _) j).due = _
      rw [due_emit]
    · change ((g.emit 1 _) j).stmts = _
      rw [stmts_emit]
  · simp only [if_neg he, List.cons_append, List.nil_append]
    have h := run_catch er excs ((g.emit 1 [.act (.code "try\n{".toList)]).emit 1
      [.act (.code (assign ++ callText (String.ofList callee) args ++ ";".toList))])
    refine ⟨fun j => ?_, fun j => ?_⟩
    · exact (h.1 j).trans (by rw [due_emit, due_emit])
    · refine (h.2 j).trans ?_
      simp only [stmts_emit, cleanup_emit]
      by_cases h1 : j = 1
      · simp only [if_pos h1, if_true, List.append_assoc, List.cons_append, List.nil_append]
      · simp only [if_neg h1]

/-- What `finish` adds. -/
theorem finishStep_ops (c : Config) (w : W) :
    ∃ l, (finishStep c w).ops = w.ops ++ l ∧ ∀ op ∈ l, OpQ Q0 op ∧ op.block = 2 := by
  unfold finishStep
  split
  · exact ⟨[.cleanup 2], rfl, by simp [OpQ, Op.block]⟩
  · unfold resultStep
    dsimp only
    split
    · refine ⟨[.write 2 "Py_INCREF(Py_None);".toList, .write 2 "py_retval = Py_None;".toList,
        .cleanup 2, .ret 2 "return py_retval;".toList], ?_, ?_⟩
      · simp only [W.op, List.append_assoc, List.cons_append, List.nil_append]
      · intro op hop
        simp only [List.mem_cons, List.not_mem_nil, or_false] at hop
        rcases hop with rfl | rfl | rfl | rfl <;> refine ⟨?_, rfl⟩ <;> simp only [OpQ] <;>
          (try trivial) <;> simp [Q0]
    · refine ⟨[.write 2 ("py_retval = ".toList ++ callText "Py_BuildValue"
          (castFirst (buildParameters w.build false)) ++ ";".toList),
        .cleanup 2, .ret 2 "return py_retval;".toList], ?_, ?_⟩
      · simp only [W.op, List.append_assoc, List.cons_append, List.nil_append]
      · intro op hop
        simp only [List.mem_cons, List.not_mem_nil, or_false] at hop
        rcases hop with rfl | rfl | rfl <;> refine ⟨?_, rfl⟩ <;> simp only [OpQ] <;>
          (try trivial)
        simp [Q0]

/-- **C44, general form.**  Consider any wrapper generated with `unblock_threads`, whatever its
parameters, hooks and return value write (other than the two texts in question, recognised by their
initial newline), with the call generator of functions and methods.  Then every execution
* never gives up the GIL (it leaves before the call), or
* gives it up, does nothing but the call, takes it back, and neither gives it up nor takes it back
  again; or
* leaves through a catch clause. -/
theorem C44_general_partial (c : Config) (assign callee : Str) (excs : List (Str × Str)) (er0 : Str)
    (hu : c.unblock = true) (hc : c.call = genCall assign callee excs er0)
    (hcallee : Q0 (assign ++ callee))
    (hparams : ∀ p ∈ c.params, OpsIn (OpQ Q0) p) (hpre : OpsIn (OpQ Q0) c.pre)
    (hret : ∀ r, c.ret = some r → OpsIn (fun op => OpQ Q0 op ∧ op.block = 2) r)
    (hpost : OpsIn (fun op => OpQ Q0 op ∧ op.block = 2) c.post)
    (w0 w : W) (h0 : w0.ops = []) (h : generateBody c w0 = .ok w) :
    ∃ ts args, ∀ (er : Nat → Str) (t : List Ev), Path (((Gen.fresh er).run w.ops).body 3) t →
      Never ts t ∨ Around ts (callEvents assign callee args excs er0) t ∨
      ∃ e ∈ excs, ∃ (t1 : List Ev) (b : List Act), t = t1 ++ .left ("catch (".toList ++ e.1 ++ " const &exc)".toList) ::
        b.map .did := by
  obtain ⟨wa, ts, wb, wc, wd, we, wf, wg, h1, h2, h3, h4, h5, h6, h7, rfl⟩ := generateBody_stages h
  -- the operations
  have ha : wa.ops = [.write 2 (restoreText ts)] := by
    unfold startStep at h1
    rw [if_pos hu] at h1
    obtain ⟨⟨w1, v⟩, hd, hw⟩ := bind_ok.mp h1
    cases hw
    simp only [W.op]
    rw [declare_ops hd, h0]; rfl
  obtain ⟨lb, eb, pb⟩ := opsIn_convertParams hparams _ _ h2
  have hdep : ∃ l, (depStep c.deprecated wb).ops = wb.ops ++ l ∧ ∀ op ∈ l, OpQ Q0 op := by
    unfold depStep
    split
    · exact ⟨[_], rfl, by simp [OpQ]⟩
    · exact ⟨[], by simp, by simp⟩
  obtain ⟨ld, ed, pd⟩ := hdep
  obtain ⟨lc, ec, pc⟩ := hpre _ _ h3
  have es : (saveStep c.unblock ts wc).ops = wc.ops ++ [.write 1 (saveText ts)] := by
    unfold saveStep; rw [if_pos hu]; rfl
  rw [hc] at h4
  have ek := genCall_ops h4
  generalize (saveStep c.unblock ts wc).call = args at ek
  obtain ⟨lp, ep, pp⟩ := parseStep_ops h5
  have hr : ∃ l, wf.ops = we.ops ++ l ∧ ∀ op ∈ l, OpQ Q0 op ∧ op.block = 2 := by
    unfold retStep at h6
    split at h6
    · rename_i r hr; exact hret r hr _ _ (guardNI_ok.mp h6)
    · split at h6
      · cases h6
      · cases h6; exact ⟨[], by simp, by simp⟩
  obtain ⟨lr, er', pr⟩ := hr
  obtain ⟨lo, eo, po⟩ := hpost _ _ h7
  obtain ⟨lf, ef, pf⟩ := finishStep_ops c wg
  have hops : (finishStep c wg).ops = .write 2 (restoreText ts) :: (lb ++ ld ++ lc) ++
      (.write 1 (saveText ts) :: callOps assign callee args excs er0) ++ (lp ++ lr ++ lo ++ lf) := by
    rw [ef, eo, er', ep, ek, es, ec, ed, eb, ha]; simp
  refine ⟨ts, args, fun er t ht => ?_⟩
  rw [hops, run_append _ (_ ++ _) (lp ++ lr ++ lo ++ lf),
    run_append (Gen.fresh er) (_ :: _)] at ht
  -- first the restoring text and the parameters
  have e0 : ∀ j, (((Gen.fresh er).step (.write 2 (restoreText ts))) j).stmts =
      if j = 2 then [.act (.code (restoreText ts))] else [] := by
    intro j
    simp only [Gen.step, stmts_emit]
    split <;> simp [Gen.fresh]
  have d0 : DueQ Q0 ((Gen.fresh er).step (.write 2 (restoreText ts))) := by
    intro j p hp
    simp only [Gen.step] at hp
    rw [due_emit] at hp
    simp [Gen.fresh] at hp
  obtain ⟨d1, e1⟩ := run_ext (lb ++ ld ++ lc) d0 (by
    intro op hop
    simp only [List.mem_append] at hop
    rcases hop with (hop | hop) | hop
    · exact pb op hop
    · exact pd op hop
    · exact pc op hop)
  change Path (((((((Gen.fresh er).step (.write 2 (restoreText ts))).run (lb ++ ld ++ lc)).step
    (.write 1 (saveText ts))).run (callOps assign callee args excs er0)).run
    (lp ++ lr ++ lo ++ lf)).body 3) t at ht
  generalize ((Gen.fresh er).step (.write 2 (restoreText ts))).run (lb ++ ld ++ lc) = g1 at d1 e1 ht
  obtain ⟨c1, c2⟩ := run_call assign callee args excs er0 (g1.step (.write 1 (saveText ts)))
  have d2 : DueQ Q0 ((g1.step (.write 1 (saveText ts))).run (callOps assign callee args excs er0)) := by
    intro j p hp
    rw [c1] at hp
    simp only [Gen.step] at hp
    rw [due_emit] at hp
    exact d1 j p hp
  have c3 : ∀ j, (((g1.step (.write 1 (saveText ts))).run (callOps assign callee args excs er0)) j).stmts
      = if j = 1 then (g1 1).stmts ++ .act (.code (saveText ts)) ::
          callStmts assign callee args excs er0 (g1.cleanup 1) else (g1 j).stmts := by
    intro j
    rw [c2]
    simp only [Gen.step, stmts_emit, cleanup_emit]
    split
    · simp
    · rfl
  generalize (g1.step (.write 1 (saveText ts))).run (callOps assign callee args excs er0) = g2
    at c1 c2 c3 d2 ht
  obtain ⟨-, e3⟩ := run_ext (lp ++ lr ++ lo ++ lf) d2 (by
    intro op hop
    simp only [List.mem_append] at hop
    rcases hop with ((hop | hop) | hop) | hop
    · obtain ⟨cond, rfl⟩ := pp op hop; simp [OpQ]
    · exact (pr op hop).1
    · exact (po op hop).1
    · exact (pf op hop).1)
  have hne : ∀ op ∈ lp ++ lr ++ lo ++ lf, op.block ≠ 1 := by
    intro op hop
    simp only [List.mem_append] at hop
    rcases hop with ((hop | hop) | hop) | hop
    · obtain ⟨cond, rfl⟩ := pp op hop; simp [Op.block]
    · rw [(pr op hop).2]; decide
    · rw [(po op hop).2]; decide
    · rw [(pf op hop).2]; decide
  obtain ⟨l0, f0, q0, -⟩ := e3 0
  obtain ⟨l1, f1, q1, n1⟩ := e3 1
  obtain ⟨l2, f2, q2, -⟩ := e3 2
  obtain ⟨m0, k0, r0, -⟩ := e1 0
  obtain ⟨m1, k1, r1, -⟩ := e1 1
  obtain ⟨m2, k2, r2, -⟩ := e1 2
  rw [n1 hne] at f1
  simp only [Gen.body] at ht
  rw [f0, f1, f2] at ht
  simp only [c3] at ht
  simp only [e0] at k0 k1 k2
  rw [k0, k1, k2] at ht
  simp at ht
  -- ht : Path (m0 ++ (l0 ++ (m1 ++ save :: (callStmts ++ (restore :: (m2 ++ l2)))))) t
  have ht' : Path ((m0 ++ l0 ++ m1) ++ (.act (.code (saveText ts)) ::
      (callStmts assign callee args excs er0 (g1.cleanup 1) ++
        (.act (.code (restoreText ts)) :: (m2 ++ l2))))) t := by
    simpa using ht
  rcases path_q (Q := Q0) (by
      intro s hs
      simp only [List.mem_append] at hs
      rcases hs with (hs | hs) | hs
      · exact r0 s hs
      · exact q0 s hs
      · exact r1 s hs) ht' with hq | ⟨t1, t2, rfl, ht1, hp2⟩
  · exact Or.inl (never_of_q hq)
  right
  cases hp2 with
  | @code _ _ t3 hp3 =>
  -- through the call
  have key : ∀ (pre : List Ev) (t5 : List Ev),
      Path ((excs.map (fun e => ("catch (".toList ++ e.1 ++ " const &exc)".toList,
        (g1.cleanup 1 ++ [.code e.2, .ret er0] : List Act)))).map (fun p => .exit p.1 p.2) ++
        (.act (.code (restoreText ts)) :: (m2 ++ l2))) t5 →
      t3 = pre ++ t5 →
      EvQ Q0 pre →
      pre ++ excs.map (fun e => .passed ("catch (".toList ++ e.1 ++ " const &exc)".toList))
        = callEvents assign callee args excs er0 →
      Around ts (callEvents assign callee args excs er0)
        (t1 ++ .did (.code (saveText ts)) :: t3) ∨
      ∃ e ∈ excs, ∃ (t4 : List Ev) (b : List Act), t1 ++ .did (.code (saveText ts)) :: t3 =
        t4 ++ .left ("catch (".toList ++ e.1 ++ " const &exc)".toList) :: b.map .did := by
    intro pre t5 hp5 he hpre hce
    rcases path_exits hp5 with ⟨L1, p, L2, hL, rfl⟩ | ⟨t6, rfl, hp6⟩
    · right
      have hmem : p ∈ excs.map (fun e => ("catch (".toList ++ e.1 ++ " const &exc)".toList,
        (g1.cleanup 1 ++ [.code e.2, .ret er0] : List Act))) := by rw [hL]; simp
      obtain ⟨e, hem, rfl⟩ := List.mem_map.mp hmem
      exact ⟨e, hem, t1 ++ .did (.code (saveText ts)) :: (pre ++ L1.map (fun q => .passed q.1)),
        g1.cleanup 1 ++ [.code e.2, .ret er0], by
        rw [he]; simp⟩
    · left
      cases hp6 with
      | @code _ _ t7 hp7 =>
      have hmid : EvQ Q0 (callEvents assign callee args excs er0) := by
        rw [← hce]
        refine evQ_append.mpr ⟨hpre, ?_⟩
        intro e he s hs
        obtain ⟨x, -, rfl⟩ := List.mem_map.mp he
        cases hs
      refine ⟨t1, t7, ?_, never_of_q ht1, never_of_q hmid, never_of_q (path_q_all (A := m2 ++ l2) ?_ hp7)⟩
      · rw [he, ← hce]
        simp [List.map_map, Function.comp_def]
      · intro s hs
        rcases List.mem_append.mp hs with hs | hs
        · exact r2 s hs
        · exact q2 s hs
  have hcall : Q0 (assign ++ callText (String.ofList callee) args ++ ";".toList) := by
    unfold Q0 callText at *
    cases assign with
    | nil => cases callee with
      | nil => simp
      | cons x xs => simpa using hcallee
    | cons x xs => simpa using hcallee
  unfold callStmts at hp3
  by_cases he : excs = []
  · rw [if_pos he] at hp3
    cases hp3 with
    | @code _ _ t4 hp4 =>
      refine key [_] t4 hp4 rfl ?_ (by simp [callEvents, he])
      intro e hem s hs
      rw [List.mem_singleton] at hem; subst hem; cases hs; exact hcall
  · rw [if_neg he] at hp3
    cases hp3 with
    | @code _ _ t4 hp4 =>
    cases hp4 with
    | @code _ _ t5 hp5 =>
      refine key [_, _] t5 hp5 rfl ?_ (by simp [callEvents, he])
      intro e hem s hs
      simp only [List.mem_cons, List.not_mem_nil, or_false] at hem
      rcases hem with rfl | rfl
      · cases hs; simp [Q0]
      · cases hs; exact hcall

/-! ## The package's own handlers -/

/-- The parameter name of a handler. -/
def ParamH.name : ParamH → Str
  | .scalar s => s.name
  | .bool _ n _ => n
  | .boolRef _ n _ _ _ => n
  | .array _ n _ _ _ _ _ _ => n
  | .other h => h.name

theorem opsQ_paramH (p : ParamH) (hn : NameOk p.name) : OpsIn (OpQ Q0) p.convert := by
  cases p with
  | scalar s =>
    intro w w' h
    obtain ⟨f, v, -, rfl⟩ := scalar_spec h
    refine ⟨s.checkOps v, rfl, ?_⟩
    unfold Scalar.checkOps
    split <;> simp [OpQ, Q0]
  | bool ctype name dflt =>
    intro w w' h
    unfold ParamH.convert boolParam at h
    obtain ⟨⟨w1, v⟩, h1, h⟩ := bind_ok.mp h
    obtain ⟨⟨w2, p⟩, h2, h⟩ := bind_ok.mp h
    cases h
    have hv := declare_nameOk h1 hn
    refine ⟨[_], by simp [W.addCall, W.addParse, W.op, declare_ops h1, declare_ops h2]; rfl, ?_⟩
    intro op hop
    rw [List.mem_singleton] at hop
    subst hop
    simp only [OpQ]
    split <;> exact q0_name hv _
  | boolRef ctype name isIn isOut byPtr =>
    intro w w' h
    unfold ParamH.convert boolRef at h
    obtain ⟨⟨w1, v⟩, h1, h⟩ := bind_ok.mp h
    obtain ⟨w2, h2, h⟩ := bind_ok.mp h
    cases h
    have hv := declare_nameOk h1 hn
    have e2 : ∃ l, w2.ops = w1.ops ++ l ∧ ∀ op ∈ l, OpQ Q0 op := by
      unfold whenG at h2
      split at h2
      · obtain ⟨⟨w3, p⟩, h3, h2⟩ := bind_ok.mp h2
        cases h2
        refine ⟨[_], by simp [W.addParse, W.op, declare_ops h3, W.addCall]; rfl, ?_⟩
        intro op hop
        rw [List.mem_singleton] at hop
        subst hop
        exact q0_name hv _
      · cases h2; exact ⟨[], by simp [W.addCall], by simp⟩
    obtain ⟨l, e2, p2⟩ := e2
    refine ⟨l, ?_, p2⟩
    split <;> simp [W.addBuild, e2, declare_ops h1]
  | array ctype name len isIn isOut ec gt mk =>
    intro w w' h
    unfold ParamH.convert arrayParam at h
    obtain ⟨⟨w1, v⟩, h1, h⟩ := bind_ok.mp h
    obtain ⟨⟨w2, l⟩, h2, h⟩ := bind_ok.mp h
    obtain ⟨⟨w3, idx⟩, h3, h⟩ := bind_ok.mp h
    obtain ⟨w4, h4, h⟩ := bind_ok.mp h
    cases h
    have hv := declare_nameOk h1 hn
    have hl := declare_nameOk h2 ⟨_, _, rfl, by decide⟩
    have e4 : ∃ l, w4.ops = w3.ops ++ l ∧ ∀ op ∈ l, OpQ Q0 op := by
      unfold whenG at h4
      split at h4
      · obtain ⟨⟨w5, e⟩, h5, h4⟩ := bind_ok.mp h4
        cases h4
        have he := declare_nameOk h5 ⟨_, _, rfl, by decide⟩
        refine ⟨[_, _, _, _, _, _], by
          simp [W.addParse, W.op, declare_ops h5, W.addCall]; exact ⟨rfl, rfl, rfl, rfl, rfl, rfl⟩, ?_⟩
        intro op hop
        simp only [List.mem_cons, List.not_mem_nil, or_false] at hop
        rcases hop with rfl | rfl | rfl | rfl | rfl | rfl
        · simp [OpQ, Q0]
        · simp [OpQ, Q0]
        · exact q0_name he _
        · simp [OpQ, Q0]
        · exact q0_name hv _
        · simp [OpQ, Q0]
      · cases h4; exact ⟨[], by simp [W.addCall], by simp⟩
    obtain ⟨m, e4, p4⟩ := e4
    have e3 : w3.ops = w.ops := by rw [declare_ops h3, declare_ops h2, declare_ops h1]
    split
    · refine ⟨m ++ [_, _, _, _], by simp [W.addBuild, W.op, e4, e3]; exact ⟨rfl, rfl, rfl, rfl⟩, ?_⟩
      intro op hop
      rcases List.mem_append.mp hop with hop | hop
      · exact p4 op hop
      · simp only [List.mem_cons, List.not_mem_nil, or_false] at hop
        rcases hop with rfl | rfl | rfl | rfl
        · exact q0_name hl _
        · simp [OpQ, Q0]
        · simp [OpQ, Q0]
        · simp [OpQ, Q0]
    · exact ⟨m, by rw [e4, e3], p4⟩
  | other q => exact q.quiet hn

theorem opsQ_addWards (P : Op → Prop) (i : Nat) (hw : ∀ s, Q0 s → P (.write i s))
    (ha : ∀ s, Q0 s → P (.add i s)) : ∀ l, OpsIn P (addWards i l)
  | [] => opsIn_ok P
  | (c, d) :: rest => by
    intro w w' h
    simp only [addWards] at h
    obtain ⟨w1, h1, h2⟩ := bind_ok.mp h
    have e1 : ∃ l, w1.ops = w.ops ++ l ∧ ∀ op ∈ l, P op := by
      unfold addWard at h1
      obtain ⟨⟨w3, v⟩, h3, h1⟩ := bind_ok.mp h1
      cases h1
      have hv := declare_nameOk h3 ⟨_, _, rfl, by decide⟩
      refine ⟨[_, _, _, _], by simp [W.op, declare_ops h3]; exact ⟨rfl, rfl, rfl, rfl⟩, ?_⟩
      intro op hop
      simp only [List.mem_cons, List.not_mem_nil, or_false] at hop
      rcases hop with rfl | rfl | rfl | rfl
      · exact hw _ (q0_name hv _)
      · refine hw _ ?_; simp [Q0]
      · refine hw _ ?_; simp [Q0]
      · refine ha _ ?_; simp [Q0]
    obtain ⟨l1, e1, p1⟩ := e1
    obtain ⟨l2, e2, p2⟩ := opsQ_addWards P i hw ha rest w1 w' h2
    refine ⟨l1 ++ l2, by rw [e2, e1, List.append_assoc], ?_⟩
    intro op hop
    rcases List.mem_append.mp hop with hop | hop
    · exact p1 op hop
    · exact p2 op hop

/-- **C44 for every wrapper made of the modelled parts** that translates no exceptions: whatever
the parameters, defaults, custodians, deprecation and return value, an execution either leaves
before the call with the GIL never given up, or performs exactly one save, the call, one restore, in
this order and with nothing but the call in between. -/
theorem C44_function_partial (ps : List ParamH) (hps : ∀ p ∈ ps, NameOk p.name) (dep : Option Str)
    (assign callee : Str) (hcallee : NameOk callee) (hassign : assign = [] ∨ NameOk assign) (er0 : Str)
    (force : Option ParseKind)
    (ret : FRet)
    (before after : List (Str × Str)) (w0 w : W) (h0 : w0.ops = [])
    (h : generateBody (funConfig true ps dep assign callee [] er0 force ret before after) w0 = .ok w) :
    ∃ ts args, ∀ (er : Nat → Str) (t : List Ev), Path (((Gen.fresh er).run w.ops).body 3) t →
      Never ts t ∨
      Around ts [.did (.code (assign ++ callText (String.ofList callee) args ++ ";".toList))] t := by
  obtain ⟨ts, args, H⟩ := C44_general_partial
    (funConfig true ps dep assign callee [] er0 force ret before after) assign callee [] er0 rfl rfl
    (by
      rcases hassign with rfl | ha
      · have := q0_name hcallee []; simpa using this
      · exact q0_name ha _)
    (by
      intro p hp
      simp only [funConfig, List.mem_map] at hp
      obtain ⟨q, hq, rfl⟩ := hp
      exact opsQ_paramH q (hps q hq))
    (opsQ_addWards _ 1 (fun _ h => h) (fun _ h => h) before)
    (by
      intro r hr
      simp only [funConfig, Option.some.injEq] at hr
      subst hr
      rw [← ret.handler_convert]
      intro w w' h
      obtain ⟨l, e, hl⟩ := ret.handler.late w w' h
      obtain ⟨l', e', hl'⟩ := ret.handler.quiet w w' h
      have : l = l' := List.append_cancel_left (e.symm.trans e')
      exact ⟨l, e, fun op ho => ⟨hl' op (this ▸ ho), late_block (hl op ho)⟩⟩)
    (opsQ_addWards _ 2 (fun _ h => ⟨h, rfl⟩) (fun _ h => ⟨h, rfl⟩) after) w0 w h0 h
  refine ⟨ts, args, fun er t ht => ?_⟩
  rcases H er t ht with h | h | ⟨e, he, -⟩
  · exact Or.inl h
  · exact Or.inr h
  · simp at he

/-- Non-vacuity: a wrapper of this kind with an execution that gets through. -/
def unblockExample : Config :=
  funConfig true [.scalar (byValue "i".toList "int".toList "a".toList none)] none
    "retval = ".toList "f".toList [] "return NULL;".toList none
    (.scalar "i".toList "retval".toList) [] []

/-- The operations of the example. -/
def unblockExampleOps : List Op :=
  [.write 2 (restoreText "py_thread_state".toList), .write 1 (saveText "py_thread_state".toList),
   .write 1 "retval = f(a);".toList,
   .check 0 "!PyArg_ParseTupleAndKeywords(args, kwargs, (char *) \"i\", (char **) keywords, &a)".toList none,
   .write 2 "py_retval = Py_BuildValue((char *) \"i\", retval);".toList, .cleanup 2,
   .ret 2 "return py_retval;".toList]

example : (generateBody unblockExample {}).toOption.map (fun w => w.ops) = some unblockExampleOps := by
  decide +kernel

/-- With an exception to translate the property fails: the catch clause runs Python API without the
GIL and returns without ever restoring the thread state. -/
def throwExample : Config :=
  funConfig true [] none [] "f".toList [("Err".toList, "PyErr_SetString((PyObject *) PyErr, ...);".toList)]
    "return NULL;".toList none .void [] []

theorem C44_exception_counterexample :
    ∃ ops, (generateBody throwExample {}).toOption.map (fun w => w.ops) = some ops ∧
    ∃ t, Path (((Gen.fresh (fun _ => "return NULL;".toList)).run ops).body 3) t ∧
      t = [.did (.code (saveText "py_thread_state".toList)), .did (.code "try\n{".toList),
        .did (.code "f();".toList), .left "catch (Err const &exc)".toList,
        .did (.code "PyErr_SetString((PyObject *) PyErr, ...);".toList),
        .did (.ret "return NULL;".toList)] := by
  refine ⟨[.write 2 (restoreText "py_thread_state".toList), .write 1 (saveText "py_thread_state".toList),
    .write 1 "try\n{".toList, .write 1 "f();".toList,
    .branch 1 "catch (Err const &exc)".toList [] ["PyErr_SetString((PyObject *) PyErr, ...);".toList]
      "return NULL;".toList, .write 2 "Py_INCREF(Py_None);".toList,
    .write 2 "py_retval = Py_None;".toList, .cleanup 2, .ret 2 "return py_retval;".toList],
    by decide +kernel, _, ?_, rfl⟩
  exact .code (.code (.code .leave))

/-- The wrapper of a protected virtual method checks for a helper instance between giving up the
GIL and the call: the failing check sets a Python exception and returns without the GIL. -/
def parentExample : Config :=
  { unblock := true, call := parentCall "H".toList "m".toList "Foo".toList [], ret := some voidReturn }

theorem C44_parent_caller_counterexample :
    ∃ ops, (generateBody parentExample {}).toOption.map (fun w => w.ops) = some ops ∧
    ∃ t, Path (((Gen.fresh (fun _ => "return NULL;".toList)).run ops).body 3) t ∧
      t = [.did (.code (saveText "py_thread_state".toList)), .left "helper == NULL".toList,
        .did (.code ("PyErr_SetString(PyExc_TypeError, \"Method m of class Foo is protected and can ".toList
          ++ "only be called by a subclass\");".toList)),
        .did (.ret "return NULL;".toList)] := by
  refine ⟨[.write 2 (restoreText "py_thread_state".toList), .write 1 (saveText "py_thread_state".toList),
    .check 1 "helper == NULL".toList
      (some ("PyErr_SetString(PyExc_TypeError, \"Method m of class Foo is protected and can ".toList
          ++ "only be called by a subclass\");".toList)),
    .write 1 "helper->m__parent_caller();".toList, .write 2 "Py_INCREF(Py_None);".toList,
    .write 2 "py_retval = Py_None;".toList, .cleanup 2, .ret 2 "return py_retval;".toList],
    by decide +kernel, _, ?_, rfl⟩
  exact .code .leave

/-- Constructor of a class with a helper class but no usable constructor: the branch for instances
of the class itself sets an exception and returns, with the GIL given up. -/
def ctorExample : Config :=
  { unblock := true, call := helperCtorCall "PyFoo_Type".toList "H".toList "Foo".toList
    haveRet := false, ret := none }

theorem C44_constructor_counterexample :
    ∃ ops, (generateBody ctorExample {}).toOption.map (fun w => w.ops) = some ops ∧
    ∃ t, Path (((Gen.fresh (fun _ => "return -1;".toList)).run ops).body 3) t ∧
      t = [.did (.code (saveText "py_thread_state".toList)), .left "!(Py_TYPE(self) != &PyFoo_Type)".toList,
        .did (.code "PyErr_SetString(PyExc_TypeError, \"class 'Foo' cannot be constructed\");".toList),
        .did (.ret "return -1;".toList)] := by
  refine ⟨[.write 2 (restoreText "py_thread_state".toList), .write 1 (saveText "py_thread_state".toList),
    .bare 1 "!(Py_TYPE(self) != &PyFoo_Type)".toList
      ["PyErr_SetString(PyExc_TypeError, \"class 'Foo' cannot be constructed\");".toList]
      "return -1;".toList, .write 1 "self->obj = new H();".toList,
    .write 1 "self->flags = PYBINDGEN_WRAPPER_FLAG_NONE;".toList,
    .write 1 "((H*) self->obj)->set_pyobj((PyObject *)self);".toList, .cleanup 2],
    by decide +kernel, _, ?_, rfl⟩
  exact .code .leave

end Verif.Wrap
