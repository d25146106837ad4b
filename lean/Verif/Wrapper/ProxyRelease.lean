import Verif.Wrapper.Proxy

/-!
# C108: a virtual method proxy gives back what it takes

The references, the saved `obj` pointer and the GIL that the proxy of a virtual method
(cppmethod.py:1026-1127, base.py:546-685) takes are given back on every path: no Python override, the
override raises, its result is refused, a value is out of range, success.
-/
namespace Verif.Wrap
open Verif Verif.Flow Verif.Params Verif.DeclScope

/-- What the handlers of parameters may write (`convert_c_to_python`): anything to either block, error
checks before the call only.  In /repo the reverse handlers of parameters add cleanups to
`before_call` only (cppclass.py:3204, 3574) and write no checks at all. -/
def RevEarly : Op → Prop
  | .write _ _ => True
  | .check i _ _ => i = 0
  | .branch i _ _ _ _ => i = 0
  | .add i _ => i = 0
  | .setErr _ _ => True
  | _ => False

/-- What the handler of the return value may write (`convert_python_to_c`): checks anywhere, cleanups
after the call (inttype.py:256-262, 275-281, 411-417, 466-472). -/
def RevLate : Op → Prop
  | .write _ _ => True
  | .check i _ _ => i ≤ 1
  | .branch i _ _ _ _ => i ≤ 1
  | .add i _ => i = 1
  | .setErr _ _ => True
  | _ => False

theorem plain_revEarly {op : Op} (h : RevEarly op) : op.plain = true := by
  cases op <;> simp_all [RevEarly, Op.plain]

theorem plain_revLate {op : Op} (h : RevLate op) : op.plain = true := by
  cases op <;> simp_all [RevLate, Op.plain]

theorem disciplined_rev {A B : List Op} (hA : ∀ op ∈ A, RevEarly op) (hB : ∀ op ∈ B, RevLate op) :
    Disciplined (A ++ B) := by
  have exA : ∀ op ∈ A, ∀ i, op.exits = some i → i = 0 := by
    intro op hop i hi
    have := hA op hop
    cases op <;> simp_all [RevEarly, Op.exits]
  have exB : ∀ op ∈ B, ∀ i, op.exits = some i → i ≤ 1 := by
    intro op hop i hi
    have := hB op hop
    cases op <;> simp_all [RevLate, Op.exits]
  intro a b j s h op hop i hi
  rcases List.append_eq_append_iff.mp h with ⟨as, h1, h2⟩ | ⟨bs, h1, h2⟩
  · have hj : j = 1 := hB (.add j s) (by rw [h2]; simp)
    subst hj
    rw [h1] at hop
    rcases List.mem_append.mp hop with hop | hop
    · rw [exA op hop i hi]; decide
    · exact exB op (by rw [h2]; exact List.mem_append_left _ hop) i hi
  · cases bs with
    | nil =>
      rw [exA op (by rw [h1]; simpa using hop) i hi]; exact Nat.zero_le _
    | cons x bs =>
      rw [exA op (by rw [h1]; exact List.mem_append_left _ hop) i hi]; exact Nat.zero_le _

theorem revLate_revParse : OpsIn RevLate revParse := by
  intro w w' h
  unfold revParse at h
  obtain ⟨ps, -, h⟩ := bind_ok.mp h
  dsimp only at h
  split at h
  · cases h; exact ⟨[_], rfl, by simp [RevLate]⟩
  · cases h; exact ⟨[_, _], List.append_assoc .., by simp [RevLate]⟩

/-- `m_pyself->obj`, cppmethod.py:1110-1122. -/
def Proxy.objText (p : Proxy) : Str := "reinterpret_cast< ".toList ++ p.pystruct ++ "* >(m_pyself)->obj".toList

/-- What the proxy itself writes before the parameters are converted, cppmethod.py:1067-1122. -/
def Proxy.ownOps (p : Proxy) (m o : Str) : List Op :=
  [.write 0 (lookupText m p.pyName), .add 0 ("Py_XDECREF(".toList ++ m ++ ");".toList)] ++
  (match p.newError with | some e => [.setErr 0 e, .setErr 1 e] | none => []) ++
  [.branch 0 (noOverrideTest m) (if p.isVoid ∧ !p.noParent then [p.parentCall] else []) []
     (if p.isVoid then "return;".toList else p.newError.getD p.errorReturn),
   .write 0 (o ++ " = ".toList ++ p.objText ++ ";".toList),
   .write 0 (p.objText ++ " = ".toList ++
     (if p.isConst then "const_cast< ".toList ++ p.cls ++ "* >((const ".toList ++ p.cls ++ "*) this)".toList
       else "(".toList ++ p.cls ++ "*) this".toList) ++ ";".toList),
   .add 0 (p.objText ++ " = ".toList ++ o ++ ";".toList)]

theorem assoc4 {α : Type} (a b c d : List α) : a ++ b ++ c ++ d = a ++ (b ++ c ++ d) := by simp

theorem ownOps_early (p : Proxy) (m o : Str) : ∀ op ∈ p.ownOps m o, RevEarly op := by
  unfold Proxy.ownOps
  intro op hop
  simp only [List.mem_append, List.mem_cons, List.not_mem_nil, or_false] at hop
  rcases hop with ((rfl | rfl) | hop) | (rfl | rfl | rfl | rfl)
  · trivial
  · rfl
  · split at hop
    · simp only [List.mem_cons, List.not_mem_nil, or_false] at hop
      rcases hop with rfl | rfl <;> trivial
    · exact absurd hop List.not_mem_nil
  · rfl
  · trivial
  · trivial
  · rfl

theorem assoc_long {α : Type} (g own l3 l4 l5 c l7 l8 t : List α) :
    g ++ own ++ l3 ++ l4 ++ l5 ++ c ++ l7 ++ l8 ++ t = (g ++ own ++ (l3 ++ l4 ++ l5 ++ c) ++ (l7 ++ l8)) ++ t := by
  simp

/-- The proxy's operations: those before the handler of the return value, with what the proxy itself
takes in view, those from there on, the final cleanup and return. -/
theorem proxy_release_ops {p : Proxy} {retDecl : Option Str} {params : List Gen1} {ret : Gen1} {w0 w : W}
    (hparams : ∀ q ∈ params, OpsIn RevEarly q) (hret : OpsIn RevLate ret)
    (h : reverseGenerate (p.config retDecl params ret) w0 = .ok w) (h0 : w0.ops = []) :
    ∃ gil m o call A B, w.ops =
      ([.write 0 (ensureText gil), .add 0 (releaseText gil)] ++ p.ownOps m o ++
        (A ++ [.write 0 call, .check 0 "py_retval == NULL".toList (some "PyErr_Print();".toList),
          .add 0 "Py_DECREF(py_retval);".toList]) ++ B) ++
      [.cleanup 1, .ret 1 (if p.isVoid then "return;".toList else "return retval;".toList)] ∧
      (∀ op ∈ A, RevEarly op) ∧ ∀ op ∈ B, RevLate op := by
  unfold reverseGenerate at h
  obtain ⟨w1, h1, h⟩ := bind_ok.mp h
  obtain ⟨w2, h2, h⟩ := bind_ok.mp h
  obtain ⟨w3, h3, h⟩ := bind_ok.mp h
  obtain ⟨w4, h4, h⟩ := bind_ok.mp h
  obtain ⟨w5, h5, h⟩ := bind_ok.mp h
  obtain ⟨w6, h6, h⟩ := bind_ok.mp h
  obtain ⟨w7, h7, h⟩ := bind_ok.mp h
  obtain ⟨w8, h8, h⟩ := bind_ok.mp h
  have hw : w.ops = w8.ops ++
      [.cleanup 1, .ret 1 (if p.isVoid then "return;".toList else "return retval;".toList)] := by
    rw [← Except.ok.inj h]; exact List.append_assoc ..
  unfold gilCode at h1
  simp only [Proxy.config, Bool.false_eq_true, if_false] at h1
  obtain ⟨⟨wv, v⟩, hv, h1⟩ := bind_ok.mp h1
  have e1 : w1.ops = [.write 0 (ensureText v), .add 0 (releaseText v)] := by
    rw [← Except.ok.inj h1]
    show (wv.ops ++ _) ++ _ = _
    rw [declare_ops hv, h0]; rfl
  obtain ⟨m, o, e2, -⟩ := prologue_ops h2
  have e2' : w2.ops = w1.ops ++ p.ownOps m o := e2.trans (assoc4 ..)
  obtain ⟨l3, e3, p3⟩ := opsIn_declRetval RevEarly _ _ h3
  obtain ⟨l4, e4, p4⟩ := opsIn_declCRetval RevEarly _ _ _ h4
  obtain ⟨l5, e5, p5⟩ := opsIn_runAll hparams _ _ h5
  obtain ⟨l7, e7, p7⟩ := hret _ _ h7
  obtain ⟨l8, e8, p8⟩ := revLate_revParse _ _ h8
  obtain ⟨call, e6⟩ : ∃ call, w6.ops = w5.ops ++ [.write 0 call, .check 0 "py_retval == NULL".toList
      (some "PyErr_Print();".toList), .add 0 "Py_DECREF(py_retval);".toList] := by
    refine ⟨"py_retval = ".toList ++ callText "PyObject_CallMethod"
      ("m_pyself".toList :: ("(char *) \"".toList ++ p.pyName ++ "\"".toList) ::
        castFirst (buildParameters w5.build false)) ++ ";".toList, ?_⟩
    rw [← Except.ok.inj h6]
    show ((w5.ops ++ _) ++ _) ++ _ = _
    rw [List.append_assoc, List.append_assoc]; rfl
  refine ⟨v, m, o, call, l3 ++ l4 ++ l5, l7 ++ l8, ?_, ?_, ?_⟩
  · rw [hw, e8, e7, e6, e5, e4, e3, e2', e1]
    exact assoc_long ..
  · intro op hop
    simp only [List.mem_append] at hop
    rcases hop with (hop | hop) | hop
    · exact p3 op hop
    · exact p4 op hop
    · exact p5 op hop
  · intro op hop
    rcases List.mem_append.mp hop with hop | hop
    · exact p7 op hop
    · exact p8 op hop

theorem step_grows_quiet (g : Gen) (op : Op) (hp : op.plain = true) (j : Nat) :
    ∃ l, ((g.step op) j).stmts = (g j).stmts ++ l ∧ ∀ s ∈ l, s.quiet := by
  by_cases h : op.blk = j
  · subst h
    cases op <;> simp_all [Gen.step, Gen.emit, Gen.upd, Op.blk, Op.plain, Stmt.quiet]
  · exact ⟨[], by rw [step_elsewhere g op h, List.append_nil], by simp⟩

theorem run_grows_quiet : ∀ (ops : List Op) (g : Gen) (j : Nat), (∀ op ∈ ops, op.plain = true) →
    ∃ l, ((g.run ops) j).stmts = (g j).stmts ++ l ∧ ∀ s ∈ l, s.quiet
  | [], _, _, _ => ⟨[], (List.append_nil _).symm, by simp⟩
  | op :: ops, g, j, hp => by
    obtain ⟨l, hl, ql⟩ := run_grows_quiet ops (g.step op) j (fun o ho => hp o (List.mem_cons_of_mem _ ho))
    obtain ⟨m, hm, qm⟩ := step_grows_quiet g op (hp op List.mem_cons_self) j
    refine ⟨m ++ l, by rw [← List.append_assoc, ← hm]; exact hl, ?_⟩
    intro s hs
    rcases List.mem_append.mp hs with hs | hs
    · exact qm s hs
    · exact ql s hs

/-- The statements the proxy itself writes first. -/
def Proxy.ownStmts (p : Proxy) (gil m o : Str) : List Stmt :=
  [.act (.code (ensureText gil)), .acq 0 1 (releaseText gil),
   .act (.code (lookupText m p.pyName)), .acq 0 2 ("Py_XDECREF(".toList ++ m ++ ");".toList),
   .exit (noOverrideTest m) ((if p.isVoid ∧ !p.noParent then [p.parentCall] else []).map .code ++
    [.clean 0 2 ("Py_XDECREF(".toList ++ m ++ ");".toList), .clean 0 1 (releaseText gil),
     .ret (if p.isVoid then "return;".toList else p.newError.getD p.errorReturn)]),
   .act (.code (o ++ " = ".toList ++ p.objText ++ ";".toList)),
   .act (.code (p.objText ++ " = ".toList ++
     (if p.isConst then "const_cast< ".toList ++ p.cls ++ "* >((const ".toList ++ p.cls ++ "*) this)".toList
       else "(".toList ++ p.cls ++ "*) this".toList) ++ ";".toList)),
   .acq 0 3 (p.objText ++ " = ".toList ++ o ++ ";".toList)]

theorem own_stmts (p : Proxy) (gil m o : Str) :
    (((Gen.fresh (fun _ => p.errorReturn)).run
      ([.write 0 (ensureText gil), .add 0 (releaseText gil)] ++ p.ownOps m o)) 0).stmts = p.ownStmts gil m o := by
  have hb := proxy_blk p.errorReturn (ensureText gil) (releaseText gil) (lookupText m p.pyName)
    ("Py_XDECREF(".toList ++ m ++ ");".toList) (noOverrideTest m)
    (if p.isVoid then "return;".toList else p.newError.getD p.errorReturn)
    (o ++ " = ".toList ++ p.objText ++ ";".toList)
    (p.objText ++ " = ".toList ++
      (if p.isConst then "const_cast< ".toList ++ p.cls ++ "* >((const ".toList ++ p.cls ++ "*) this)".toList
        else "(".toList ++ p.cls ++ "*) this".toList) ++ ";".toList)
    (p.objText ++ " = ".toList ++ o ++ ";".toList)
    (if p.isVoid ∧ !p.noParent then [p.parentCall] else []) p.newError
  rw [assoc4] at hb
  exact congrArg Blk.stmts hb

/-- The body: the proxy's own statements, those of the parameters, the call, its check. -/
theorem proxy_release_body {p : Proxy} {gil m o call : Str} {A B : List Op} {er : Str}
    (hA : ∀ op ∈ A, RevEarly op) :
    ∃ S R k b, ((Gen.fresh (fun _ => p.errorReturn)).run
      (([.write 0 (ensureText gil), .add 0 (releaseText gil)] ++ p.ownOps m o ++
        (A ++ [.write 0 call, .check 0 "py_retval == NULL".toList (some "PyErr_Print();".toList),
          .add 0 "Py_DECREF(py_retval);".toList]) ++ B) ++ [.cleanup 1, .ret 1 er])).body 2 =
      p.ownStmts gil m o ++ (S ++ (.act (.code call) :: .exit "py_retval == NULL".toList b ::
          .acq 0 k "Py_DECREF(py_retval);".toList :: R)) ∧ (∀ s ∈ S, s.quiet) := by
  have ho := own_stmts p gil m o
  rw [run_append, run_append, run_append _ (_ ++ _) (_ ++ _), run_append _ A]
  generalize (Gen.fresh (fun _ => p.errorReturn)).run _ = gA at ho ⊢
  obtain ⟨S, hS, qS⟩ := run_grows_quiet A gA 0 (fun op hop => plain_revEarly (hA op hop))
  generalize gA.run A = gB at hS ⊢
  generalize hC : gB.run [_, _, _] = gC
  have hC0 : ∃ b k, (gC 0).stmts = (gB 0).stmts ++ [.act (.code call), .exit "py_retval == NULL".toList b,
      .acq 0 k "Py_DECREF(py_retval);".toList] := by
    rw [← hC]
    refine ⟨(some "PyErr_Print();".toList).toList.map .code ++
      (gB.emit 0 [.act (.code call)]).cleanup 0 ++ [.ret ((gB.emit 0 [.act (.code call)]) 0).er],
      (gB 0).count + 1, ?_⟩
    simp only [Gen.run, List.foldl_cons, List.foldl_nil, Gen.step, Gen.emit, Gen.upd, if_true,
      List.append_assoc, List.cons_append, List.nil_append]
  obtain ⟨b, k, hb⟩ := hC0
  obtain ⟨l, hl⟩ := run_grows B gC 0
  obtain ⟨l', hl'⟩ := run_grows [.cleanup 1, .ret 1 er] (gC.run B) 0
  refine ⟨S, l ++ l' ++ (((gC.run B).run [.cleanup 1, .ret 1 er]) 1).stmts, k, b, ?_, qS⟩
  show ([] ++ (((gC.run B).run [.cleanup 1, .ret 1 er]) 0).stmts) ++
    (((gC.run B).run [.cleanup 1, .ret 1 er]) 1).stmts = _
  rw [hl', hl, hb, hS, ho]
  simp only [List.append_assoc, List.cons_append, List.nil_append]

theorem own_path {e1 c1 e2 c2 cond e3 e4 c3 : Str} {b : List Act} {rest : List Stmt} {t : List Ev}
    (ht : Path ([.act (.code e1), .acq 0 1 c1, .act (.code e2), .acq 0 2 c2, .exit cond b, .act (.code e3),
      .act (.code e4), .acq 0 3 c3] ++ rest) t) :
    t = [.did (.code e1), .took 0 1 c1, .did (.code e2), .took 0 2 c2, .left cond] ++ b.map .did ∨
    ∃ t', t = [.did (.code e1), .took 0 1 c1, .did (.code e2), .took 0 2 c2, .passed cond, .did (.code e3),
      .did (.code e4), .took 0 3 c3] ++ t' ∧ Path rest t' := by
  cases ht with
  | code ht => cases ht with
  | acq ht => cases ht with
  | code ht => cases ht with
  | acq ht => cases ht with
  | leave => exact .inl rfl
  | pass ht => cases ht with
  | code ht => cases ht with
  | code ht => cases ht with
  | acq ht => exact .inr ⟨_, rfl, ht⟩

theorem call_path {call c d : Str} {k : Nat} {b : List Act} {S R : List Stmt} {t : List Ev} (hq : ∀ s ∈ S, s.quiet)
    (ht : Path (S ++ (.act (.code call) :: .exit c b :: .acq 0 k d :: R)) t) :
    (∃ (u : List Ev) (c : Str) (b : List Act), t = u ++ .left c :: b.map .did ∧ cleaned u = []) ∨
    ∃ u v, t = u ++ .did (.code call) :: v ∧ cleaned u = [] ∧
      ((∃ b : List Act, v = .left c :: b.map .did) ∨ ∃ v', v = .passed c :: .took 0 k d :: v') := by
  rcases path_split hq ht with ⟨a, c, b', rest, t1, h1, h2, h3, h4⟩ | ⟨t1, t2, h1, h2, h3, h4⟩
  · exact .inl ⟨t1, c, b', h2, h4⟩
  · right
    cases h4 with
    | code h4 =>
      refine ⟨t1, _, h1, h3, ?_⟩
      cases h4 with
      | leave => exact .inl ⟨b, rfl⟩
      | pass h4 => cases h4 with
        | acq h4 => exact .inr ⟨_, rfl⟩

/-- What happens in every execution until it is clear whether there is an override. -/
def Proxy.lookupEvs (p : Proxy) (gil m : Str) : List Ev :=
  [.did (.code (ensureText gil)), .took 0 1 (releaseText gil),
   .did (.code (lookupText m (if p.oldNames then '_' :: p.method else p.method))),
   .took 0 2 ("Py_XDECREF(".toList ++ m ++ ");".toList)]

/-- What happens before the arguments of an override are made: `obj` is saved, then set to `this`, and
from then on it is due to be put back. -/
def Proxy.enterEvs (p : Proxy) (m o : Str) : List Ev :=
  [.passed (noOverrideTest m),
   .did (.code (o ++ " = ".toList ++ p.objText ++ ";".toList)),
   .did (.code (p.objText ++ " = ".toList ++
     (if p.isConst then "const_cast< ".toList ++ p.cls ++ "* >((const ".toList ++ p.cls ++ "*) this)".toList
       else "(".toList ++ p.cls ++ "*) this".toList) ++ ";".toList)),
   .took 0 3 (p.objText ++ " = ".toList ++ o ++ ";".toList)]

theorem own_path' (p : Proxy) (gil m o : Str) {rest : List Stmt} {t : List Ev}
    (ht : Path (p.ownStmts gil m o ++ rest) t) :
    (∃ b : List Act, t = p.lookupEvs gil m ++ .left (noOverrideTest m) :: b.map .did) ∨
    ∃ t', t = p.lookupEvs gil m ++ p.enterEvs m o ++ t' ∧ Path rest t' := by
  rcases own_path ht with h | ⟨t', h, h'⟩
  · exact .inl ⟨_, h⟩
  · exact .inr ⟨t', h, h'⟩

theorem proxy_plain {p : Proxy} {gil m o call : Str} {A B : List Op} (hA : ∀ op ∈ A, RevEarly op)
    (hB : ∀ op ∈ B, RevLate op) (er : Str) (t : List Ev)
    (ht : Path (((Gen.fresh (fun _ => p.errorReturn)).run
      (([.write 0 (ensureText gil), .add 0 (releaseText gil)] ++ p.ownOps m o ++
        (A ++ [.write 0 call, .check 0 "py_retval == NULL".toList (some "PyErr_Print();".toList),
          .add 0 "Py_DECREF(py_retval);".toList]) ++ B) ++ [.cleanup 1, .ret 1 er])).body 2) t) :
    cleaned t = (taken t).reverse ∧ ∃ t1 t2, t = t1 ++ t2 ∧ cleaned t1 = [] ∧ taken t2 = [] := by
  have hearly : ∀ op ∈ [Op.write 0 (ensureText gil), .add 0 (releaseText gil)] ++ p.ownOps m o ++
      (A ++ [.write 0 call, .check 0 "py_retval == NULL".toList (some "PyErr_Print();".toList),
        .add 0 "Py_DECREF(py_retval);".toList]), RevEarly op := by
    intro op hop
    rcases List.mem_append.mp hop with hop | hop
    · rcases List.mem_append.mp hop with hop | hop
      · simp only [List.mem_cons, List.not_mem_nil, or_false] at hop
        rcases hop with rfl | rfl <;> trivial
      · exact ownOps_early p m o op hop
    · rcases List.mem_append.mp hop with hop | hop
      · exact hA op hop
      · simp only [List.mem_cons, List.not_mem_nil, or_false] at hop
        rcases hop with rfl | rfl | rfl <;> trivial
  generalize ([Op.write 0 (ensureText gil), .add 0 (releaseText gil)] ++ p.ownOps m o ++
      (A ++ [.write 0 call, .check 0 "py_retval == NULL".toList (some "PyErr_Print();".toList),
        .add 0 "Py_DECREF(py_retval);".toList])) = E at hearly ht
  exact C42_release_every_path_partial (fun _ => p.errorReturn) 1 (E ++ B) [.ret 1 er] (fun op hop => by
      rcases List.mem_append.mp hop with hop | hop
      · exact plain_revEarly (hearly op hop)
      · exact plain_revLate (hB op hop)) (disciplined_rev hearly hB) (by simp [Op.last]) t ht

/-- **C108, release on every path.**  For every virtual method and all handlers of its parameters and
return value that follow the rule: in every execution of the proxy, whatever is taken is given back,
exactly once, last taken first, and nothing is taken after that has begun.  The GIL and the reference
to the Python method are always taken.  When there is no override, nothing else is.  Otherwise the
`obj` pointer of the Python object is saved before it is changed, and the cleanup that puts it back is
due from then on; and once the override was called, its result is the next thing that is due to be
given up, unless the call failed and there is no result.
Missing: that handlers follow the rule is proved for those of numbers, booleans and class parameters
(`C108_rule_…`); exceptions thrown by C++ code called from the override are not modelled. -/
theorem C108_release_every_path_partial (p : Proxy) (retDecl : Option Str) (params : List Gen1) (ret : Gen1)
    (hparams : ∀ q ∈ params, OpsIn RevEarly q) (hret : OpsIn RevLate ret) (w0 w : W) (h0 : w0.ops = [])
    (h : reverseGenerate (p.config retDecl params ret) w0 = .ok w) :
    ∃ gil m o call k, ∀ t, Path (((Gen.fresh (fun _ => p.errorReturn)).run w.ops).body 2) t →
      cleaned t = (taken t).reverse ∧ (∃ t1 t2, t = t1 ++ t2 ∧ cleaned t1 = [] ∧ taken t2 = []) ∧
      ((taken t = [(0, 1, releaseText gil), (0, 2, "Py_XDECREF(".toList ++ m ++ ");".toList)] ∧
        ∃ b : List Act, t = p.lookupEvs gil m ++ .left (noOverrideTest m) :: b.map .did) ∨
       ∃ t', t = p.lookupEvs gil m ++ p.enterEvs m o ++ t' ∧
         ((∃ (u : List Ev) (c : Str) (b : List Act), t' = u ++ .left c :: b.map .did ∧ cleaned u = []) ∨
          ∃ u v, t' = u ++ .did (.code call) :: v ∧ cleaned u = [] ∧
            ((∃ b : List Act, v = .left "py_retval == NULL".toList :: b.map .did) ∨
             ∃ v', v = .passed "py_retval == NULL".toList :: .took 0 k "Py_DECREF(py_retval);".toList :: v'))) := by
  obtain ⟨gil, m, o, call, A, B, hops, hA, hB⟩ := proxy_release_ops hparams hret h h0
  obtain ⟨S, R, k, b, hb, hq⟩ := proxy_release_body (p := p) (gil := gil) (m := m) (o := o) (call := call) (B := B)
    (er := if p.isVoid then "return;".toList else "return retval;".toList) hA
  refine ⟨gil, m, o, call, k, fun t ht => ?_⟩
  rw [hops] at ht
  have hc := proxy_plain hA hB _ t ht
  refine ⟨hc.1, hc.2, ?_⟩
  rw [hb] at ht
  rcases own_path' p gil m o ht with ⟨b, h⟩ | ⟨t', rfl, ht'⟩
  · refine .inl ⟨?_, b, h⟩
    rw [h, taken_append]
    show _ ++ taken ([Ev.left (noOverrideTest m)] ++ b.map .did) = _
    rw [taken_append, taken_did]
    rfl
  · exact .inr ⟨t', rfl, call_path hq ht'⟩

/-! ### The handlers follow the rule -/

/-- `convert_c_to_python` of the class parameters, by value (cppclass.py:3013-3034), by reference
(3167-3231) and by pointer (3506-3676), as far as the flow goes: a variable for the wrapper; texts written
to `before_call`; for the temporary wrappers of `out` and `inout` parameters (3204, 3574) a cleanup that
drops the wrapper, with texts in between; texts written to `after_call`; the arguments of the call. -/
structure RClass where
  pystruct : Str
  cls : Str
  before : Str → List Str
  temporary : Bool
  before2 : Str → List Str
  after : Str → List Str
  build : List Str

def writes (i : Nat) : List Str → W → W
  | [], w => w
  | x :: xs, w => writes i xs (w.op (.write i x))

def RClass.convert (r : RClass) : Gen1 := fun w => do
  let (w, v) ← w.declare (r.pystruct ++ "*".toList) ("py_".toList ++ r.cls) none none
  let w := writes 0 (r.before v) w
  let w := if r.temporary then w.op (.add 0 ("Py_DECREF(".toList ++ v ++ ");".toList)) else w
  let w := writes 1 (r.after v) (writes 0 (r.before2 v) w)
  pure (r.build.foldl (fun w u => w.addBuild ⟨u, [v], none⟩ false) w)

theorem OpsTo.writes {P : Op → Prop} {w : W} (i : Nat) (hP : ∀ s, P (.write i s)) : ∀ (xs : List Str) {v : W},
    OpsTo P w v → OpsTo P w (writes i xs v)
  | [], _, h => h
  | x :: xs, _, h => OpsTo.writes i hP xs (h.op (hP x))

theorem builds_ops (v : Str) : ∀ (us : List Str) (w : W),
    (us.foldl (fun w u => w.addBuild ⟨u, [v], none⟩ false) w).ops = w.ops
  | [], _ => rfl
  | _ :: us, w => builds_ops v us _

/-- Parameters that are numbers, strings of the scalar kind or objects passed as they are. -/
theorem C108_rule_scalar (s : RScalar) : OpsIn RevEarly s.convert := by
  intro w w' h
  unfold RScalar.convert at h
  cases h
  refine ⟨[], ?_, fun _ h => absurd h List.not_mem_nil⟩
  split <;> split <;> simp [W.addBuild, W.addParse]

/-- `bool &` and `bool *`. -/
theorem C108_rule_bool (name lhs : Str) (i o : Bool) : OpsIn RevEarly (rBool name lhs i o) := by
  intro w w' h
  unfold rBool at h
  have e0 : ∀ (b : Bool) (it : BItem), (if b then w.addBuild it false else w).ops = w.ops := by
    intro b it; cases b <;> rfl
  cases o with
  | false =>
    cases h
    exact ⟨[], by rw [List.append_nil]; exact e0 _ _, fun _ h => absurd h List.not_mem_nil⟩
  | true =>
    obtain ⟨⟨w1, v⟩, h1, h⟩ := bind_ok.mp h
    cases h
    refine ⟨[.write 1 (lhs ++ " = PyObject_IsTrue(".toList ++ v ++ ");".toList)], ?_, ?_⟩
    · show w1.ops ++ [_] = _
      rw [declare_ops h1, e0]
    · intro op hop
      rw [List.mem_singleton.mp hop]; trivial

/-- Parameters of wrapped class types. -/
theorem C108_rule_class (r : RClass) : OpsIn RevEarly r.convert := by
  intro w w' h
  unfold RClass.convert at h
  obtain ⟨⟨w1, v⟩, h1, h⟩ := bind_ok.mp h
  rw [← Except.ok.inj h]
  have h2 : OpsTo RevEarly w (writes 0 (r.before v) w1) :=
    OpsTo.writes 0 (fun _ => trivial) _ (OpsTo.declare h1)
  have h3 : OpsTo RevEarly w (if r.temporary then (writes 0 (r.before v) w1).op (.add 0 ("Py_DECREF(".toList ++ v ++ ");".toList))
      else writes 0 (r.before v) w1) := by
    split
    · exact h2.op rfl
    · exact h2
  obtain ⟨l, hl, hp⟩ := OpsTo.writes 1 (fun _ => trivial) (r.after v)
    (OpsTo.writes 0 (fun _ => trivial) (r.before2 v) h3)
  exact ⟨l, (builds_ops v _ _).trans hl, hp⟩

/-- Return values: numbers parsed in place, and those converted through a variable, with or without a
range check. -/
theorem C108_rule_return (fmt : Str) : OpsIn RevLate (rReturn fmt) := by
  intro w w' h
  cases h
  exact ⟨[], by simp [W.addParse], fun _ h => absurd h List.not_mem_nil⟩

theorem C108_rule_return_via (t b f : Str) (chk : Option (Str → Str)) (conv : Str → Str) :
    OpsIn RevLate (rReturnVia t b f chk conv) := by
  intro w w' h
  unfold rReturnVia at h
  obtain ⟨⟨w1, v⟩, h1, h⟩ := bind_ok.mp h
  rw [← Except.ok.inj h]
  cases chk with
  | none =>
    refine ⟨[.write 1 ("retval = ".toList ++ conv v ++ ";".toList)], ?_,
      fun op hop => by rw [List.mem_singleton.mp hop]; trivial⟩
    show w1.ops ++ [_] = _
    rw [declare_ops h1]
  | some g =>
    refine ⟨[.check 1 (g v) (some "PyErr_SetString(PyExc_ValueError, \"Out of range\");".toList),
      .write 1 ("retval = ".toList ++ conv v ++ ";".toList)], ?_, ?_⟩
    · show (w1.ops ++ [_]) ++ [_] = _
      rw [declare_ops h1, List.append_assoc]; rfl
    · intro op hop
      simp only [List.mem_cons, List.not_mem_nil, or_false] at hop
      rcases hop with rfl | rfl
      · exact Nat.le_refl 1
      · trivial

/-- A temporary wrapper. -/
def rclassSample : RClass :=
  ⟨"PyObj".toList, "Obj".toList, fun v => [v], true, fun _ => [], fun v => [v], ["O".toList]⟩

/-- Non-vacuity: `int C::f(int a, Obj &x /* inout */)` with a result that is range checked. -/
example : ∃ w, reverseGenerate (proxyExample.config (some "int8_t".toList)
    [RScalar.convert { name := "a".toList, fmt := "i".toList, source := "a".toList },
     RClass.convert rclassSample]
    (rReturnVia "int".toList "tmp".toList "i".toList (some id) id)) {} = .ok w ∧
    ∃ t, Path (((Gen.fresh (fun _ => proxyExample.errorReturn)).run w.ops).body 2) t := by
  cases h : reverseGenerate (proxyExample.config (some "int8_t".toList)
    [RScalar.convert { name := "a".toList, fmt := "i".toList, source := "a".toList },
     RClass.convert rclassSample]
    (rReturnVia "int".toList "tmp".toList "i".toList (some id) id)) {} with
  | error e =>
    exfalso
    have : (reverseGenerate (proxyExample.config (some "int8_t".toList)
      [RScalar.convert { name := "a".toList, fmt := "i".toList, source := "a".toList },
       RClass.convert rclassSample]
      (rReturnVia "int".toList "tmp".toList "i".toList (some id) id)) {}).toOption.isSome = true := by
      decide +kernel
    rw [h] at this; cases this
  | ok w =>
    refine ⟨w, rfl, ?_⟩
    obtain ⟨gil, m, o, call, A, B, hops, hA, hB⟩ := proxy_release_ops (p := proxyExample)
      (by intro q hq; simp only [List.mem_cons, List.not_mem_nil, or_false] at hq
          rcases hq with rfl | rfl
          · exact C108_rule_scalar _
          · exact C108_rule_class _) (C108_rule_return_via _ _ _ _ _) h rfl
    obtain ⟨S, R, k, b, hb, hq⟩ := proxy_release_body (p := proxyExample) (gil := gil) (m := m) (o := o) (call := call) (B := B)
      (er := if proxyExample.isVoid then "return;".toList else "return retval;".toList) hA
    rw [hops, hb]
    exact ⟨_, .code (.acq (.code (.acq .leave)))⟩

/-- A handler that wrote a check to `after_call` and took something in `before_call` later would break the
rule, and the release of what was taken: this is what the rule excludes. -/
example : ¬ RevEarly (.check 1 "c".toList none) := by simp [RevEarly]

end Verif.Wrap
