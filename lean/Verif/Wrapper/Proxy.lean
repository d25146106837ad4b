import Verif.Wrapper.ReverseExec

/-!
# C70, C71: what a virtual method proxy does

C70: whether the Python override or the C++ implementation runs.
C71: the arguments the override receives.
-/
namespace Verif.Flow

/-- The block an operation works on. -/
def Op.blk : Op → Nat
  | .write i _ | .check i _ _ | .branch i _ _ _ _ | .bare i _ _ _ | .add i _ | .setErr i _
  | .cleanup i | .ret i _ => i

theorem step_elsewhere (g : Gen) (op : Op) {j : Nat} (h : op.blk ≠ j) : (g.step op) j = g j := by
  have hj : j ≠ op.blk := fun e => h e.symm
  cases op <;> simp only [Op.blk] at hj <;> simp [Gen.step, Gen.emit, Gen.upd, hj]

theorem run_other : ∀ (ops : List Op) (g : Gen) {j : Nat}, (∀ op ∈ ops, op.blk ≠ j) → (g.run ops) j = g j
  | [], _, _, _ => rfl
  | op :: ops, g, j, h => by
    show ((g.step op).run ops) j = g j
    rw [run_other ops _ (fun o ho => h o (List.mem_cons_of_mem _ ho)), step_elsewhere g op (h op List.mem_cons_self)]

theorem step_grows (g : Gen) (op : Op) (j : Nat) : ∃ l, ((g.step op) j).stmts = (g j).stmts ++ l := by
  by_cases h : op.blk = j
  · subst h
    cases op <;> simp [Gen.step, Gen.emit, Gen.upd, Op.blk]
  · exact ⟨[], by rw [step_elsewhere g op h, List.append_nil]⟩

theorem run_grows : ∀ (ops : List Op) (g : Gen) (j : Nat), ∃ l, ((g.run ops) j).stmts = (g j).stmts ++ l
  | [], _, _ => ⟨[], (List.append_nil _).symm⟩
  | op :: ops, g, j => by
    obtain ⟨l, hl⟩ := run_grows ops (g.step op) j
    obtain ⟨m, hm⟩ := step_grows g op j
    exact ⟨m ++ l, by rw [← List.append_assoc, ← hm]; exact hl⟩

/-- The first block after the operations a proxy starts with. -/
theorem proxy_blk (er t1 c1 t2 c2 cond r t3 t4 c3 : Str) (pre : List Str) (ne : Option Str) :
    ((Gen.fresh (fun _ => er)).run ([.write 0 t1, .add 0 c1] ++ [.write 0 t2, .add 0 c2] ++
      (match ne with | some e => [.setErr 0 e, .setErr 1 e] | none => []) ++
      [.branch 0 cond pre [] r, .write 0 t3, .write 0 t4, .add 0 c3])) 0 =
    { stmts := [.act (.code t1), .acq 0 1 c1, .act (.code t2), .acq 0 2 c2,
        .exit cond (pre.map .code ++ [.clean 0 2 c2, .clean 0 1 c1, .ret r]), .act (.code t3), .act (.code t4),
        .acq 0 3 c3]
      due := [(3, c3), (2, c2), (1, c1)]
      count := 3
      er := ne.getD er } := by
  cases ne with
  | none => simp [Gen.run, Gen.step, Gen.emit, Gen.upd, Gen.cleanup, Gen.fresh]
  | some e => simp [Gen.run, Gen.step, Gen.emit, Gen.upd, Gen.cleanup, Gen.fresh]

end Verif.Flow

namespace Verif.Wrap
open Verif Verif.Flow Verif.Params Verif.DeclScope

/-! ## Specification -/

/-- Looking up the override: `m = getattr(self, name)`, errors ignored. -/
def lookupText (m name : Str) : Str :=
  m ++ " = PyObject_GetAttrString(m_pyself, (char *) \"".toList ++ name ++ "\"); PyErr_Clear();".toList

/-- The test for "there is no Python override": no attribute, or one that is a built-in function
(which the methods of wrapped classes are). -/
def noOverrideTest (m : Str) : Str :=
  "if (".toList ++ m ++ " == NULL || Py_TYPE(".toList ++ m ++ ") == &PyCFunction_Type)".toList

/-- A list of expressions separated by commas. -/
def commaSep : List Str → Str
  | [] => []
  | [e] => e
  | e :: es => e ++ ", ".toList ++ commaSep es

/-- The C++ implementation of class `cls`. -/
def cppCall (cls method : Str) (args : List Str) : Str :=
  cls ++ "::".toList ++ method ++ "(".toList ++ commaSep args ++ ");".toList

/-- `PyObject_CallMethod(self, name, units, expressions...)`. -/
def pyCallText (name : Str) (units : List (Str × Str)) : Str :=
  "py_retval = PyObject_CallMethod(m_pyself, (char *) \"".toList ++ name ++ "\", (char *) \"".toList ++
    (units.map (·.1)).flatten ++ "\"".toList ++
    (units.map (fun u => ", ".toList ++ u.2)).flatten ++ ");".toList

/-- What is done when there is no override. -/
def fallback (p : Proxy) (m gil : Str) : List Ev :=
  (if p.isVoid ∧ p.noParent = false then [.did (.code (cppCall p.cls p.method p.params))] else []) ++
  [.did (.clean 0 2 ("Py_XDECREF(".toList ++ m ++ ");".toList)), .did (.clean 0 1 (releaseText gil)),
   .did (.ret (if p.isVoid then "return;".toList
      else if p.noParent = false then "return ".toList ++ cppCall p.cls p.method p.params
      else if p.trivialRet then p.errorReturn else fatalText))]

/-! ## Proof -/

theorem pyJoin_commaSep : ∀ l : List Str, pyJoin ", ".toList l = commaSep l
  | [] => rfl
  | [_] => rfl
  | a :: b :: l => by
    have ih := pyJoin_commaSep (b :: l)
    simp only [commaSep] at ih ⊢
    rw [← ih]
    rfl

theorem parentCall_eq (p : Proxy) : p.parentCall = cppCall p.cls p.method p.params := by
  simp only [Proxy.parentCall, callText, cppCall, pyJoin_commaSep, List.append_assoc, String.toList_ofList]
  rfl

theorem pyJoin_cons_flat (a : Str) : ∀ l : List Str,
    pyJoin ", ".toList (a :: l) = a ++ (l.map (fun e => ", ".toList ++ e)).flatten
  | [] => by simp [pyJoin]
  | b :: l => by
    have ih := pyJoin_cons_flat b l
    show a ++ ", ".toList ++ pyJoin ", ".toList (b :: l) = _
    rw [ih]; simp

theorem declare_build {w w' : W} {t n v : Str} {x a : Option Str}
    (h : w.declare t n x a = .ok (w', v)) : w'.build = w.build := by
  rw [(declare_spec h).2]

/-- The texts written by the parts of a proxy before the parameters are converted. -/
theorem prologue_ops {p : Proxy} {w w' : W} (h : p.prologue w = .ok w') :
    ∃ m o, w'.ops = w.ops ++
      [.write 0 (lookupText m p.pyName), .add 0 ("Py_XDECREF(".toList ++ m ++ ");".toList)] ++
      (match p.newError with | some e => [.setErr 0 e, .setErr 1 e] | none => []) ++
      [.branch 0 (noOverrideTest m) (if p.isVoid ∧ !p.noParent then [p.parentCall] else []) []
        (if p.isVoid then "return;".toList else p.newError.getD p.errorReturn),
       .write 0 (o ++ " = ".toList ++ ("reinterpret_cast< ".toList ++ p.pystruct ++ "* >(m_pyself)->obj".toList) ++ ";".toList),
       .write 0 (("reinterpret_cast< ".toList ++ p.pystruct ++ "* >(m_pyself)->obj".toList) ++ " = ".toList ++
        (if p.isConst then "const_cast< ".toList ++ p.cls ++ "* >((const ".toList ++ p.cls ++ "*) this)".toList
          else "(".toList ++ p.cls ++ "*) this".toList) ++ ";".toList),
       .add 0 (("reinterpret_cast< ".toList ++ p.pystruct ++ "* >(m_pyself)->obj".toList) ++ " = ".toList ++ o ++ ";".toList)] ∧
      w'.build = w.build := by
  unfold Proxy.prologue at h
  obtain ⟨⟨w1, m⟩, h1, h⟩ := bind_ok.mp h
  dsimp only at h
  obtain ⟨⟨w2, o⟩, h2, h⟩ := bind_ok.mp h
  have h := Except.ok.inj h
  refine ⟨m, o, ?_, ?_⟩
  · rw [← h]
    simp only [W.op]
    rw [declare_ops h2]
    cases p.newError with
    | none =>
      simp only [W.op]
      rw [declare_ops h1]
      simp only [lookupText, noOverrideTest, List.append_assoc, List.cons_append, List.nil_append]
    | some e =>
      simp only [W.op]
      rw [declare_ops h1]
      simp only [lookupText, noOverrideTest, List.append_assoc, List.cons_append, List.nil_append]
  · rw [← h]
    have e1 : w1.build = w.build := declare_build h1
    simp only [W.op]
    rw [declare_build h2]
    simp only [W.op]
    cases p.newError <;> simp [e1]

/-- Parameters and return handlers in front of whose texts the proxy's own come: they write to the
second block only. -/
def Later : Op → Prop := fun o => o.blk ≠ 0

/-- The operations of a proxy on its first block, up to the call of the Python method. -/
theorem proxy_ops {p : Proxy} {retDecl : Option Str} {params : List Gen1} {ret : Gen1} {w0 w : W}
    (hparams : ∀ q ∈ params, OpsIn Later q) (hret : OpsIn (fun _ => True) ret)
    (h : reverseGenerate (p.config retDecl params ret) w0 = .ok w) (h0 : w0.ops = []) :
    ∃ gil m o mid rest wp wq, runAll params wp = .ok wq ∧ wp.build = w0.build ∧
      w.ops = [.write 0 (ensureText gil), .add 0 (releaseText gil)] ++
      [.write 0 (lookupText m p.pyName), .add 0 ("Py_XDECREF(".toList ++ m ++ ");".toList)] ++
      (match p.newError with | some e => [.setErr 0 e, .setErr 1 e] | none => []) ++
      [.branch 0 (noOverrideTest m) (if p.isVoid ∧ !p.noParent then [p.parentCall] else []) []
        (if p.isVoid then "return;".toList else p.newError.getD p.errorReturn),
       .write 0 (o ++ " = ".toList ++ ("reinterpret_cast< ".toList ++ p.pystruct ++ "* >(m_pyself)->obj".toList) ++ ";".toList),
       .write 0 (("reinterpret_cast< ".toList ++ p.pystruct ++ "* >(m_pyself)->obj".toList) ++ " = ".toList ++
        (if p.isConst then "const_cast< ".toList ++ p.cls ++ "* >((const ".toList ++ p.cls ++ "*) this)".toList
          else "(".toList ++ p.cls ++ "*) this".toList) ++ ";".toList),
       .add 0 (("reinterpret_cast< ".toList ++ p.pystruct ++ "* >(m_pyself)->obj".toList) ++ " = ".toList ++ o ++ ";".toList)] ++
      mid ++
      [.write 0 ("py_retval = ".toList ++ callText "PyObject_CallMethod"
        ("m_pyself".toList :: ("(char *) \"".toList ++ p.pyName ++ "\"".toList) ::
          castFirst (buildParameters wq.build false)) ++ ";".toList),
       .check 0 "py_retval == NULL".toList (some "PyErr_Print();".toList),
       .add 0 "Py_DECREF(py_retval);".toList] ++ rest ∧ (∀ op ∈ mid, Later op) := by
  unfold reverseGenerate at h
  obtain ⟨w1, h1, h⟩ := bind_ok.mp h
  obtain ⟨w2, h2, h⟩ := bind_ok.mp h
  obtain ⟨w3, h3, h⟩ := bind_ok.mp h
  obtain ⟨w4, h4, h⟩ := bind_ok.mp h
  obtain ⟨w5, h5, h⟩ := bind_ok.mp h
  obtain ⟨w6, h6, h⟩ := bind_ok.mp h
  obtain ⟨w7, h7, h⟩ := bind_ok.mp h
  obtain ⟨w8, h8, h⟩ := bind_ok.mp h
  have h := Except.ok.inj h
  unfold gilCode at h1
  rw [show (p.config retDecl params ret).noGil = false from rfl] at h1
  simp only [Bool.false_eq_true, if_false] at h1
  obtain ⟨⟨wv, gil⟩, hv, h1⟩ := bind_ok.mp h1
  have h1 := Except.ok.inj h1
  obtain ⟨m, o, e2, b2⟩ := prologue_ops h2
  have b1 : w1.build = w0.build := by
    rw [← h1]; show wv.build = _; rw [(declare_spec hv).2]
  have e3 : w3.ops = w2.ops ∧ w3.build = w2.build := by
    unfold declRetval at h3
    obtain ⟨⟨wa, v⟩, hd, h3⟩ := bind_ok.mp h3
    dsimp only at h3
    by_cases hv : v = "py_retval".toList
    · rw [if_pos hv] at h3
      have h3 := Except.ok.inj h3
      rw [← h3]
      exact ⟨declare_ops hd, by rw [(declare_spec hd).2]⟩
    · rw [if_neg hv] at h3
      nomatch h3
  have e4 : w4.ops = w3.ops ∧ w4.build = w3.build := by
    unfold declCRetval at h4
    split at h4
    · obtain ⟨⟨wa, v⟩, hd, h4⟩ := bind_ok.mp h4
      cases h4
      exact ⟨declare_ops hd, by rw [(declare_spec hd).2]⟩
    · cases h4; exact ⟨rfl, rfl⟩
  obtain ⟨mid, e5, hmid⟩ := opsIn_runAll hparams _ _ h5
  have h6 : Proxy.pycall p w5 = .ok w6 := h6
  unfold Proxy.pycall at h6
  have h6 := Except.ok.inj h6
  obtain ⟨l7, e7, -⟩ := hret _ _ h7
  obtain ⟨l8, e8, -⟩ := opsIn_revParse (fun _ => True) _ _ h8
  refine ⟨gil, m, o, mid, l7 ++ l8 ++ [.cleanup 1, .ret 1 (if p.isVoid then "return;".toList else "return retval;".toList)],
    w4, w5, h5, by rw [e4.2, e3.2, b2, b1], ?_, hmid⟩
  rw [← h]
  simp only [revFinish, W.op]
  rw [e8, e7, ← h6]
  simp only [W.op]
  rw [e5, e4.1, e3.1, e2, ← h1]
  simp only [W.op]
  rw [declare_ops hv, h0]
  simp only [List.append_assoc, List.cons_append, List.nil_append]
  rfl

/-- The statements a proxy starts with. -/
theorem proxy_stmts {p : Proxy} {retDecl : Option Str} {params : List Gen1} {ret : Gen1} {w0 w : W}
    (hparams : ∀ q ∈ params, OpsIn Later q) (hret : OpsIn (fun _ => True) ret)
    (h : reverseGenerate (p.config retDecl params ret) w0 = .ok w) (h0 : w0.ops = []) :
    ∃ gil m o rest wp wq, runAll params wp = .ok wq ∧ wp.build = w0.build ∧
      ((Gen.fresh (fun _ => p.errorReturn)).run w.ops).body 2 =
        [.act (.code (ensureText gil)), .acq 0 1 (releaseText gil),
         .act (.code (lookupText m p.pyName)), .acq 0 2 ("Py_XDECREF(".toList ++ m ++ ");".toList),
         .exit (noOverrideTest m) ((if p.isVoid ∧ !p.noParent then [.code p.parentCall] else []) ++
          [.clean 0 2 ("Py_XDECREF(".toList ++ m ++ ");".toList), .clean 0 1 (releaseText gil),
           .ret (if p.isVoid then "return;".toList else p.newError.getD p.errorReturn)]),
         .act (.code (o ++ " = ".toList ++ ("reinterpret_cast< ".toList ++ p.pystruct ++ "* >(m_pyself)->obj".toList) ++ ";".toList)),
         .act (.code (("reinterpret_cast< ".toList ++ p.pystruct ++ "* >(m_pyself)->obj".toList) ++ " = ".toList ++
          (if p.isConst then "const_cast< ".toList ++ p.cls ++ "* >((const ".toList ++ p.cls ++ "*) this)".toList
            else "(".toList ++ p.cls ++ "*) this".toList) ++ ";".toList)),
         .acq 0 3 (("reinterpret_cast< ".toList ++ p.pystruct ++ "* >(m_pyself)->obj".toList) ++ " = ".toList ++ o ++ ";".toList),
         .act (.code ("py_retval = ".toList ++ callText "PyObject_CallMethod"
          ("m_pyself".toList :: ("(char *) \"".toList ++ p.pyName ++ "\"".toList) ::
            castFirst (buildParameters wq.build false)) ++ ";".toList)),
         .exit "py_retval == NULL".toList [.code "PyErr_Print();".toList,
           .clean 0 3 (("reinterpret_cast< ".toList ++ p.pystruct ++ "* >(m_pyself)->obj".toList) ++ " = ".toList ++ o ++ ";".toList),
           .clean 0 2 ("Py_XDECREF(".toList ++ m ++ ");".toList), .clean 0 1 (releaseText gil),
           .ret (p.newError.getD p.errorReturn)],
         .acq 0 4 "Py_DECREF(py_retval);".toList] ++ rest := by
  obtain ⟨gil, m, o, mid, rest, wp, wq, h1, h2, h3, h4⟩ := proxy_ops hparams hret h h0
  rw [h3, run_append, run_append, run_append]
  have hA := proxy_blk p.errorReturn (ensureText gil) (releaseText gil) (lookupText m p.pyName)
    ("Py_XDECREF(".toList ++ m ++ ");".toList) (noOverrideTest m)
    (if p.isVoid then "return;".toList else p.newError.getD p.errorReturn)
    (o ++ " = ".toList ++ ("reinterpret_cast< ".toList ++ p.pystruct ++ "* >(m_pyself)->obj".toList) ++ ";".toList)
    (("reinterpret_cast< ".toList ++ p.pystruct ++ "* >(m_pyself)->obj".toList) ++ " = ".toList ++
      (if p.isConst then "const_cast< ".toList ++ p.cls ++ "* >((const ".toList ++ p.cls ++ "*) this)".toList
        else "(".toList ++ p.cls ++ "*) this".toList) ++ ";".toList)
    (("reinterpret_cast< ".toList ++ p.pystruct ++ "* >(m_pyself)->obj".toList) ++ " = ".toList ++ o ++ ";".toList)
    (if p.isVoid ∧ !p.noParent then [p.parentCall] else []) p.newError
  generalize (Gen.fresh (fun _ => p.errorReturn)).run _ = gA at hA ⊢
  have hmid : (gA.run mid) 0 = gA 0 := run_other mid gA h4
  generalize gA.run mid = gB at hmid ⊢
  generalize hC : gB.run _ = gC
  obtain ⟨l, hl⟩ := run_grows rest gC 0
  have hb : (gC.run rest).body 2 = (gC 0).stmts ++ (l ++ ((gC.run rest) 1).stmts) := by
    show ([] ++ ((gC.run rest) 0).stmts) ++ ((gC.run rest) 1).stmts = _
    rw [hl]; simp
  refine ⟨gil, m, o, l ++ ((gC.run rest) 1).stmts, wp, wq, h1, h2, ?_⟩
  rw [hb]
  congr 1
  rw [← hC]
  simp only [Gen.run, List.foldl_cons, List.foldl_nil, Gen.step, Gen.emit, Gen.upd, Gen.cleanup, if_true, hmid, hA]
  have : (if p.isVoid = true ∧ (!p.noParent) = true then [p.parentCall] else []).map Act.code =
      (if p.isVoid = true ∧ (!p.noParent) = true then [Act.code p.parentCall] else []) := by split <;> rfl
  rw [this]
  rfl

/-- The exception of an override is printed, `obj` is put back, references and GIL are given up; a
method with a result and a C++ implementation returns what that computes. -/
def raised (p : Proxy) (m gil restore : Str) : List Ev :=
  [.did (.code "PyErr_Print();".toList), .did (.clean 0 3 restore),
   .did (.clean 0 2 ("Py_XDECREF(".toList ++ m ++ ");".toList)), .did (.clean 0 1 (releaseText gil)),
   .did (.ret (if p.isVoid then p.errorReturn
      else if p.noParent = false then "return ".toList ++ cppCall p.cls p.method p.params
      else if p.trivialRet then p.errorReturn else fatalText))]

theorem newError_getD (p : Proxy) : p.newError.getD p.errorReturn =
    (if p.isVoid then p.errorReturn
      else if p.noParent = false then "return ".toList ++ cppCall p.cls p.method p.params
      else if p.trivialRet then p.errorReturn else fatalText) := by
  unfold Proxy.newError
  rw [parentCall_eq]
  cases p.isVoid <;> cases p.noParent <;> cases p.trivialRet <;> rfl

theorem pyCall_text (name : Str) (build : List BItem) :
    "py_retval = ".toList ++ callText "PyObject_CallMethod"
      ("m_pyself".toList :: ("(char *) \"".toList ++ name ++ "\"".toList) ::
        castFirst (buildParameters build false)) ++ ";".toList =
    "py_retval = PyObject_CallMethod(m_pyself, (char *) \"".toList ++ name ++ "\", ".toList ++
      (commaSep (castFirst (buildParameters build false)) ++ ");".toList) := by
  unfold callText
  rw [pyJoin_commaSep]
  have : castFirst (buildParameters build false) ≠ [] := by simp [buildParameters, castFirst]
  generalize castFirst (buildParameters build false) = l at this
  cases l with
  | nil => exact absurd rfl this
  | cons a l =>
    simp only [commaSep]
    simp only [List.append_assoc]
    rfl

/-- **C70.**  Every execution of the proxy of a virtual method (with handlers that write only after the
call) takes the GIL and looks the method up under its Python name.  Then either the test for "no
Python override" holds, and everything that follows is `fallback`: the C++ implementation is run with
the proxy's arguments (if there is one), references and GIL are given back, its value is returned; or
it does not hold, and after `obj` of the Python object was set to `this` the Python method is called
under that same name; if it raises, everything that follows is `raised`. -/
theorem C70_dispatch_partial (p : Proxy) (retDecl : Option Str) (params : List Gen1) (ret : Gen1)
    (hparams : ∀ q ∈ params, OpsIn Later q) (hret : OpsIn (fun _ => True) ret) (w0 w : W)
    (h0 : w0.ops = []) (h : reverseGenerate (p.config retDecl params ret) w0 = .ok w) :
    let name := if p.oldNames then '_' :: p.method else p.method
    let obj := "reinterpret_cast< ".toList ++ p.pystruct ++ "* >(m_pyself)->obj".toList
    ∃ gil m o, ∀ t, Path (((Gen.fresh (fun _ => p.errorReturn)).run w.ops).body 2) t →
      ∃ t', t = [.did (.code (ensureText gil)), .took 0 1 (releaseText gil),
          .did (.code (lookupText m name)), .took 0 2 ("Py_XDECREF(".toList ++ m ++ ");".toList)] ++ t' ∧
        (t' = .left (noOverrideTest m) :: fallback p m gil ∨
         ∃ args t'', t' = [.passed (noOverrideTest m),
            .did (.code (o ++ " = ".toList ++ obj ++ ";".toList)),
            .did (.code (obj ++ " = ".toList ++
              (if p.isConst then "const_cast< ".toList ++ p.cls ++ "* >((const ".toList ++ p.cls ++ "*) this)".toList
                else "(".toList ++ p.cls ++ "*) this".toList) ++ ";".toList)),
            .took 0 3 (obj ++ " = ".toList ++ o ++ ";".toList),
            .did (.code ("py_retval = PyObject_CallMethod(m_pyself, (char *) \"".toList ++ name ++ "\", ".toList ++
              args))] ++ t'' ∧
          (t'' = .left "py_retval == NULL".toList :: raised p m gil (obj ++ " = ".toList ++ o ++ ";".toList) ∨
           ∃ t3, t'' = .passed "py_retval == NULL".toList :: .took 0 4 "Py_DECREF(py_retval);".toList :: t3)) := by
  intro name obj
  obtain ⟨gil, m, o, rest, wp, wq, h1, h2, h3⟩ := proxy_stmts hparams hret h h0
  refine ⟨gil, m, o, fun t ht => ?_⟩
  rw [h3] at ht
  have hvoid : (p.isVoid = true ∧ (!p.noParent) = true) ↔ (p.isVoid = true ∧ p.noParent = false) := by simp
  cases ht with
  | code ht => cases ht with
  | acq ht => cases ht with
  | code ht => cases ht with
  | acq ht => cases ht with
  | leave =>
    refine ⟨_, rfl, .inl ?_⟩
    congr 1
    unfold fallback
    rw [newError_getD, parentCall_eq]
    cases p.isVoid <;> cases p.noParent <;> rfl
  | pass ht => cases ht with
  | code ht => cases ht with
  | code ht => cases ht with
  | acq ht => cases ht with
  | code ht =>
    refine ⟨_, rfl, .inr ?_⟩
    rw [pyCall_text] at *
    refine ⟨commaSep (castFirst (buildParameters wq.build false)) ++ ");".toList, _, rfl, ?_⟩
    cases ht with
    | leave =>
      left
      rw [newError_getD]
      rfl
    | pass ht => cases ht with
    | acq ht => exact .inr ⟨_, rfl⟩

/-! ### The test for an override -/

/-- What `getattr(self, name)` gives: nothing, a built-in function (such as a method of a wrapped
class), anything else (such as a method defined in Python). -/
inductive Attr where
  | missing | builtin | other
  deriving DecidableEq, Repr

/-- Value of the C condition of `noOverrideTest`. -/
def Attr.test : Attr → Bool
  | .missing => true
  | .builtin => true
  | .other => false

/-- An execution in which the lookup gave `a`. -/
def Saw (m : Str) (a : Attr) (t : List Ev) : Prop :=
  (.left (noOverrideTest m) ∈ t → a.test = true) ∧ (.passed (noOverrideTest m) ∈ t → a.test = false)

/-- The claim that a Python override is always the one to run is false: an override that is itself a
built-in function, say `f = math.floor` in the body of the Python class, is never called. -/
theorem C70_builtin_counterexample (p : Proxy) (retDecl : Option Str) (params : List Gen1) (ret : Gen1)
    (hparams : ∀ q ∈ params, OpsIn Later q) (hret : OpsIn (fun _ => True) ret) (w0 w : W)
    (h0 : w0.ops = []) (h : reverseGenerate (p.config retDecl params ret) w0 = .ok w) :
    ∃ gil m, ∀ t, Path (((Gen.fresh (fun _ => p.errorReturn)).run w.ops).body 2) t → Saw m .builtin t →
      ∃ pre, t = pre ++ .left (noOverrideTest m) :: fallback p m gil := by
  obtain ⟨gil, m, o, hd⟩ := C70_dispatch_partial p retDecl params ret hparams hret w0 w h0 h
  refine ⟨gil, m, fun t ht hs => ?_⟩
  obtain ⟨t', rfl, h1⟩ := hd t ht
  rcases h1 with rfl | ⟨args, t'', rfl, -⟩
  · exact ⟨_, rfl⟩
  · have := hs.2 (List.mem_append_right _ List.mem_cons_self)
    cases this

/-- Non-vacuity: the handlers modelled obey the hypotheses, and the example proxy is generated. -/
theorem later_rscalar (s : RScalar) : OpsIn Later s.convert := by
  intro w w' h
  unfold RScalar.convert at h
  cases h
  refine ⟨[], ?_, by simp⟩
  split <;> split <;> simp [W.addBuild, W.addParse]

theorem any_rReturnVia (t b f : Str) (chk : Option (Str → Str)) (conv : Str → Str) :
    OpsIn (fun _ => True) (rReturnVia t b f chk conv) := by
  intro w w' h
  obtain ⟨l, e, -⟩ := opsIn_rReturnVia (fun _ => True) t b f chk conv w w' h
  exact ⟨l, e, by simp⟩

example : ∃ w, reverseGenerate (proxyExample.config (some "int".toList)
    [RScalar.convert { name := "a".toList, fmt := "i".toList, source := "a".toList }]
    (rReturnVia "int".toList "tmp".toList "i".toList none (fun v => v))) {} = .ok w ∧
    ∃ t, Path (((Gen.fresh (fun _ => proxyExample.errorReturn)).run w.ops).body 2) t := by
  cases h : reverseGenerate (proxyExample.config (some "int".toList)
    [RScalar.convert { name := "a".toList, fmt := "i".toList, source := "a".toList }]
    (rReturnVia "int".toList "tmp".toList "i".toList none (fun v => v))) {} with
  | error e =>
    exfalso
    have : (reverseGenerate (proxyExample.config (some "int".toList)
      [RScalar.convert { name := "a".toList, fmt := "i".toList, source := "a".toList }]
      (rReturnVia "int".toList "tmp".toList "i".toList none (fun v => v))) {}).toOption.isSome = true := by
      decide +kernel
    rw [h] at this; cases this
  | ok w =>
    refine ⟨w, rfl, ?_⟩
    obtain ⟨gil, m, o, rest, wp, wq, h1, h2, h3⟩ := proxy_stmts (p := proxyExample)
      (by simpa using later_rscalar _) (any_rReturnVia _ _ _ _ _) h rfl
    rw [h3]
    exact ⟨_, .code (.acq (.code (.acq .leave)))⟩

/-! ## C71: arguments of the override -/

/-- A C++ parameter of a virtual method, with its format unit: by value, reference or pointer. -/
inductive RParam where
  | value (fmt name : Str)
  | ref (fmt name : Str) (isIn isOut : Bool)
  | ptr (fmt name : Str) (isIn isOut : Bool)

/-- The handler used (see `RScalar`; `PyObjectParam` is a value with unit `O` or `N`,
pyobjecttype.py:25-30). -/
def RParam.scalar : RParam → RScalar
  | .value f n => { name := n, fmt := f, source := n }
  | .ref f n i o => rRef f n i o
  | .ptr f n i o => rPtr f n i o

/-- What the override is to receive for a parameter: nothing for a pure output, the value of the
parameter, or that of the object it points to. -/
def RParam.passes : RParam → Option (Str × Str)
  | .value f n => some (f, n)
  | .ref f n i _ => if i then some (f, n) else none
  | .ptr f n i _ => if i then some (f, '*' :: n) else none

theorem runAll_build : ∀ (ps : List RParam) {w w' : W},
    runAll (ps.map (fun p => p.scalar.convert)) w = .ok w' →
    w'.build = w.build ++ (ps.filterMap RParam.passes).map (fun u => ⟨u.1, [u.2], none⟩)
  | [], w, w', h => by cases h; simp
  | q :: ps, w, w', h => by
    simp only [List.map_cons, runAll] at h
    obtain ⟨w1, h1, h2⟩ := bind_ok.mp h
    have ih := runAll_build ps h2
    have h1 : _ = w1 := Except.ok.inj h1
    have p1 : w1.build = w.build ++ (q.passes.toList).map (fun u => ⟨u.1, [u.2], none⟩) := by
      rw [← h1]
      cases q with
      | value f n => simp [RParam.scalar, RParam.passes, W.addBuild, Params.addBuild]
      | ref f n i o =>
        cases i <;> cases o <;> simp [RParam.scalar, rRef, RParam.passes, W.addBuild, W.addParse, Params.addBuild]
      | ptr f n i o =>
        cases i <;> cases o <;> simp [RParam.scalar, rPtr, RParam.passes, W.addBuild, W.addParse, Params.addBuild]
    rw [ih, p1]
    cases hq : q.passes <;> simp [hq]

theorem buildParameters_units (units : List (Str × Str)) :
    buildParameters (units.map (fun u => ⟨u.1, [u.2], none⟩)) false =
      (('"' :: (units.map (·.1)).flatten) ++ ['"']) :: units.map (·.2) := by
  unfold buildParameters
  have : ∀ (l : List (Str × Str)) (a : Str) (b : List Str),
      (l.map (fun u => (⟨u.1, [u.2], none⟩ : BItem))).foldl (fun st it => (st.1 ++ it.template, st.2 ++ it.values)) (a, b) =
        (a ++ (l.map (·.1)).flatten, b ++ l.map (·.2)) := by
    intro l
    induction l with
    | nil => simp
    | cons u l ih => intro a b; rw [List.map_cons, List.foldl_cons, ih]; simp
  simp [this]

theorem pyCallText_eq (name : Str) (units : List (Str × Str)) :
    "py_retval = ".toList ++ callText "PyObject_CallMethod"
      ("m_pyself".toList :: ("(char *) \"".toList ++ name ++ "\"".toList) ::
        castFirst (buildParameters (units.map (fun u => ⟨u.1, [u.2], none⟩)) false)) ++ ";".toList =
    pyCallText name units := by
  rw [buildParameters_units]
  unfold callText castFirst pyCallText
  rw [pyJoin_cons_flat]
  simp only [List.map_cons, List.map_map, List.flatten_cons]
  have : (List.map ((fun e => ", ".toList ++ e) ∘ fun x => x.2) units) =
      (units.map (fun u => ", ".toList ++ u.2)) := rfl
  rw [this]
  simp

variable {Val Py : Type}

/-- The arguments `PyObject_CallMethod(self, name, units, ...)` calls the method with: the converted
values, except that a single value that is a tuple is taken for the tuple of arguments (CPython,
`_PyObject_CallFunctionVa`). -/
def callMethodArgs (L : Lang Val Py) (elems : Py → Option (List Py)) (units : List (Str × Str)) : List Py :=
  match units.map (fun u => L.unconv u.1 (L.expr u.2)) with
  | [x] => (elems x).getD [x]
  | xs => xs

/-- **C71.**  The Python override is called with one argument for each input parameter, in declaration
order: the Python form of the parameter's value, or of what it points to — unless there is a single
input parameter and its Python form is a tuple. -/
theorem C71_arguments_partial (L : Lang Val Py) (elems : Py → Option (List Py)) (p : Proxy)
    (retDecl : Option Str) (ps : List RParam) (ret : Gen1) (hret : OpsIn (fun _ => True) ret) (w0 w : W)
    (h0 : w0.ops = [] ∧ w0.build = [])
    (h : reverseGenerate (p.config retDecl (ps.map (fun q => q.scalar.convert)) ret) w0 = .ok w) :
    let name := if p.oldNames then '_' :: p.method else p.method
    ∃ units m, (∀ t, Path (((Gen.fresh (fun _ => p.errorReturn)).run w.ops).body 2) t →
        ∃ pre post, t = pre ++ .left (noOverrideTest m) :: post ∨ ∃ save set restore,
          t = pre ++ [.passed (noOverrideTest m), .did (.code save), .did (.code set), .took 0 3 restore,
            .did (.code (pyCallText name units))] ++ post) ∧
      ((∀ u ∈ ps.filterMap RParam.passes, elems (L.unconv u.1 (L.expr u.2)) = none) →
        callMethodArgs L elems units =
          (ps.filterMap RParam.passes).map (fun u => L.unconv u.1 (L.expr u.2))) ∧
      ((ps.filterMap RParam.passes).length ≠ 1 →
        callMethodArgs L elems units =
          (ps.filterMap RParam.passes).map (fun u => L.unconv u.1 (L.expr u.2))) := by
  intro name
  obtain ⟨gil, m, o, rest, wp, wq, h1, h2, h3⟩ := proxy_stmts
    (params := ps.map (fun q => q.scalar.convert)) (by
      intro q hq
      obtain ⟨s, -, rfl⟩ := List.mem_map.mp hq
      exact later_rscalar _) hret h h0.1
  have hb := runAll_build ps h1
  rw [h2, h0.2, List.nil_append] at hb
  refine ⟨ps.filterMap RParam.passes, m, ?_, ?_, ?_⟩
  · intro t ht
    rw [h3, hb, pyCallText_eq] at ht
    cases ht with
    | code ht => cases ht with
    | acq ht => cases ht with
    | code ht => cases ht with
    | acq ht => cases ht with
    | leave => exact ⟨[_, _, _, _], _, .inl rfl⟩
    | pass ht => cases ht with
    | code ht => cases ht with
    | code ht => cases ht with
    | acq ht => cases ht with
    | code ht => exact ⟨[_, _, _, _], _, .inr ⟨_, _, _, rfl⟩⟩
  · intro hu
    unfold callMethodArgs
    split
    · rename_i x hx
      have : ∃ u, ps.filterMap RParam.passes = [u] ∧ L.unconv u.1 (L.expr u.2) = x := by
        cases hl : ps.filterMap RParam.passes with
        | nil => rw [hl] at hx; cases hx
        | cons u l =>
          rw [hl] at hx
          simp only [List.map_cons, List.cons.injEq, List.map_eq_nil_iff] at hx
          exact ⟨u, by rw [hx.2], hx.1⟩
      obtain ⟨u, hl, he⟩ := this
      have := hu u (by rw [hl]; simp)
      rw [he] at this
      rw [this, hx]; rfl
    · rfl
  · intro hl
    unfold callMethodArgs
    split
    · rename_i x hx
      exfalso
      apply hl
      have := congrArg List.length hx
      simpa using this
    · rfl

/-- False of a single input parameter passed as a tuple, such as a `PyObject *` that is a tuple at run
time: the override gets the elements as arguments. -/
theorem C71_tuple_counterexample (L : Lang Val Py) (elems : Py → Option (List Py)) (f n : Str) (xs : List Py)
    (hx : elems (L.unconv f (L.expr n)) = some xs) :
    callMethodArgs L elems ([RParam.value f n].filterMap RParam.passes) = xs := by
  simp [callMethodArgs, RParam.passes, hx]

/-- Non-vacuity: `void f(int a, double *b /* inout */, int &c /* out */, bool d)`. -/
example : ([RParam.value "i".toList "a".toList, .ptr "d".toList "b".toList true true,
    .ref "i".toList "c".toList false true, .value "O".toList "d".toList].filterMap RParam.passes) =
    [("i".toList, "a".toList), ("d".toList, "*b".toList), ("O".toList, "d".toList)] := by decide

example : pyCallText "f".toList [("i".toList, "a".toList), ("d".toList, "*b".toList)] =
    "py_retval = PyObject_CallMethod(m_pyself, (char *) \"f\", (char *) \"id\", a, *b);".toList := by decide +kernel

end Verif.Wrap
