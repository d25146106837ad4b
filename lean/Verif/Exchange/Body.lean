import Verif.Exchange.Model
import Verif.Wrapper.DescProps

/-!
# The text of a proxy with string handlers is that of its plan
-/
namespace Verif.Exchange
open Verif Verif.Flow Verif.Params Verif.DeclScope Verif.Wrap

/-- Statements that are appended to a block. -/
def isWrite : Op → Option (Nat × Str)
  | .write i s => some (i, s)
  | _ => none

/-- The texts written to block `j`. -/
def writesTo (j : Nat) (ops : List Op) : List Stmt :=
  ops.filterMap (fun o => match o with | .write i s => if i = j then some (.act (.code s)) else none | _ => none)

theorem run_writes : ∀ (ops : List Op) (g : Gen), (∀ o ∈ ops, ∃ i s, o = .write i s) → ∀ j,
    (g.run ops) j = { g j with stmts := (g j).stmts ++ writesTo j ops }
  | [], g, _, j => by simp [Gen.run, writesTo]
  | o :: ops, g, h, j => by
    obtain ⟨i, s, rfl⟩ := h o List.mem_cons_self
    have ih := run_writes ops (g.step (.write i s)) (fun o ho => h o (List.mem_cons_of_mem _ ho)) j
    show ((g.step (.write i s)).run ops) j = _
    rw [ih]
    by_cases hij : j = i
    · subst hij
      simp [Gen.step, Gen.emit, Gen.upd, writesTo]
    · have hji : ¬ i = j := fun e => hij e.symm
      simp [Gen.step, Gen.emit, Gen.upd, writesTo, hij, hji]

theorem writesTo_append (j : Nat) (a b : List Op) : writesTo j (a ++ b) = writesTo j a ++ writesTo j b := by
  simp [writesTo]

/-- The calls a handler makes on the blocks. -/
def RevD.ops (d : RevD) (vs : List Str) : List Op :=
  d.before.map (fun t => .write 0 (Wrap.render vs t)) ++ d.after.map (fun t => .write 1 (Wrap.render vs t))

theorem ops_writes (d : RevD) (vs : List Str) : ∀ o ∈ d.ops vs, ∃ i s, o = .write i s := by
  intro o ho
  rcases List.mem_append.mp ho with ho | ho <;> (obtain ⟨t, -, rfl⟩ := List.mem_map.mp ho; exact ⟨_, _, rfl⟩)

theorem writesTo_ops0 (d : RevD) (vs : List Str) :
    writesTo 0 (d.ops vs) = d.before.map (fun t => .act (.code (Wrap.render vs t))) := by
  unfold RevD.ops
  rw [writesTo_append]
  have h1 : ∀ l : List Tmpl, writesTo 0 (l.map (fun t => .write 0 (Wrap.render vs t))) =
      l.map (fun t => .act (.code (Wrap.render vs t))) := by
    intro l; induction l with
    | nil => rfl
    | cons t l ih => simp only [List.map_cons]; rw [← ih]; rfl
  have h2 : ∀ l : List Tmpl, writesTo 0 (l.map (fun t => .write 1 (Wrap.render vs t))) = [] := by
    intro l; induction l with
    | nil => rfl
    | cons t l ih => simp only [List.map_cons]; rw [← ih]; rfl
  rw [h1, h2, List.append_nil]

theorem writesTo_ops1 (d : RevD) (vs : List Str) :
    writesTo 1 (d.ops vs) = d.after.map (fun t => .act (.code (Wrap.render vs t))) := by
  unfold RevD.ops
  rw [writesTo_append]
  have h1 : ∀ l : List Tmpl, writesTo 1 (l.map (fun t => .write 1 (Wrap.render vs t))) =
      l.map (fun t => .act (.code (Wrap.render vs t))) := by
    intro l; induction l with
    | nil => rfl
    | cons t l ih => simp only [List.map_cons]; rw [← ih]; rfl
  have h2 : ∀ l : List Tmpl, writesTo 1 (l.map (fun t => .write 0 (Wrap.render vs t))) = [] := by
    intro l; induction l with
    | nil => rfl
    | cons t l ih => simp only [List.map_cons]; rw [← ih]; rfl
  rw [h1, h2, List.nil_append]

theorem convert_spec {d : RevD} {w w' : W} (h : d.convert w = .ok w') :
    ∃ vs, vs.length = d.vars.length ∧ w'.ops = w.ops ++ d.ops vs ∧ w'.build = w.build ++ d.builds vs ∧
      w'.parse = if d.front then d.items vs ++ w.parse else w.parse ++ d.items vs := by
  unfold RevD.convert at h
  obtain ⟨⟨w1, vs⟩, h1, h⟩ := bind_ok.mp h
  have h := Except.ok.inj h
  have hd := declareAll_spec h1
  refine ⟨vs, hd.length, ?_, ?_, ?_⟩
  · rw [← h]; show w1.ops ++ _ = _; rw [hd.ops]; rfl
  · rw [← h]; show w1.build ++ _ = _; rw [hd.build]
  · rw [← h]
    show (if d.front then d.items vs ++ w1.parse else w1.parse ++ d.items vs) = _
    rw [hd.parse]

theorem runAll_spec : ∀ (ds : List RevD) {w w' : W}, (∀ d ∈ ds, d.front = false) →
    runAll (ds.map RevD.convert) w = .ok w' →
    ∃ hs : List (RevD × List Str), hs.map (·.1) = ds ∧ (∀ h ∈ hs, h.2.length = h.1.vars.length) ∧
      w'.ops = w.ops ++ hs.flatMap (fun h => h.1.ops h.2) ∧
      w'.build = w.build ++ hs.flatMap (fun h => h.1.builds h.2) ∧
      w'.parse = w.parse ++ hs.flatMap (fun h => h.1.items h.2)
  | [], w, w', _, h => by cases h; exact ⟨[], rfl, by simp, by simp, by simp, by simp⟩
  | d :: ds, w, w', hf, h => by
    simp only [List.map_cons, runAll] at h
    obtain ⟨w1, h1, h2⟩ := bind_ok.mp h
    obtain ⟨vs, v1, v2, v3, v4⟩ := convert_spec h1
    obtain ⟨hs, i1, i2, i3, i4, i5⟩ := runAll_spec ds (fun d hd => hf d (List.mem_cons_of_mem _ hd)) h2
    rw [if_neg (by rw [hf d List.mem_cons_self]; simp)] at v4
    refine ⟨(d, vs) :: hs, by simp [i1], ?_, ?_, ?_, ?_⟩
    · intro h hh
      rcases List.mem_cons.mp hh with rfl | hh
      · exact v1
      · exact i2 h hh
    · rw [i3, v2]; simp
    · rw [i4, v3]; simp
    · rw [i5, v4]; simp

theorem templateLoop_flat : ∀ items : List PItem, (∀ it ∈ items, it.optional = false) →
    templateLoop false items = .ok (items.flatMap (·.template))
  | [], _ => rfl
  | it :: items, h => by
    have h1 := h it List.mem_cons_self
    have ih := templateLoop_flat items (fun i hi => h i (List.mem_cons_of_mem _ hi))
    simp only [templateLoop, h1, ih, Bool.not_false, Bool.and_true, Bool.and_false, Bool.false_eq_true, if_false]
    rfl

theorem items_mandatory (d : RevD) (vs : List Str) : ∀ it ∈ d.items vs, it.optional = false := by
  intro it hit
  obtain ⟨o, -, rfl⟩ := List.mem_map.mp hit
  rfl

theorem flat_ne {items : List PItem} (h : ∀ it ∈ items, it.template ≠ []) (hn : items ≠ []) :
    items.flatMap (·.template) ≠ [] := by
  cases items with
  | nil => exact absurd rfl hn
  | cons it l =>
    have := h it List.mem_cons_self
    simp [this]

/-- The two forms of the end of a proxy. -/
theorem revParse_spec {w w' : W} (h : revParse w = .ok w') (hm : ∀ it ∈ w.parse, it.optional = false)
    (ht : ∀ it ∈ w.parse, it.template ≠ []) :
    w'.ops = w.ops ++ (if w.parse = [] then
      [.check 0 "py_retval != Py_None".toList
        (some "PyErr_SetString(PyExc_TypeError, \"function/method should return None\");".toList)]
      else [.write 0 wrapText, .check 0 (callText "!PyArg_ParseTuple" ("py_retval".toList ::
        ("(char *) \"".toList ++ w.parse.flatMap (·.template) ++ "\"".toList) :: w.parse.flatMap (·.values)))
        (some "PyErr_Print();".toList)]) := by
  unfold revParse getParameters at h
  rw [templateLoop_flat _ hm] at h
  obtain ⟨ps, hps, h⟩ := bind_ok.mp h
  have hps := Except.ok.inj hps
  dsimp only at h
  by_cases hp : w.parse = []
  · rw [if_pos hp]
    have : ps = ["\"\"".toList] := by rw [← hps, hp]; rfl
    rw [if_pos this] at h
    have h := Except.ok.inj h
    rw [← h]; rfl
  · rw [if_neg hp]
    have hne : ps ≠ ["\"\"".toList] := by
      intro e
      rw [← hps] at e
      have e := (List.cons.inj e).1
      have hl := congrArg List.length e
      have := flat_ne ht hp
      rw [show ("\"\"".toList).length = 2 from rfl] at hl
      simp only [List.length_append, List.length_cons, List.length_nil] at hl
      exact this (List.eq_nil_of_length_eq_zero (by omega))
    rw [if_neg hne] at h
    have h := Except.ok.inj h
    rw [← h, ← hps, show castFirst (('"' :: (w.parse.flatMap (·.template)) ++ ['"']) :: w.parse.flatMap (·.values)) =
      ("(char *) \"".toList ++ w.parse.flatMap (·.template) ++ "\"".toList) :: w.parse.flatMap (·.values) from rfl]
    simp only [W.op]
    rw [List.append_assoc]
    exact congrArg (w.ops ++ ·) rfl

theorem castFirst_build (items : List BItem) :
    castFirst (buildParameters items false) =
      ("(char *) \"".toList ++ items.flatMap (·.template) ++ "\"".toList) :: items.flatMap (·.values) := by
  have : ∀ (l : List BItem) (a : Str) (b : List Str),
      l.foldl (fun st it => (st.1 ++ it.template, st.2 ++ it.values)) (a, b) =
        (a ++ l.flatMap (·.template), b ++ l.flatMap (·.values)) := by
    intro l
    induction l with
    | nil => simp
    | cons u l ih => intro a b; rw [List.foldl_cons, ih]; simp
  unfold buildParameters
  simp only [Bool.false_eq_true, if_false, List.append_nil, this, List.nil_append]
  rfl

theorem callText_units (name : Str) (items : List BItem) :
    "py_retval = ".toList ++ callText "PyObject_CallMethod"
      ("m_pyself".toList :: ("(char *) \"".toList ++ name ++ "\"".toList) ::
        castFirst (buildParameters items false)) ++ ";".toList =
    "py_retval = PyObject_CallMethod(m_pyself, (char *) \"".toList ++ name ++
      "\", (char *) \"".toList ++ items.flatMap (·.template) ++ "\"".toList ++
      (items.flatMap (·.values)).flatMap (fun e => ", ".toList ++ e) ++ ");".toList := by
  rw [castFirst_build]
  unfold callText
  rw [pyJoin_cons_flat]
  simp only [List.map_cons, List.flatten_cons, List.flatMap_def]
  generalize (List.map (fun e => ", ".toList ++ e) (List.map (fun x => x.values) items).flatten).flatten = z
  generalize (List.map (fun x => x.template) items).flatten = y
  simp

/-- Everything a proxy does, up to names. -/
theorem proxy_all {p : Proxy} {retDecl : Option Str} {ds : List RevD} {r : RevD} {w0 w : W}
    (hf : ∀ d ∈ ds, d.front = false) (ht : ∀ d ∈ r :: ds, ∀ u, d.back = some u → u.1 ≠ [])
    (h : reverseGenerate (p.config retDecl (ds.map RevD.convert) r.convert) w0 = .ok w)
    (h0 : w0.ops = []) (h1 : w0.build = []) (h2 : w0.parse = []) :
    ∃ gil m o, ∃ hn : Named, hn.params.map (·.1) = ds ∧ hn.ret.1 = r ∧
      (∀ x ∈ hn.ret :: hn.params, x.2.length = x.1.vars.length) ∧
      w.ops = ([.write 0 (ensureText gil), .add 0 (releaseText gil)] ++
      [.write 0 (lookupText m p.pyName), .add 0 ("Py_XDECREF(".toList ++ m ++ ");".toList)] ++
      (match p.newError with | some e => [.setErr 0 e, .setErr 1 e] | none => []) ++
      [.branch 0 (noOverrideTest m) (if p.isVoid ∧ !p.noParent then [p.parentCall] else []) []
        (if p.isVoid then "return;".toList else p.newError.getD p.errorReturn),
       .write 0 (o ++ " = ".toList ++ objText p ++ ";".toList),
       .write 0 (objText p ++ " = ".toList ++
        (if p.isConst then "const_cast< ".toList ++ p.cls ++ "* >((const ".toList ++ p.cls ++ "*) this)".toList
          else "(".toList ++ p.cls ++ "*) this".toList) ++ ";".toList),
       .add 0 (objText p ++ " = ".toList ++ o ++ ";".toList)]) ++
      (hn.params.flatMap (fun h => h.1.ops h.2) ++
      ([.write 0 ("py_retval = PyObject_CallMethod(m_pyself, (char *) \"".toList ++ p.pyName ++
        "\", (char *) \"".toList ++ hn.units.flatMap (·.template) ++ "\"".toList ++
        (hn.units.flatMap (·.values)).flatMap (fun e => ", ".toList ++ e) ++ ");".toList),
       .check 0 "py_retval == NULL".toList (some "PyErr_Print();".toList),
       .add 0 decrefText] ++ (hn.ret.1.ops hn.ret.2 ++
      ((if hn.parse = [] then
        [.check 0 "py_retval != Py_None".toList
          (some "PyErr_SetString(PyExc_TypeError, \"function/method should return None\");".toList)]
        else [.write 0 wrapText, .check 0 (callText "!PyArg_ParseTuple" ("py_retval".toList ::
          ("(char *) \"".toList ++ hn.parse.flatMap (·.template) ++ "\"".toList) :: hn.parse.flatMap (·.values)))
          (some "PyErr_Print();".toList)]) ++
      [.cleanup 1, .ret 1 (if p.isVoid then "return;".toList else "return retval;".toList)])))) := by
  unfold reverseGenerate at h
  obtain ⟨w1, g1, h⟩ := bind_ok.mp h
  obtain ⟨w2, g2, h⟩ := bind_ok.mp h
  obtain ⟨w3, g3, h⟩ := bind_ok.mp h
  obtain ⟨w4, g4, h⟩ := bind_ok.mp h
  obtain ⟨w5, g5, h⟩ := bind_ok.mp h
  obtain ⟨w6, g6, h⟩ := bind_ok.mp h
  obtain ⟨w7, g7, h⟩ := bind_ok.mp h
  obtain ⟨w8, g8, h⟩ := bind_ok.mp h
  have h := Except.ok.inj h
  unfold gilCode at g1
  rw [show (p.config retDecl (ds.map RevD.convert) r.convert).noGil = false from rfl] at g1
  simp only [Bool.false_eq_true, if_false] at g1
  obtain ⟨⟨wv, gil⟩, hv, g1⟩ := bind_ok.mp g1
  have g1 := Except.ok.inj g1
  have g2 : p.prologue w1 = .ok w2 := g2
  obtain ⟨m, o, e2, b2⟩ := prologue_ops g2
  have p2 := prologue_parse g2
  have e2 : w2.ops = w1.ops ++
      [.write 0 (lookupText m p.pyName), .add 0 ("Py_XDECREF(".toList ++ m ++ ");".toList)] ++
      (match p.newError with | some e => [.setErr 0 e, .setErr 1 e] | none => []) ++
      [.branch 0 (noOverrideTest m) (if p.isVoid ∧ !p.noParent then [p.parentCall] else []) []
        (if p.isVoid then "return;".toList else p.newError.getD p.errorReturn),
       .write 0 (o ++ " = ".toList ++ objText p ++ ";".toList),
       .write 0 (objText p ++ " = ".toList ++
        (if p.isConst then "const_cast< ".toList ++ p.cls ++ "* >((const ".toList ++ p.cls ++ "*) this)".toList
          else "(".toList ++ p.cls ++ "*) this".toList) ++ ";".toList),
       .add 0 (objText p ++ " = ".toList ++ o ++ ";".toList)] := e2
  have b1 : w1.build = w0.build ∧ w1.parse = w0.parse := by
    rw [← g1]
    exact ⟨by show wv.build = _; rw [(declare_spec hv).2], by show wv.parse = _; rw [(declare_spec hv).2]⟩
  have e3 : w3.ops = w2.ops ∧ w3.build = w2.build ∧ w3.parse = w2.parse := by
    unfold declRetval at g3
    obtain ⟨⟨wa, v⟩, hd, g3⟩ := bind_ok.mp g3
    dsimp only at g3
    by_cases hv : v = "py_retval".toList
    · rw [if_pos hv] at g3
      have g3 := Except.ok.inj g3
      rw [← g3]
      exact ⟨declare_ops hd, by rw [(declare_spec hd).2], by rw [(declare_spec hd).2]⟩
    · rw [if_neg hv] at g3
      nomatch g3
  have e4 : w4.ops = w3.ops ∧ w4.build = w3.build ∧ w4.parse = w3.parse := by
    unfold declCRetval at g4
    split at g4
    · obtain ⟨⟨wa, v⟩, hd, g4⟩ := bind_ok.mp g4
      cases g4
      exact ⟨declare_ops hd, by rw [(declare_spec hd).2], by rw [(declare_spec hd).2]⟩
    · cases g4; exact ⟨rfl, rfl, rfl⟩
  obtain ⟨hs, s1, s2, s3, s4, s5⟩ := runAll_spec ds hf g5
  have g6 : Proxy.pycall p w5 = .ok w6 := g6
  unfold Proxy.pycall at g6
  have g6 := Except.ok.inj g6
  have g7 : r.convert w6 = .ok w7 := g7
  obtain ⟨vs, v1, v2, v3, v4⟩ := convert_spec g7
  have b0 : w4.build = [] := by rw [e4.2.1, e3.2.1, b2, b1.1, h1]
  have q0 : w4.parse = [] := by rw [e4.2.2, e3.2.2, p2, b1.2, h2]
  have hp7 : w7.parse = (⟨hs, (r, vs)⟩ : Named).parse := by
    rw [v4, ← g6]
    simp only [W.op]
    rw [s5, q0, List.nil_append]
    rfl
  have hopt : ∀ it ∈ w7.parse, it.optional = false := by
    rw [hp7]
    intro it hit
    unfold Named.parse at hit
    have : it ∈ hs.flatMap (fun d => d.1.items d.2) ∨ it ∈ r.items vs := by
      split at hit
      · exact (List.mem_append.mp hit).symm
      · exact List.mem_append.mp hit
    rcases this with hit | hit
    · obtain ⟨x, -, hx⟩ := List.mem_flatMap.mp hit
      exact items_mandatory _ _ it hx
    · exact items_mandatory _ _ it hit
  have hne : ∀ it ∈ w7.parse, it.template ≠ [] := by
    rw [hp7]
    intro it hit
    unfold Named.parse at hit
    have : it ∈ hs.flatMap (fun d => d.1.items d.2) ∨ it ∈ r.items vs := by
      split at hit
      · exact (List.mem_append.mp hit).symm
      · exact List.mem_append.mp hit
    rcases this with hit | hit
    · obtain ⟨x, hx, hit⟩ := List.mem_flatMap.mp hit
      obtain ⟨u, hu, rfl⟩ := List.mem_map.mp hit
      exact ht x.1 (List.mem_cons_of_mem _ (by rw [← s1]; exact List.mem_map.mpr ⟨x, hx, rfl⟩)) u
        (by simpa using hu)
    · obtain ⟨u, hu, rfl⟩ := List.mem_map.mp hit
      exact ht r List.mem_cons_self u (by simpa using hu)
  have e8 := revParse_spec g8 hopt hne
  refine ⟨gil, m, o, ⟨hs, (r, vs)⟩, s1, rfl, ?_, ?_⟩
  · intro x hx
    rcases List.mem_cons.mp hx with rfl | hx
    · exact v1
    · exact s2 x hx
  · rw [← h]
    simp only [revFinish, W.op]
    rw [e8, hp7, v2, ← g6]
    simp only [W.op]
    rw [s3, e4.1, e3.1, e2, ← g1]
    simp only [W.op]
    rw [declare_ops hv, h0, s4, b0, List.nil_append, callText_units]
    simp only [List.append_assoc, List.nil_append]
    rfl

theorem proxy_blk1 (er t1 c1 t2 c2 cond r t3 t4 c3 : Str) (pre : List Str) (ne : Option Str) :
    ((Gen.fresh (fun _ => er)).run ([.write 0 t1, .add 0 c1] ++ [.write 0 t2, .add 0 c2] ++
      (match ne with | some e => [.setErr 0 e, .setErr 1 e] | none => []) ++
      [.branch 0 cond pre [] r, .write 0 t3, .write 0 t4, .add 0 c3])) 1 =
    { stmts := [], due := [], count := 0, er := ne.getD er } := by
  cases ne with
  | none => simp [Gen.run, Gen.step, Gen.emit, Gen.upd, Gen.fresh]
  | some e => simp [Gen.run, Gen.step, Gen.emit, Gen.upd, Gen.fresh]

/-- The rest of a proxy, from the call of Python on. -/
theorem rest_blk (g : Gen) (S0 S1 : List Stmt) (c1 c2 c3 er call nul e1 dt tw c e2 rt : Str) (wrap : Bool) (ops : List Op)
    (hops : ∀ o ∈ ops, ∃ i s, o = .write i s)
    (h0 : g 0 = { stmts := S0, due := [(3, c3), (2, c2), (1, c1)], count := 3, er := er })
    (h1 : g 1 = { stmts := S1, due := [], count := 0, er := er }) :
    (g.run ([.write 0 call, .check 0 nul (some e1), .add 0 dt] ++ (ops ++
      ((if wrap then [.write 0 tw, .check 0 c (some e2)] else [.check 0 c (some e2)]) ++
        [.cleanup 1, .ret 1 rt])))).body 2 =
    S0 ++ ([.act (.code call), .exit nul ([.code e1, .clean 0 3 c3, .clean 0 2 c2, .clean 0 1 c1, .ret er]), .acq 0 4 dt] ++
      (writesTo 0 ops ++ ((if wrap then [.act (.code tw)] else []) ++
      ([.exit c ([.code e2, .clean 0 4 dt, .clean 0 3 c3, .clean 0 2 c2, .clean 0 1 c1, .ret er])] ++
      (S1 ++ (writesTo 1 ops ++ [.act (.clean 0 4 dt), .act (.clean 0 3 c3), .act (.clean 0 2 c2), .act (.clean 0 1 c1),
        .act (.ret rt)])))))) := by
  rw [run_append, run_append]
  generalize hC : g.run _ = gC
  have d0 : gC 0 = { stmts := S0 ++ [.act (.code call), .exit nul ([.code e1, .clean 0 3 c3, .clean 0 2 c2,
      .clean 0 1 c1, .ret er]), .acq 0 4 dt], due := [(4, dt), (3, c3), (2, c2), (1, c1)], count := 4, er := er } := by
    rw [← hC]
    simp [Gen.run, Gen.step, Gen.emit, Gen.upd, Gen.cleanup, h0]
  have d1 : gC 1 = { stmts := S1, due := [], count := 0, er := er } := by
    rw [← hC]
    simp [Gen.run, Gen.step, Gen.emit, Gen.upd, h1]
  have e0 := run_writes ops gC hops 0
  have e1 := run_writes ops gC hops 1
  rw [d0] at e0
  rw [d1] at e1
  generalize gC.run ops = gD at e0 e1
  cases wrap <;>
  simp [Gen.run, Gen.body, Gen.step, Gen.emit, Gen.upd, Gen.cleanup, e0, e1]

theorem shape_text (p : Proxy) (m : Str) (h : Named) (t1 c1 t2 c2 : Str) (pre : List Str)
    (r0 t3 t4 c3 c4 er rt none' : Str) (empty : Bool) :
    (shape t1 c1 t2 c2 pre r0 t3 t4 c3 c4 er rt none' empty).flatMap (St.text p m h) =
      ([.act (.code t1), .acq 0 1 c1, .act (.code t2), .acq 0 2 c2,
        .exit (Cond.text m h .noOverride) (pre.map .code ++ [.clean 0 2 c2, .clean 0 1 c1, .ret r0]),
        .act (.code t3), .act (.code t4), .acq 0 3 c3] ++ St.text p m h .befores) ++
      (St.text p m h .call ++ ([.exit (Cond.text m h .failed)
          ([.code "PyErr_Print();".toList, .clean 0 3 c3, .clean 0 2 c2, .clean 0 1 c1, .ret er]), .acq 0 4 c4] ++
      (St.text p m h .retBefore ++ ((if !empty then [.act (.code wrapText)] else []) ++
      ([.exit (Cond.text m h (if empty then .notNone else .parse))
          ([.code (if empty then none' else "PyErr_Print();".toList), .clean 0 4 c4, .clean 0 3 c3, .clean 0 2 c2,
            .clean 0 1 c1, .ret er])] ++
      (St.text p m h .afters ++ [.act (.clean 0 4 c4), .act (.clean 0 3 c3), .act (.clean 0 2 c2), .act (.clean 0 1 c1),
        .act (.ret rt)])))))) := by
  have x1 : ∀ s, St.text p m h (.code s) = [.act (.code s)] := fun _ => rfl
  have x2 : ∀ n s, St.text p m h (.due n s) = [.acq 0 n s] := fun _ _ => rfl
  have x3 : ∀ c pre cl r, St.text p m h (.exit c pre cl r) =
    [.exit (c.text m h) (pre.map .code ++ cl.map (fun x => .clean 0 x.1 x.2) ++ [.ret r])] := fun _ _ _ _ => rfl
  have x4 : ∀ n s, St.text p m h (.clean n s) = [.act (.clean 0 n s)] := fun _ _ => rfl
  have x5 : ∀ s, St.text p m h (.ret s) = [.act (.ret s)] := fun _ => rfl
  cases empty <;>
    simp only [shape, if_true, if_false, Bool.false_eq_true, List.flatMap_cons, List.flatMap_nil, x1,
      x2, x3, x4, x5, List.append_assoc, List.cons_append, List.nil_append, List.append_nil, List.map_cons,
      List.map_nil, Bool.not_true, Bool.not_false]

/-- **The text of a proxy is that of its plan**: for string handlers in any number and order, the function
body consists of exactly the statements of the plan, in order. -/
theorem body_plan {p : Proxy} {retDecl : Option Str} {ds : List RevD} {r : RevD} {w0 w : W}
    (hf : ∀ d ∈ ds, d.front = false) (ht : ∀ d ∈ r :: ds, ∀ u, d.back = some u → u.1 ≠ [])
    (h : reverseGenerate (p.config retDecl (ds.map RevD.convert) r.convert) w0 = .ok w)
    (h0 : w0.ops = []) (h1 : w0.build = []) (h2 : w0.parse = []) :
    ∃ gil m o, ∃ hn : Named, hn.params.map (·.1) = ds ∧ hn.ret.1 = r ∧
      (∀ x ∈ hn.ret :: hn.params, x.2.length = x.1.vars.length) ∧
      ((Gen.fresh (fun _ => p.errorReturn)).run w.ops).body 2 =
        (plan p gil m o hn).flatMap (St.text p m hn) := by
  obtain ⟨gil, m, o, hn, a1, a2, a3, hops⟩ := proxy_all hf ht h h0 h1 h2
  refine ⟨gil, m, o, hn, a1, a2, a3, ?_⟩
  rw [hops, run_append]
  have hA := proxy_blk p.errorReturn (ensureText gil) (releaseText gil) (lookupText m p.pyName)
    ("Py_XDECREF(".toList ++ m ++ ");".toList) (noOverrideTest m)
    (if p.isVoid then "return;".toList else p.newError.getD p.errorReturn)
    (o ++ " = ".toList ++ objText p ++ ";".toList)
    (objText p ++ " = ".toList ++
      (if p.isConst then "const_cast< ".toList ++ p.cls ++ "* >((const ".toList ++ p.cls ++ "*) this)".toList
        else "(".toList ++ p.cls ++ "*) this".toList) ++ ";".toList)
    (objText p ++ " = ".toList ++ o ++ ";".toList)
    (if p.isVoid ∧ !p.noParent then [p.parentCall] else []) p.newError
  have hB := proxy_blk1 p.errorReturn (ensureText gil) (releaseText gil) (lookupText m p.pyName)
    ("Py_XDECREF(".toList ++ m ++ ");".toList) (noOverrideTest m)
    (if p.isVoid then "return;".toList else p.newError.getD p.errorReturn)
    (o ++ " = ".toList ++ objText p ++ ";".toList)
    (objText p ++ " = ".toList ++
      (if p.isConst then "const_cast< ".toList ++ p.cls ++ "* >((const ".toList ++ p.cls ++ "*) this)".toList
        else "(".toList ++ p.cls ++ "*) this".toList) ++ ";".toList)
    (objText p ++ " = ".toList ++ o ++ ";".toList)
    (if p.isVoid ∧ !p.noParent then [p.parentCall] else []) p.newError
  generalize (Gen.fresh (fun _ => p.errorReturn)).run _ = gA at hA hB ⊢
  have hw1 : ∀ op ∈ hn.params.flatMap (fun h => h.1.ops h.2), ∃ i s, op = .write i s := by
    intro op hop
    obtain ⟨x, -, hx⟩ := List.mem_flatMap.mp hop
    exact ops_writes _ _ op hx
  have wf : ∀ (j : Nat) (l : List (RevD × List Str)),
      writesTo j (l.flatMap (fun h => h.1.ops h.2)) = l.flatMap (fun h => writesTo j (h.1.ops h.2)) := by
    intro j l
    induction l with
    | nil => rfl
    | cons x l ih => rw [List.flatMap_cons, writesTo_append, ih, List.flatMap_cons]
  rw [run_append]
  have c0 := run_writes _ gA hw1 0
  have c1 := run_writes _ gA hw1 1
  rw [hA, wf] at c0
  rw [hB, wf] at c1
  simp only [writesTo_ops0] at c0
  simp only [writesTo_ops1, List.nil_append] at c1
  generalize gA.run _ = gB at c0 c1 ⊢
  have hp : ∀ (b : Prop) [Decidable b] (x : Op) (y : List Op), (if b then [x] else y) =
      if (!decide b) = true then y else [x] := by
    intro b _ x y; by_cases hb : b <;> simp [hb]
  have hre := rest_blk gB _ _ _ _ _ _
    ("py_retval = PyObject_CallMethod(m_pyself, (char *) \"".toList ++ p.pyName ++
        "\", (char *) \"".toList ++ hn.units.flatMap (·.template) ++ "\"".toList ++
        (hn.units.flatMap (·.values)).flatMap (fun e => ", ".toList ++ e) ++ ");".toList)
    "py_retval == NULL".toList "PyErr_Print();".toList decrefText wrapText
    (if hn.parse = [] then "py_retval != Py_None".toList else (callText "!PyArg_ParseTuple" ("py_retval".toList ::
          ("(char *) \"".toList ++ hn.parse.flatMap (·.template) ++ "\"".toList) :: hn.parse.flatMap (·.values))))
    (if hn.parse = [] then "PyErr_SetString(PyExc_TypeError, \"function/method should return None\");".toList
      else "PyErr_Print();".toList)
    (if p.isVoid then "return;".toList else "return retval;".toList) (!decide (hn.parse = []))
    (hn.ret.1.ops hn.ret.2) (ops_writes _ _) c0 c1
  rw [writesTo_ops0, writesTo_ops1] at hre
  have hpre : (if p.isVoid = true ∧ (!p.noParent) = true then [p.parentCall] else []).map Act.code =
      (if p.isVoid = true ∧ (!p.noParent) = true then [Act.code p.parentCall] else []) := by split <;> rfl
  unfold plan
  rw [shape_text]
  have ha : St.text p m hn .afters = hn.params.flatMap (fun d => d.1.after.map (fun t => .act (.code (Wrap.render d.2 t)))) ++
      hn.ret.1.after.map (fun t => .act (.code (Wrap.render hn.ret.2 t))) := by
    simp only [St.text, List.flatMap_append, List.flatMap_cons, List.flatMap_nil, List.append_nil]
  have hcall : St.text p m hn .call = [.act (.code ("py_retval = PyObject_CallMethod(m_pyself, (char *) \"".toList ++ p.pyName ++
      "\", (char *) \"".toList ++ hn.units.flatMap (·.template) ++ "\"".toList ++
      (hn.units.flatMap (·.values)).flatMap (fun e => ", ".toList ++ e) ++ ");".toList))] := rfl
  rw [ha, hcall]
  by_cases hpz : hn.parse = []
  · simp only [hpz, decide_true, Bool.not_true, Bool.false_eq_true, if_false] at hre
    simp only [if_pos hpz]
    refine hre.trans ?_
    rw [hpz]
    simp only [List.append_assoc, List.isEmpty_nil, Bool.not_true, Bool.false_eq_true, if_false, if_true]
    rfl
  · simp only [hpz, decide_false, Bool.not_false, if_true] at hre
    simp only [if_neg hpz]
    refine hre.trans ?_
    have he : hn.parse.isEmpty = false := by
      cases hh : hn.parse with
      | nil => exact absurd hh hpz
      | cons a l => rfl
    rw [he]
    simp only [List.append_assoc, Bool.not_false, Bool.false_eq_true, if_false, if_true]
    rfl

end Verif.Exchange
