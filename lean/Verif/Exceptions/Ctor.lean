import Verif.Exceptions.Props
import Verif.CppClass.ConstructProps

/-!
# C73, C42: constructors that throw

`CppConstructor.generate_call` with `throw=...`, pybindgen/cppmethod.py:644-703, inside
`ForwardWrapperBase.generate_body`.  The statements of the call part are those of
`Verif/CppClass/Construct.lean` (C97); here they are put between `try` and the catch clauses, into the
block structure of the wrapper (`Verif/Wrapper/Forward.lean`).
-/
namespace Verif.Exceptions
open Verif Verif.Flow Verif.Wrap Verif.Names
open Verif.Construct (Cls Ctor Body callBody Refused Create Ptr)

/-- The text of a statement; `custom f type args` is what the user's function `f` writes (creation
functions, and post-creation functions with `type` and `args` empty).  cppclass.py:263-264,
smart_ptr.py:93-94, 129-130, cppmethod.py:657, 668, 677, 683-685, 819. -/
def stmtText (custom : Str → Str → List Str → Str) : Construct.Stmt → Str
  | .create (.plain .raw) t args => "self->obj = new ".toList ++ callText (String.ofList t) args ++ ";".toList
  | .create (.plain .boost) t args =>
    "self->obj.reset (new ".toList ++ callText (String.ofList t) args ++ ");".toList
  | .create (.plain .std) t args =>
    "self->obj = std::make_shared<".toList ++ t ++ ">(".toList ++ pyJoin ", ".toList args ++ ");".toList
  | .create (.custom f) t args => custom f t args
  | .callFn f args => "self->obj = ".toList ++ callText (String.ofList f) args ++ ";".toList
  | .own => "self->flags = PYBINDGEN_WRAPPER_FLAG_NONE;".toList
  | .setPyobj h => "((".toList ++ h ++ "*) self->obj)->set_pyobj((PyObject *)self);".toList
  | .post f => custom f [] []
  | .comment _ => []
  | .raise n => "PyErr_SetString(PyExc_TypeError, \"class '".toList ++ n ++ "' cannot be constructed\");".toList
  | .fail => "return -1;".toList

/-- The condition under which the code for the class itself runs, the negation of cppmethod.py:661. -/
def exactCond (pytype : Str) : Str := "!(Py_TYPE(self) != &".toList ++ pytype ++ ")".toList

/-- Two pieces of straight code, one for Python subclasses and one for the class itself,
cppmethod.py:661-692. -/
def ifText (pytype : Str) (sub exact : List Str) : Str :=
  "if (Py_TYPE(self) != &".toList ++ pytype ++ ")\n{\n".toList ++ pyJoin "\n".toList sub ++
    "\n} else {\n".toList ++ pyJoin "\n".toList exact ++ "\n}".toList

/-- The call part taken apart: how it may be left before anything is created, the statement that creates
the object, and the statements that follow it. -/
structure Parts where
  refusal : Option (Str × Str) := none
  make : Str
  rest : List Str

/-- The parts.  Two simplifications: if both branches create an object, the `if` is written as two `if`s with the
same condition, one around the creation and one around the rest, so that the statement that may throw stands
alone; comments are left out. -/
def parts (custom : Str → Str → List Str → Str) : Body → Parts
  | .straight l => { make := stmtText custom (l.headD .fail), rest := l.tail.map (stmtText custom) }
  | .bySub py sub [_, .raise n, .fail] =>
    { refusal := some (exactCond py, stmtText custom (.raise n))
      make := stmtText custom (sub.headD .fail), rest := sub.tail.map (stmtText custom) }
  | .bySub py sub exact =>
    { make := ifText py [stmtText custom (sub.headD .fail)] [stmtText custom (exact.tail.headD .fail)]
      rest := [ifText py (sub.tail.map (stmtText custom)) (exact.tail.tail.map (stmtText custom))] }

/-- The operations of `generate_call`, cppmethod.py:644-703.  The catch clauses are placed directly behind the
statement that may throw: what an exception skips is not executed. -/
def ctorOps (P : Parts) (cs : List (Str × Str)) : List Op :=
  (if cs = [] then [] else [.write 1 "try\n{".toList]) ++
  (P.refusal.toList.map fun r => .bare 1 r.1 [r.2] "return -1;".toList) ++
  .write 1 P.make :: (cs.map (catchClause "return -1;".toList) ++ P.rest.map (.write 1))

/-- `CppConstructor.generate_call`, cppmethod.py:644-703, and `CppFunctionAsConstructor.generate_call`, 812-821,
which has no catch clauses. -/
def ctorCall (custom : Str → Str → List Str → Str) (K : Cls) (c : Ctor) (cs : List (Str × Str)) : Gen1 := fun w => do
  let b ← callBody K { c with args := w.call }
  pure { w with ops := w.ops ++ ctorOps (parts custom b) (if c.function.isSome then [] else cs) }

/-- The wrapper of a constructor, cppmethod.py:563-572, 705-713: no return value, keyword arguments always. -/
def ctorConfig (custom : Str → Str → List Str → Str) (K : Cls) (c : Ctor) (cs : List (Str × Str)) (unblock : Bool)
    (params : List Gen1) (dep : Option Str) (before after : List (Str × Str)) : Config :=
  { unblock, params, deprecated := dep, pre := addWards 1 before, call := ctorCall custom K c cs
    force := some .keywords, haveRet := false, ret := none, post := addWards 2 after }

/-- The statements `ctorOps` adds. -/
def ctorStmts (P : Parts) (cs : List (Str × Str)) (cl : List Act) : List Flow.Stmt :=
  (if cs = [] then [] else [.act (.code "try\n{".toList)]) ++
  (P.refusal.toList.map fun r => .exit r.1 [.code r.2, .ret "return -1;".toList]) ++
  .act (.code P.make) ::
    ((cs.map (fun e => (catchText e.1, (cl ++ [.code e.2, .ret "return -1;".toList] : List Act)))).map (fun p => .exit p.1 p.2) ++
      P.rest.map (fun s => .act (.code s)))

theorem run_writes (i : Nat) : ∀ (l : List Str) (g : Gen),
    (∀ j, ((g.run (l.map (.write i))) j).due = (g j).due) ∧
    ∀ j, ((g.run (l.map (.write i))) j).stmts = if j = i then (g i).stmts ++ l.map (fun s => .act (.code s)) else (g j).stmts
  | [], g => ⟨fun _ => rfl, fun j => by
      simp only [List.map_nil, List.append_nil]
      change (g j).stmts = _
      split
      · rename_i h; rw [h]
      · rfl⟩
  | s :: l, g => by
    have ih := run_writes i l (g.emit i [.act (.code s)])
    refine ⟨fun j => ?_, fun j => ?_⟩
    · change (((g.emit i [.act (.code s)]).run (l.map (.write i))) j).due = _
      rw [ih.1 j, due_emit]
    · change (((g.emit i [.act (.code s)]).run (l.map (.write i))) j).stmts = _
      rw [ih.2 j]
      simp only [stmts_emit]
      split
      · simp
      · rfl

/-- What the operations add to the blocks. -/
theorem run_ctor (P : Parts) (cs : List (Str × Str)) (g : Gen) :
    (∀ j, ((g.run (ctorOps P cs)) j).due = (g j).due) ∧
    ∀ j, ((g.run (ctorOps P cs)) j).stmts = if j = 1 then (g 1).stmts ++ ctorStmts P cs (g.cleanup 1) else (g j).stmts := by
  unfold ctorOps ctorStmts catchText
  generalize "return -1;".toList = r0
  generalize htry : "try\n{".toList = tr
  generalize ht1 : "catch (".toList = t1
  generalize ht2 : " const &exc)".toList = t2
  have h1 : ∃ g1, g1 = g.run (if cs = [] then [] else [.write 1 tr]) := ⟨_, rfl⟩
  obtain ⟨g1, e1⟩ := h1
  have q1 : g1 = g.emit 1 (if cs = [] then [] else [.act (.code tr)]) := by
    rw [e1]
    split
    · change g = g.emit 1 []
      funext j
      unfold Gen.emit Gen.upd
      by_cases hj : j = 1
      · subst hj; simp
      · simp [hj]
    · rfl
  have h2 : ∃ g2, g2 = g1.run (P.refusal.toList.map fun r => .bare 1 r.1 [r.2] r0) := ⟨_, rfl⟩
  obtain ⟨g2, e2⟩ := h2
  have q2 : g2 = g1.emit 1 (P.refusal.toList.map fun r => .exit r.1 [.code r.2, .ret r0]) := by
    rw [e2]
    cases P.refusal with
    | none =>
      change g1 = g1.emit 1 []
      funext j
      unfold Gen.emit Gen.upd
      by_cases hj : j = 1
      · subst hj; simp
      · simp [hj]
    | some r => rfl
  rw [run_append, run_append, ← e1, ← e2]
  change (∀ j, (((g2.emit 1 [.act (.code P.make)]).run _) j).due = _) ∧ _
  change _ ∧ ∀ j, (((g2.emit 1 [.act (.code P.make)]).run _) j).stmts = _
  rw [run_append]
  have h3 := run_catch r0 cs (g2.emit 1 [.act (.code P.make)])
  simp only [ht1, ht2] at h3
  have h4 := run_writes 1 P.rest ((g2.emit 1 [.act (.code P.make)]).run (cs.map (catchClause r0)))
  refine ⟨fun j => ?_, fun j => ?_⟩
  · rw [h4.1, h3.1, due_emit, q2, due_emit, q1, due_emit]
  · rw [h4.2, h3.2, h3.2, if_pos rfl]
    simp only [stmts_emit, cleanup_emit, q2, q1, if_true]
    split
    · simp only [List.append_assoc, List.cons_append, List.nil_append]
    · rfl

/-- The call part of a constructor: refused for the class itself exactly if there is a helper class and the class
cannot be instantiated by this constructor. -/
theorem parts_refusal (custom : Str → Str → List Str → Str) {K : Cls} {c : Ctor} {b : Body} (h : callBody K c = .ok b) :
    ((parts custom b).refusal = none ↔ ¬ (c.function = none ∧ K.helper.isSome ∧ Refused K c)) ∧
    ∀ r, (parts custom b).refusal = some r →
      r = (exactCond K.pytype, "PyErr_SetString(PyExc_TypeError, \"class '".toList ++ K.name ++ "' cannot be constructed\");".toList) := by
  unfold callBody at h
  split at h
  · rename_i f hf
    split at h
    · cases h
    · cases h
      exact ⟨by simp [parts, hf], by simp [parts]⟩
  · rename_i hf
    split at h
    · rename_i hh
      obtain ⟨n, -, h⟩ := Wrap.bind_ok.mp h
      obtain ⟨s, -, h⟩ := Wrap.bind_ok.mp h
      cases h
      exact ⟨by simp [parts, hh], by simp [parts]⟩
    · rename_i hp hh
      obtain ⟨s, -, h⟩ := Wrap.bind_ok.mp h
      by_cases hr : Refused K c
      · have hx : ∃ e, (if c.vis ≠ .pub then (.error .codeGenerationError : PyRes Str) else K.constructName) = .error e := by
          unfold Refused at hr
          unfold Cls.constructName
          by_cases h1 : c.vis = .pub
          · rw [if_neg (by simp [h1])]
            rcases hr with hr | hr | hr
            · exact absurd h1 hr
            · exact ⟨_, if_pos hr⟩
            · by_cases h2 : K.cannot ≠ []
              · exact ⟨_, if_pos h2⟩
              · exact ⟨_, (if_neg h2).trans (if_pos hr)⟩
          · exact ⟨_, if_pos h1⟩
        obtain ⟨e, he⟩ := hx
        rw [he] at h
        cases h
        refine ⟨by simp [parts, hh, hr, hf], fun r hr => ?_⟩
        cases hr; rfl
      · have hx : (if c.vis ≠ .pub then (.error .codeGenerationError : PyRes Str) else K.constructName) = .ok K.full := by
          unfold Refused at hr
          have h1 : c.vis = .pub := by
            by_cases h : c.vis = .pub
            · exact h
            · exact absurd (Or.inl h) hr
          have h2 : ¬ K.cannot ≠ [] := fun h => hr (Or.inr (Or.inl h))
          have h3 : ¬ K.abstract = true := fun h => hr (Or.inr (Or.inr h))
          rw [if_neg (by simp [h1])]
          unfold Cls.constructName
          rw [if_neg h2, if_neg h3]
        rw [hx] at h
        obtain ⟨e, he, h⟩ := Wrap.bind_ok.mp h
        cases h
        have hn : (parts custom (.bySub K.pytype ([s, .own, .setPyobj hp.name] ++ Construct.postStmts K)
            ([.comment c.vis, e, .own] ++ Construct.postStmts K))).refusal = none := by
          have : ∀ m, e ≠ .raise m := by
            intro m hm
            subst hm
            unfold Construct.createStmt at he
            split at he
            · cases he
            · split at he <;> cases he
          unfold parts
          split
          · rfl
          · rename_i n heq
            simp only [List.cons_append, Body.bySub.injEq, List.cons.injEq] at heq
            exact absurd heq.2.2.2.1 (this _)
          · rfl
        exact ⟨⟨fun _ hx => hr hx.2.2, fun _ => hn⟩, fun r hx => by rw [hn] at hx; cases hx⟩

instance (K : Cls) (c : Ctor) : Decidable (Refused K c) := by unfold Refused; infer_instance

theorem ctor_shape {c : Config} {custom : Str → Str → List Str → Str} {K : Cls} {k : Ctor} {cs : List (Str × Str)}
    (hf : k.function = none) (hc : c.call = ctorCall custom K k cs)
    (hret : ∀ r, c.ret = some r → OpsIn (fun _ => True) r) (hpost : OpsIn (fun _ => True) c.post)
    {w0 w : W} (h : generateBody c w0 = .ok w) (er : Nat → Str) :
    ∃ A args b cl B, callBody K { k with args } = .ok b ∧
      ((Gen.fresh er).run w.ops).body 3 = A ++ (ctorStmts (parts custom b) cs cl ++ B) ∧
      ∀ a ∈ cl, ∃ i k s, a = Act.clean i k s := by
  obtain ⟨wa, ts, wb, wc, wd, we, wf, wg, h1, h2, h3, h4, h5, h6, h7, rfl⟩ := generateBody_stages h
  rw [hc] at h4
  generalize saveStep c.unblock ts wc = ws at h4
  obtain ⟨b, hb, h4⟩ := bind_ok.mp h4
  have ek : wd.ops = ws.ops ++ ctorOps (parts custom b) cs := by
    cases h4
    rw [hf]; rfl
  obtain ⟨lp, ep, -⟩ := parseStep_ops h5
  have hr : ∃ l, wf.ops = we.ops ++ l := by
    unfold retStep at h6
    split at h6
    · rename_i r hr
      obtain ⟨l, e, -⟩ := hret r hr _ _ (guardNI_ok.mp h6)
      exact ⟨l, e⟩
    · split at h6
      · cases h6
      · cases h6; exact ⟨[], by simp⟩
  obtain ⟨lr, er'⟩ := hr
  obtain ⟨lo, eo, -⟩ := hpost _ _ h7
  obtain ⟨lf, ef, -⟩ := finishStep_ops c wg
  have hops : (finishStep c wg).ops = ws.ops ++ ctorOps (parts custom b) cs ++ (lp ++ lr ++ lo ++ lf) := by
    rw [ef, eo, er', ep, ek]; simp
  rw [hops, run_append _ (_ ++ _) (lp ++ lr ++ lo ++ lf), run_append (Gen.fresh er) ws.ops]
  generalize (Gen.fresh er).run ws.ops = g1
  obtain ⟨-, c2⟩ := run_ctor (parts custom b) cs g1
  generalize g1.run (ctorOps (parts custom b) cs) = g2 at c2
  obtain ⟨l1, e1⟩ := run_grows (lp ++ lr ++ lo ++ lf) g2 1
  refine ⟨((g2.run (lp ++ lr ++ lo ++ lf)) 0).stmts ++ (g1 1).stmts, ws.call, b, g1.cleanup 1,
    l1 ++ ((g2.run (lp ++ lr ++ lo ++ lf)) 2).stmts, hb, ?_, ?_⟩
  · simp only [Gen.body, List.nil_append]
    rw [e1, c2 1, if_pos rfl]
    simp [List.append_assoc]
  · intro a ha
    simp only [Gen.cleanup, List.mem_append, List.mem_map] at ha
    rcases ha with ⟨p, -, rfl⟩ | ⟨p, -, rfl⟩ <;> exact ⟨_, _, _, rfl⟩

/-- **C73, constructors.**  Take the wrapper of any constructor declared with `throw=excs`, of any class, whatever its
parameters and hooks.  From the call on, every execution in which creating the object throws an instance of some
listed class either does not get that far, because the class itself cannot be instantiated and a `TypeError` is
set; or it runs the statement that creates the object, the cleanups due, sets the Python exception declared for the
*first* listed class the object thrown is an instance of, with its message, and returns -1: nothing else runs, so the
Python object is left as it was. -/
theorem C73_constructor_partial (pre : Str) (c : Config) (custom : Str → Str → List Str → Str) (K : Cls) (k : Ctor)
    (hf : k.function = none) (excs : List Exc) (cs : List (Str × Str)) (hcs : clauses pre excs = some cs)
    (hc : c.call = ctorCall custom K k cs)
    (hret : ∀ r, c.ret = some r → OpsIn (fun _ => True) r) (hpost : OpsIn (fun _ => True) c.post)
    (w0 w : W) (h : generateBody c w0 = .ok w) (er : Nat → Str) :
    ∃ A args b cl B, callBody K { k with args } = .ok b ∧
      ((Gen.fresh er).run w.ops).body 3 = A ++ (ctorStmts (parts custom b) cs cl ++ B) ∧
      (∀ a ∈ cl, ∃ i k s, a = Act.clean i k s) ∧
      ∀ isa t, Path (ctorStmts (parts custom b) cs cl ++ B) t → Throws isa t →
        ∀ e, excs.find? (fun e => isa e.decl.fullName) = some e →
          (K.helper.isSome ∧ Refused K k ∧
            t = [.did (.code "try\n{".toList), .left (exactCond K.pytype),
              .did (.code ("PyErr_SetString(PyExc_TypeError, \"class '".toList ++ K.name ++ "' cannot be constructed\");".toList)),
              .did (.ret "return -1;".toList)]) ∨
          ∃ (msg : Option Str) (passed : List Str), (∀ m, e.message = some m → ∃ s, formatExc "exc".toList m = some s ∧ msg = some s) ∧
            (e.message = none → msg = none) ∧ (∀ x ∈ passed, isa x = false) ∧
            t = .did (.code "try\n{".toList) ::
              ((if K.helper.isSome ∧ Refused K k then [.passed (exactCond K.pytype)] else []) ++
              .did (.code (parts custom b).make) ::
              (passed.map (fun n => .passed (catchText n)) ++ .left (catchText e.decl.fullName) ::
                (cl ++ [Act.code (raiseText (e.decl.pytypestruct pre) msg), Act.ret "return -1;".toList]).map .did)) := by
  obtain ⟨A, args, b, cl, B, hb, hbody, hcl⟩ := ctor_shape hf hc hret hpost h er
  refine ⟨A, args, b, cl, B, hb, hbody, hcl, ?_⟩
  intro isa t ht hthrow e he
  obtain ⟨txt, htxt, hfind⟩ := clauses_find hcs he
  have hne : cs ≠ [] := by rintro rfl; cases hfind
  obtain ⟨hr1, hr2⟩ := parts_refusal custom hb
  have key : ∀ t', Path (.act (.code (parts custom b).make) ::
      ((cs.map (fun e => (catchText e.1, (cl ++ [.code e.2, .ret "return -1;".toList] : List Act)))).map (fun p => .exit p.1 p.2) ++
        ((parts custom b).rest.map (fun s => .act (.code s)) ++ B))) t' → Throws isa t' →
      ∃ (msg : Option Str) (passed : List Str), (∀ m, e.message = some m → ∃ s, formatExc "exc".toList m = some s ∧ msg = some s) ∧
            (e.message = none → msg = none) ∧ (∀ x ∈ passed, isa x = false) ∧
            t' = .did (.code (parts custom b).make) ::
              (passed.map (fun n => .passed (catchText n)) ++ .left (catchText e.decl.fullName) ::
                (cl ++ [Act.code (raiseText (e.decl.pytypestruct pre) msg), Act.ret "return -1;".toList]).map .did) := by
    intro t' ht' hth'
    cases ht' with
    | @code _ _ t1 ht =>
    obtain ⟨bb, a, -, hb, rfl⟩ := exits_first (isa := isa) (f := fun e => cl ++ [.code e.2, .ret "return -1;".toList])
      (excs := cs) ht
      (fun n => ⟨fun hm => (hth' n).1 (List.mem_cons_of_mem _ hm), fun hm => (hth' n).2 (List.mem_cons_of_mem _ hm)⟩) _ hfind
    have hpass : ∀ x ∈ bb.map (·.1), isa x = false := by
      intro x hx
      obtain ⟨y, hy, rfl⟩ := List.mem_map.mp hx
      exact hb y hy
    unfold Exc.convert at htxt
    cases hm : e.message with
    | none =>
      rw [hm] at htxt
      cases htxt
      exact ⟨none, bb.map (·.1), by simp, fun _ => rfl, hpass, by rw [List.map_map]; rfl⟩
    | some m =>
      rw [hm] at htxt
      simp only [Option.map_eq_some_iff] at htxt
      obtain ⟨s, hs, rfl⟩ := htxt
      refine ⟨some s, bb.map (·.1), ?_, by simp, hpass, by rw [List.map_map]; rfl⟩
      intro m' hm'
      cases hm'
      exact ⟨s, hs, rfl⟩
  unfold ctorStmts at ht
  rw [if_neg hne] at ht
  cases hrf : (parts custom b).refusal with
  | none =>
    have hno : ¬ (K.helper.isSome ∧ Refused K k) := fun hx => (hr1.mp hrf) ⟨hf, hx.1, hx.2⟩
    rw [hrf] at ht
    simp only [Option.toList_none, List.map_nil, List.append_nil, List.cons_append, List.nil_append, List.append_assoc] at ht
    cases ht with
    | @code _ _ t1 ht =>
    obtain ⟨msg, passed, h1, h2, h3, h4⟩ := key _ ht
      (fun n => ⟨fun hm => (hthrow n).1 (List.mem_cons_of_mem _ hm), fun hm => (hthrow n).2 (List.mem_cons_of_mem _ hm)⟩)
    refine Or.inr ⟨msg, passed, h1, h2, h3, ?_⟩
    rw [if_neg hno, h4]; rfl
  | some r =>
    have hyes : K.helper.isSome ∧ Refused K k := by
      by_cases hx : K.helper.isSome ∧ Refused K k
      · exact hx
      · have := hr1.mpr (fun hy => hx ⟨hy.2.1, hy.2.2⟩)
        rw [hrf] at this; cases this
    have hr := hr2 r hrf
    rw [hrf] at ht
    simp only [Option.toList_some, List.map_cons, List.map_nil, List.cons_append, List.nil_append, List.append_assoc] at ht
    rw [hr] at ht
    cases ht with
    | @code _ _ t1 ht =>
    cases ht with
    | @pass _ _ _ t2 ht =>
      obtain ⟨msg, passed, h1, h2, h3, h4⟩ := key _ ht
        (fun n => ⟨fun hm => (hthrow n).1 (List.mem_cons_of_mem _ (List.mem_cons_of_mem _ hm)),
          fun hm => (hthrow n).2 (List.mem_cons_of_mem _ (List.mem_cons_of_mem _ hm))⟩)
      refine Or.inr ⟨msg, passed, h1, h2, h3, ?_⟩
      rw [if_pos hyes, h4]; rfl
    | leave => exact Or.inl ⟨hyes.1, hyes.2, rfl⟩

/-- The statement that creates the object passes exactly the arguments converted: for a class without helper it is
the creation of the class itself; with one, of the helper for Python subclasses. -/
theorem C73_make (custom : Str → Str → List Str → Str) (K : Cls) (k : Ctor) (hf : k.function = none)
    (hc : ∀ l ∈ K.mro, l.custom = none) (hraw : ∀ l ∈ K.mro, l.policy = none) (b : Body) (h : callBody K k = .ok b) :
    (parts custom b).make =
      let new := fun t : Str => "self->obj = new ".toList ++ callText (String.ofList t) k.args ++ ";".toList
      match K.helper with
      | none => new K.full
      | some hp =>
        if k.vis ≠ .pub ∨ K.cannot ≠ [] ∨ K.abstract = true then new hp.name
        else ifText K.pytype [new hp.name] [new K.full] := by
  have hcr : Construct.creationOf K.mro = .plain .raw := by
    unfold Construct.creationOf
    have : K.mro.findSome? (·.custom) = none := by
      rw [List.findSome?_eq_none_iff]
      exact hc
    rw [this]
    dsimp only
    cases hl : K.mro.getLast? with
    | none => rfl
    | some l =>
      have := hraw l (List.mem_of_getLast? hl)
      simp [this, Construct.ptrOf]
  have hs : ∀ t s, Construct.createStmt K t k.args = .ok s → s = .create (.plain .raw) t k.args := by
    intro t s h
    unfold Construct.createStmt at h
    rw [hcr] at h
    dsimp only at h
    split at h
    · cases h
    · cases h; rfl
  unfold callBody at h
  rw [hf] at h
  dsimp only at h
  cases hh : K.helper with
  | none =>
    rw [hh] at h
    dsimp only at h
    obtain ⟨n, hn, h⟩ := Wrap.bind_ok.mp h
    obtain ⟨s, hs', h⟩ := Wrap.bind_ok.mp h
    cases h
    rw [hs _ _ hs']
    have : n = K.full := by
      unfold Cls.constructName at hn
      split at hn
      · cases hn
      · split at hn
        · cases hn
        · cases hn; rfl
    subst this
    rfl
  | some hp =>
    rw [hh] at h
    dsimp only at h ⊢
    obtain ⟨s, hs', h⟩ := Wrap.bind_ok.mp h
    have e1 := hs _ _ hs'
    split
    · rename_i hr
      have hx : ∃ e, (if k.vis ≠ .pub then (.error .codeGenerationError : PyRes Str) else K.constructName) = .error e := by
        unfold Cls.constructName
        by_cases h1 : k.vis = .pub
        · rw [if_neg (by simp [h1])]
          rcases hr with hr | hr | hr
          · exact absurd h1 hr
          · exact ⟨_, if_pos hr⟩
          · by_cases h2 : K.cannot ≠ []
            · exact ⟨_, if_pos h2⟩
            · exact ⟨_, (if_neg h2).trans (if_pos hr)⟩
        · exact ⟨_, if_pos h1⟩
      obtain ⟨e, he⟩ := hx
      rw [he] at h
      cases h
      rw [e1]; rfl
    · rename_i hr
      have h1 : k.vis = .pub := by
        by_cases h : k.vis = .pub
        · exact h
        · exact absurd (Or.inl h) hr
      have h2 : ¬ K.cannot ≠ [] := fun h => hr (Or.inr (Or.inl h))
      have h3 : ¬ K.abstract = true := fun h => hr (Or.inr (Or.inr h))
      have hx : (if k.vis ≠ .pub then (.error .codeGenerationError : PyRes Str) else K.constructName) = .ok K.full := by
        rw [if_neg (by simp [h1])]
        unfold Cls.constructName
        rw [if_neg h2, if_neg h3]
      rw [hx] at h
      obtain ⟨e, he, h⟩ := Wrap.bind_ok.mp h
      cases h
      rw [e1, hs _ _ he]
      rfl

/-- **C42, constructors.**  Every execution of the wrapper of a constructor runs exactly the cleanups registered on its
way, each once, newest first, unless there is a helper class and the class itself cannot be instantiated. -/
theorem C42_constructor_partial (custom : Str → Str → List Str → Str) (K : Cls) (k : Ctor)
    (hok : ¬ (k.function = none ∧ K.helper.isSome ∧ Refused K k)) (cs : List (Str × Str)) (unblock : Bool)
    (ps : List ParamH) (dep : Option Str) (before after : List (Str × Str)) (w0 w : W) (h0 : w0.ops = [])
    (h : generateBody (ctorConfig custom K k cs unblock (ps.map ParamH.convert) dep before after) w0 = .ok w)
    (er : Nat → Str) (t : List Ev) (ht : Path (((Gen.fresh er).run w.ops).body 3) t) :
    cleaned t = (taken t).reverse ∧ ∃ t1 t2, t = t1 ++ t2 ∧ cleaned t1 = [] ∧ taken t2 = [] := by
  refine C42_forward_partial _ w0 w h0 h ?_ ?_ ?_ ?_ ?_ er t ht
  · intro p hp
    simp only [ctorConfig, List.mem_map] at hp
    obtain ⟨q, -, rfl⟩ := hp
    exact opsIn_paramH q
  · exact opsIn_addWards 1 (fun _ => trivial) (fun _ => rfl) before
  · intro w w' hw
    obtain ⟨b, hb, hw⟩ := bind_ok.mp hw
    have hn : (parts custom b).refusal = none := (parts_refusal custom hb).1.mpr hok
    cases hw
    refine ⟨_, rfl, ?_⟩
    intro op hop
    unfold ctorOps at hop
    rw [hn] at hop
    generalize (if k.function.isSome = true then [] else cs) = cs' at hop
    simp only [Option.toList_none, List.map_nil, List.append_nil, List.mem_append, List.mem_cons, List.mem_map] at hop
    rcases hop with hop | rfl | ⟨e, -, rfl⟩ | ⟨s, -, rfl⟩
    · split at hop
      · cases hop
      · simp only [List.mem_singleton] at hop; subst hop; simp [Early]
    · simp [Early]
    · simp [Early, catchClause]
    · simp [Early]
  · intro r hr; cases hr
  · exact opsIn_addWards 2 (fun _ => rfl) (fun _ => rfl) after

/-! ## Examples -/

def thrower : Cls := { full := "ns::Foo".toList, name := "Foo".toList, pytype := "PyFoo_Type".toList }

/-- An abstract class with a helper. -/
def shape : Cls :=
  { thrower with abstract := true, helper := some { name := "PyFoo__PythonHelper".toList } }

def noCustom : Str → Str → List Str → Str := fun _ _ _ => []

def keyClause : List (Str × Str) :=
  [("std::out_of_range".toList, "PyErr_SetNone((PyObject *) PyExc_KeyError);".toList)]

def ctorSample (K : Cls) : Config :=
  ctorConfig noCustom K {} keyClause false [ParamH.convert (.scalar (byValue "i".toList "int".toList "a".toList none))]
    none [("self".toList, "a".toList)] []

/-- Non-vacuity: the wrapper of a constructor that throws, with a custodian, can be generated. -/
example : (generateBody (ctorSample thrower) {}).toOption.map (fun w => w.ops.drop 4) = some
    [.write 1 "try\n{".toList, .write 1 "self->obj = new ns::Foo(a);".toList,
     .branch 1 "catch (std::out_of_range const &exc)".toList [] ["PyErr_SetNone((PyObject *) PyExc_KeyError);".toList]
       "return -1;".toList,
     .write 1 "self->flags = PYBINDGEN_WRAPPER_FLAG_NONE;".toList,
     .check 0 "!PyArg_ParseTupleAndKeywords(args, kwargs, (char *) \"i\", (char **) keywords, &a)".toList none,
     .cleanup 2] := by decide +kernel

/-- An abstract class with a helper class and a constructor that keeps an argument alive: calling the class itself
raises `TypeError` as it should, but the list of wards obtained before is never released. -/
theorem C42_constructor_counterexample :
    ∃ ops, (generateBody (ctorSample shape) {}).toOption.map (fun w => w.ops) = some ops ∧
    ∃ t, Path (((Gen.fresh (fun _ => "return -1;".toList)).run ops).body 3) t ∧
      (∃ k s, taken t = [(1, k, s)]) ∧ cleaned t = [] ∧
      t.getLast? = some (.did (.ret "return -1;".toList)) := by
  refine ⟨[.write 1 "wards = PyObject_GetAttrString(self, (char *) \"__wards__\");".toList,
    .write 1 "if (wards == NULL) {\n    PyErr_Clear();\n    wards = PyList_New(0);\n    PyObject_SetAttrString(self, (char *) \"__wards__\", wards);\n}".toList,
    .write 1 "if (a && !PySequence_Contains(wards, a))\n    PyList_Append(wards, a);".toList,
    .add 1 "Py_DECREF(wards);".toList,
    .write 1 "try\n{".toList,
    .bare 1 "!(Py_TYPE(self) != &PyFoo_Type)".toList
      ["PyErr_SetString(PyExc_TypeError, \"class 'Foo' cannot be constructed\");".toList] "return -1;".toList,
    .write 1 "self->obj = new PyFoo__PythonHelper(a);".toList,
    .branch 1 "catch (std::out_of_range const &exc)".toList [] ["PyErr_SetNone((PyObject *) PyExc_KeyError);".toList]
       "return -1;".toList,
    .write 1 "self->flags = PYBINDGEN_WRAPPER_FLAG_NONE;".toList,
    .write 1 "((PyFoo__PythonHelper*) self->obj)->set_pyobj((PyObject *)self);".toList,
    .check 0 "!PyArg_ParseTupleAndKeywords(args, kwargs, (char *) \"i\", (char **) keywords, &a)".toList none,
    .cleanup 2], by decide +kernel, _, .pass (.code (.code (.code (.acq (.code .leave))))), ⟨_, _, rfl⟩, rfl, rfl⟩

end Verif.Exceptions
