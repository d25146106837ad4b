import Verif.Wrapper.TrialFlagsProps

/-!
# C127: functions whose generation changes their return handler
-/
namespace Verif.Trial
open Verif Verif.CodeBlock Verif.DeclScope Verif.Params

/-! ## Lemmas -/

/-- The second state has named parameters and knows the variables of the handlers that the first knows. -/
def Alike (s t : St) : Prop :=
  AllNamed t.core.parse ∧ ∀ k, (s.names k).isSome → (t.names k).isSome

/-- Where one step succeeds, so does the other. -/
def Steady (g g' : Stage) : Prop :=
  ∀ s t, Alike s t → (g s).2 = none → (g' t).2 = none ∧ Alike (g s).1 (g' t).1

theorem Steady.andThen {g g' h h' : Stage} (hg : Steady g g') (hh : Steady h h') :
    Steady (g.andThen h) (g'.andThen h') := by
  intro s t ha he
  obtain ⟨n1, e1⟩ := andThen_none he
  rw [e1] at he ⊢
  obtain ⟨n2, a2⟩ := hg s t ha n1
  have e2 : g'.andThen h' t = h' (g' t).1 := by
    unfold Stage.andThen
    rcases hq : g' t with ⟨t1, _ | e⟩
    · rfl
    · rw [hq] at n2; cases n2
  rw [e2]
  exact hh _ _ a2 he

theorem implemented_none {g : Stage} {s : St} : (implemented g s).2 = none ↔ (g s).2 = none := by
  unfold implemented
  rcases g s with ⟨s1, _ | e⟩
  · exact Iff.rfl
  · cases e <;> simp

theorem implemented_state {g : Stage} {s : St} : (implemented g s).1 = (g s).1 := by
  unfold implemented
  rcases g s with ⟨s1, _ | e⟩
  · rfl
  · cases e <;> rfl

theorem Steady.implemented {g g' : Stage} (h : Steady g g') : Steady (implemented g) (implemented g') := by
  intro s t ha he
  rw [implemented_none] at he
  obtain ⟨n, a⟩ := h s t ha he
  rw [implemented_none, implemented_state, implemented_state]
  exact ⟨n, a⟩

theorem convertAll_steady (gs : List Stage) (h : ∀ g ∈ gs, Steady g g) : Steady (convertAll gs) (convertAll gs) := by
  induction gs with
  | nil => exact fun s t ha _ => ⟨rfl, ha⟩
  | cons g gs ih =>
    unfold convertAll
    exact (h g (List.mem_cons_self ..)).implemented.andThen (ih (fun g' hg => h g' (List.mem_cons_of_mem _ hg)))

/-- Statements that cannot fail. -/
def Safe : Op → Bool
  | .writeCode .. => true
  | .errorCheck .. => true
  | .add .. => true
  | .writeCleanup .. => true
  | _ => false

theorem writeAll_core (m : CodeSink.Mem) (l : List Str) : (writeAll m l).core = m.core := by
  induction l generalizing m with
  | nil => rfl
  | cons x l ih => exact ih _

theorem safe_block (c : Core) (o : Op) (h : Safe o = true) : (c.block o).2 = none := by
  unfold Core.block
  have : ∃ d, c.chain.step o = .ok d := by
    cases o with
    | writeCode i s => exact ⟨_, rfl⟩
    | add i s => exact ⟨_, rfl⟩
    | writeCleanup i => exact ⟨_, rfl⟩
    | errorCheck i e x =>
      unfold Chain.step Chain.writeErrorCheckTo
      have hu : ∀ m : CodeSink.Mem, ∀ n : Nat, ∃ k,
          ((c.chain.writeErrorReturnTo i { m with core := m.core.indent 4 }).core.unindent = .ok k) := by
        intro m n
        unfold Chain.writeErrorReturnTo Chain.writeCleanupTo
        show ∃ k, (writeAll _ _).core.unindent = .ok k
        rw [writeAll_core]
        exact ⟨_, rfl⟩
      cases x with
      | none =>
        obtain ⟨k, hk⟩ := hu ((c.chain i).sink.writeln ("if (".toList ++ e ++ ") {".toList)) 0
        simp only [bind, Except.bind, hk, pure, Except.pure]
        exact ⟨_, rfl⟩
      | some x =>
        have : ∃ k, ((c.chain.writeErrorReturnTo i (CodeSink.Mem.writeln { (c.chain i).sink.writeln ("if (".toList ++ e ++ ") {".toList) with
            core := ((c.chain i).sink.writeln ("if (".toList ++ e ++ ") {".toList)).core.indent 4 } x)).core.unindent = .ok k) := by
          unfold Chain.writeErrorReturnTo Chain.writeCleanupTo
          show ∃ k, (writeAll _ _).core.unindent = .ok k
          rw [writeAll_core]
          exact ⟨_, rfl⟩
        obtain ⟨k, hk⟩ := this
        simp only [bind, Except.bind, hk, pure, Except.pure]
        exact ⟨_, rfl⟩
    | _ => cases h
  obtain ⟨d, hd⟩ := this
  rw [hd]

theorem safe_blocks (c : Core) (os : List Op) (h : ∀ o ∈ os, Safe o = true) :
    (c.blocks os).2 = none ∧ (c.blocks os).1.parse = c.parse := by
  induction os generalizing c with
  | nil => exact ⟨rfl, rfl⟩
  | cons o os ih =>
    unfold Core.blocks
    have h1 := safe_block c o (h o (List.mem_cons_self ..))
    have h2 := block_parse c o
    rcases hq : c.block o with ⟨c1, _ | e⟩ <;> rw [hq] at h1 h2
    · obtain ⟨a, b⟩ := ih c1 (fun o' ho => h o' (List.mem_cons_of_mem _ ho))
      exact ⟨a, b.trans h2⟩
    · cases h1

theorem joinScan_names (n n' : Str) (l acc : List Char) :
    (∃ d, joinScan n l acc = .ok d) → ∃ d, joinScan n' l acc = .ok d := by
  induction l generalizing acc with
  | nil => unfold joinScan; intro h; exact h.elim nofun
  | cons c l ih =>
    unfold joinScan
    split
    · intro _; split
      · exact ⟨_, rfl⟩
      · exact ⟨_, rfl⟩
    · exact fun h => ih _ h

/-- Whether a declaration is possible depends on the type only. -/
theorem declare_steady (c d : Core) (t n : Str) (i a i' a' : Option Str)
    (h : ∃ v, (c.declare t n i a).2 = .ok v) : ∃ v', (d.declare t n i' a').2 = .ok v' := by
  have key : ∀ (c : Core) (i a : Option Str), (∃ v, (c.declare t n i a).2 = .ok v) ↔
      ∃ x, joinCtypeAndName t (Family.pick ⟨c.counts, fun _ => c.decls⟩ n).2 = .ok x := by
    intro c i a
    unfold Core.declare Family.declare
    dsimp only
    rcases joinCtypeAndName t (Family.pick ⟨c.counts, fun _ => c.decls⟩ n).2 with e | x
    · constructor
      · rintro ⟨_, h⟩; cases h
      · rintro ⟨_, h⟩; cases h
    · exact ⟨fun _ => ⟨_, rfl⟩, fun _ => ⟨_, rfl⟩⟩
  rw [key]
  have h := (key c i a).1 h
  revert h
  unfold joinCtypeAndName
  split
  · exact fun h => h
  · exact joinScan_names _ _ _ _
  · exact fun _ => ⟨_, rfl⟩

/-- A declaration of a plain type is possible. -/
theorem declare_ok (c : Core) (t n : Str) (i a : Option Str)
    (h : ∃ v, ((⟨fun _ => 0, {}, { errorReturn := [] }, { errorReturn := [] }, { errorReturn := [] }, [], [], [], [],
      false⟩ : Core).declare t n none none).2 = .ok v) : ∃ v, (c.declare t n i a).2 = .ok v :=
  declare_steady _ _ _ _ _ _ _ _ h

/-- A step on the wrapper's fields that cannot fail and keeps the parse parameters. -/
def Sure (f : Core → Core × Option PyErr) : Prop := ∀ c, (f c).2 = none ∧ (f c).1.parse = c.parse

theorem Sure.steady {f f' : Core → Core × Option PyErr} (h : Sure f') : Steady (lift f) (lift f') := by
  intro s t ha _
  refine ⟨(h t.core).1, ?_, ha.2⟩
  show AllNamed (f' t.core).1.parse
  rw [(h t.core).2]
  exact ha.1

theorem warn_sure (w : Wrapper) : Sure (warn w) := by
  intro c
  unfold warn
  split
  · exact ⟨rfl, rfl⟩
  · exact ⟨safe_block _ _ rfl, block_parse _ _⟩

theorem saveThread_sure (w : Wrapper) (v : Str) : Sure (saveThread w v) := by
  intro c
  unfold saveThread
  split
  · exact ⟨safe_block _ _ rfl, block_parse _ _⟩
  · exact ⟨rfl, rfl⟩

theorem buildReturn_sure : Sure buildReturn := by
  intro c
  unfold buildReturn
  apply safe_blocks
  intro o ho
  split at ho <;> simp only [List.cons_append, List.nil_append, List.mem_cons, List.not_mem_nil, or_false] at ho
  · rcases ho with rfl | rfl | rfl | rfl <;> rfl
  · rcases ho with rfl | rfl | rfl <;> rfl

theorem declare_parse (c : Core) (t n : Str) (i a : Option Str) : (c.declare t n i a).1.parse = c.parse := rfl

theorem named_getParameters {l : List PItem} (h : AllNamed l) : ∃ ps, getParameters l = .ok ps := by
  have key : ∃ t, templateLoop false l = .ok t := by
    induction l with
    | nil => exact ⟨_, rfl⟩
    | cons i l ih =>
      obtain ⟨t, ht⟩ := ih (fun j hj => h j (List.mem_cons_of_mem _ hj))
      have ho := (h i (List.mem_cons_self ..)).2.2
      unfold templateLoop
      simp only [ho, Bool.not_false, Bool.and_true, Bool.false_eq_true, if_false, Bool.and_false, ht,
        bind, Except.bind, pure, Except.pure]
      exact ⟨_, rfl⟩
  obtain ⟨t, ht⟩ := key
  unfold getParameters
  rw [ht]
  exact ⟨_, rfl⟩

theorem named_getKeywords {l : List PItem} (h : AllNamed l) : ∃ kw, getKeywords l = .ok kw := by
  have key : ∀ (l : List PItem) (kw : List Str), AllNamed l →
      ∃ ns, keywordsLoop kw l = .ok ns ∧ ns.length = kw.length + l.length := by
    intro l
    induction l with
    | nil => intro kw _; exact ⟨kw, rfl, rfl⟩
    | cons i l ih =>
      intro kw h
      obtain ⟨hn, _, _⟩ := h i (List.mem_cons_self ..)
      obtain ⟨n, hn⟩ := Option.ne_none_iff_exists'.1 hn
      obtain ⟨ns, h1, h2⟩ := ih (kw ++ [n]) (fun j hj => h j (List.mem_cons_of_mem _ hj))
      refine ⟨ns, ?_, ?_⟩
      · unfold keywordsLoop; rw [hn]; exact h1
      · rw [h2, List.length_append, List.length_cons, List.length_cons, List.length_nil]; omega
  obtain ⟨ns, h1, h2⟩ := key l [] h
  unfold getKeywords
  simp only [h1, bind, Except.bind, pure, Except.pure]
  by_cases hn : ns = []
  · rw [if_pos hn]; exact ⟨_, rfl⟩
  · rw [if_neg hn, if_neg (by rw [h2]; simp)]; exact ⟨_, rfl⟩

theorem parseKeywords_sure (p : Str) (r kw : List Str) : Sure (parseKeywords p r kw) := by
  intro c
  unfold parseKeywords
  obtain ⟨v, hv⟩ := declare_ok c "const char *".toList "keywords".toList
    (some (['{'] ++ pyJoin ", ".toList (kw.map (fun k => '"' :: k ++ ['"']) ++ ["NULL".toList]) ++ ['}']))
    (some "[]".toList) ⟨_, rfl⟩
  have hp := declare_parse c "const char *".toList "keywords".toList
    (some (['{'] ++ pyJoin ", ".toList (kw.map (fun k => '"' :: k ++ ['"']) ++ ["NULL".toList]) ++ ['}']))
    (some "[]".toList)
  rcases hq : c.declare "const char *".toList "keywords".toList
    (some (['{'] ++ pyJoin ", ".toList (kw.map (fun k => '"' :: k ++ ['"']) ++ ["NULL".toList]) ++ ['}']))
    (some "[]".toList) with ⟨c1, e | v1⟩ <;> rw [hq] at hv hp
  · cases hv
  · dsimp only
    have hs := safe_block c1 (.errorCheck 0 ("!PyArg_ParseTupleAndKeywords(".toList ++ pyJoin ", ".toList
        (["args".toList, "kwargs".toList, "(char *) ".toList ++ p, "(char **) ".toList ++ v1] ++ r) ++
        ")".toList) none) rfl
    have hb := block_parse c1 (.errorCheck 0 ("!PyArg_ParseTupleAndKeywords(".toList ++ pyJoin ", ".toList
        (["args".toList, "kwargs".toList, "(char *) ".toList ++ p, "(char **) ".toList ++ v1] ++ r) ++
        ")".toList) none)
    rcases hr : c1.block (.errorCheck 0 ("!PyArg_ParseTupleAndKeywords(".toList ++ pyJoin ", ".toList
        (["args".toList, "kwargs".toList, "(char *) ".toList ++ p, "(char **) ".toList ++ v1] ++ r) ++
        ")".toList) none) with ⟨c2, _ | e⟩ <;> rw [hr] at hs hb
    · exact ⟨rfl, hb.trans hp⟩
    · cases hs

theorem parseCall_steady (w : Wrapper) : Steady (lift (parseCall w)) (lift (parseCall w)) := by
  intro s t ha _
  obtain ⟨ps, hps⟩ := named_getParameters ha.1
  obtain ⟨kw, hkw⟩ := named_getKeywords ha.1
  have key : (parseCall w t.core).2 = none ∧ (parseCall w t.core).1.parse = t.core.parse := by
    unfold parseCall
    rw [hps, hkw]
    dsimp only
    split
    · split
      · exact ⟨safe_block _ _ rfl, block_parse _ _⟩
      · exact parseKeywords_sure _ _ _ _
    · exact ⟨rfl, rfl⟩
  refine ⟨key.1, ?_, ha.2⟩
  show AllNamed (parseCall w t.core).1.parse
  rw [key.2]
  exact ha.1

theorem allNamed_snoc {l : List PItem} {i : PItem} (h : AllNamed l) (hi : i.name ≠ none ∧ i.template ≠ [] ∧ i.optional = false) :
    AllNamed (l ++ [i]) := by
  intro j hj
  rcases List.mem_append.1 hj with hj | hj
  · exact h j hj
  · rw [List.mem_singleton.1 hj]; exact hi

theorem intParam_steady (n : Str) : Steady (intParam n) (intParam n) := by
  intro s t ha _
  unfold intParam lift
  dsimp only
  obtain ⟨v, hv⟩ := declare_ok t.core "int".toList n none none ⟨_, rfl⟩
  have hp := declare_parse t.core "int".toList n none none
  rcases hq : t.core.declare "int".toList n with ⟨c1, e | v1⟩ <;> rw [hq] at hv hp
  · cases hv
  · refine ⟨rfl, ?_, ha.2⟩
    show AllNamed (c1.parse ++ [_])
    rw [hp]
    exact allNamed_snoc ha.1 ⟨nofun, nofun, rfl⟩

theorem classParam_steady (k : Nat) (p y n : Str) : Steady (classParam k p y n) (classParam k p y n) := by
  intro s t ha he
  unfold classParam at he ⊢
  rcases hq : s.core.declare (p ++ ['*']) n with ⟨c1, e | v1⟩ <;> rw [hq] at he
  · cases he
  obtain ⟨v, hv⟩ := declare_steady s.core t.core (p ++ ['*']) n none none none none ⟨v1, by rw [hq]⟩
  have hp := declare_parse t.core (p ++ ['*']) n none none
  rcases hr : t.core.declare (p ++ ['*']) n with ⟨d1, e | v2⟩ <;> rw [hr] at hv hp
  · cases hv
  · refine ⟨rfl, ?_, ?_⟩
    · show AllNamed (d1.parse ++ [_])
      rw [hp]
      exact allNamed_snoc ha.1 ⟨nofun, nofun, rfl⟩
    · intro j
      show (if j = k then some v1 else s.names j).isSome → (if j = k then some v2 else t.names j).isSome
      split
      · exact fun h => h
      · exact ha.2 j

theorem callFunction_steady (fn y : Str) : Steady (callFunction fn y) (callFunction fn y) :=
  Sure.steady (fun _ => ⟨safe_block _ _ rfl, block_parse _ _⟩)

theorem noHook_steady : Steady noHook noHook := Sure.steady (fun _ => ⟨rfl, rfl⟩)

theorem intReturn_steady : Steady intReturn intReturn := Sure.steady (fun _ => ⟨rfl, rfl⟩)

theorem wardHook_steady (i j : Nat) : Steady (wardHook i j) (wardHook i j) := by
  intro s t ha he
  unfold wardHook at he ⊢
  rcases hi : s.names i with _ | a
  · rw [hi] at he; cases he
  rcases hj : s.names j with _ | b
  · rw [hi, hj] at he; cases he
  have hi' : (t.names i).isSome := ha.2 i (by rw [hi]; rfl)
  have hj' : (t.names j).isSome := ha.2 j (by rw [hj]; rfl)
  obtain ⟨a', ha'⟩ := Option.isSome_iff_exists.1 hi'
  obtain ⟨b', hb'⟩ := Option.isSome_iff_exists.1 hj'
  rw [ha', hb']
  have hS : ∀ os, (∀ o ∈ os, Safe o = true) → ∀ c : Core, (c.blocks os).2 = none ∧ (c.blocks os).1.parse = c.parse :=
    fun os h c => safe_blocks c os h
  obtain ⟨v, hv⟩ := declare_ok t.core "PyObject*".toList "wards".toList none none ⟨_, rfl⟩
  have hp := declare_parse t.core "PyObject*".toList "wards".toList none none
  rcases hr : t.core.declare "PyObject*".toList "wards".toList with ⟨d1, e | v2⟩ <;> rw [hr] at hv hp
  · cases hv
  dsimp only
  refine ⟨(hS _ ?_ _).1, ?_, ha.2⟩
  · intro o ho
    simp only [List.mem_cons, List.not_mem_nil, or_false] at ho
    rcases ho with rfl | rfl | rfl | rfl <;> rfl
  · rw [(hS _ ?_ _).2, hp]
    · exact ha.1
    · intro o ho
      simp only [List.mem_cons, List.not_mem_nil, or_false] at ho
      rcases ho with rfl | rfl | rfl | rfl <;> rfl

/-- Wrappers whose steps succeed again if they succeed once. -/
structure SteadyWrapper (w : Wrapper) : Prop where
  params : ∀ g ∈ w.params, Steady g g
  call : Steady w.callStage w.callStage
  before : Steady w.hookBefore w.hookBefore
  after : Steady w.hookReturn w.hookReturn
  ret : ∃ g, w.ret = some g ∧ Steady g g

theorem rest_steady (w : Wrapper) (h : SteadyWrapper w) (v v' : Str) : Steady (rest w v) (rest w v') := by
  unfold rest
  refine (convertAll_steady _ h.params).andThen ((warn_sure w).steady.andThen (h.before.andThen
    ((saveThread_sure w v').steady.andThen (h.call.andThen ((parseCall_steady w).andThen ?_)))))
  obtain ⟨g, hg, hs⟩ := h.ret
  unfold finish
  have : w.returns = true := by unfold Wrapper.returns; rw [hg]; rfl
  rw [this, hg]
  exact hs.implemented.andThen (h.after.andThen buildReturn_sure.steady)

theorem openThreads_sure (w : Wrapper) (c : Core) :
    (∃ v, (openThreads w c).2 = .ok v) ∧ (openThreads w c).1.parse = c.parse := by
  refine ⟨?_, (openThreads_inputs w c).1⟩
  unfold openThreads
  split
  · obtain ⟨v, hv⟩ := declare_ok c "PyThreadState*".toList "py_thread_state".toList (some "NULL".toList) none ⟨_, rfl⟩
    rcases hr : c.declare "PyThreadState*".toList "py_thread_state".toList (some "NULL".toList) with ⟨d, e | v1⟩ <;>
      rw [hr] at hv
    · cases hv
    · dsimp only
      have hs := safe_block d (.writeCode 2 ("\nif (".toList ++ v1 ++ ")\n     PyEval_RestoreThread(".toList ++ v1 ++
          ");\n".toList)) rfl
      rcases hq : d.block (.writeCode 2 ("\nif (".toList ++ v1 ++ ")\n     PyEval_RestoreThread(".toList ++ v1 ++
          ");\n".toList)) with ⟨d2, _ | e⟩ <;> rw [hq] at hs
      · exact ⟨_, rfl⟩
      · cases hs
  · exact ⟨_, rfl⟩

theorem body_steady (w : Wrapper) (h : SteadyWrapper w) : Steady (body w) (body w) := by
  intro s t ha he
  unfold body at he ⊢
  obtain ⟨⟨v, hv⟩, _⟩ := openThreads_sure w s.core
  obtain ⟨⟨v', hv'⟩, hp'⟩ := openThreads_sure w t.core
  rcases hr : openThreads w s.core with ⟨c, e | x⟩ <;> rw [hr] at hv he
  · cases hv
  rcases hr' : openThreads w t.core with ⟨d, e | x'⟩ <;> rw [hr'] at hv' hp'
  · cases hv'
  dsimp only at he ⊢
  exact rest_steady w h x x' _ _ ⟨by show AllNamed d.parse; rw [hp']; exact ha.1, ha.2⟩ he

/-- Trials at any point of a history succeed if the definition does. -/
theorem steady_flags (w : Wrapper) (ok : w.Ok) (hw : SteadyWrapper w) {args t : List Str}
    (once : (generate w (start w)).2 = .ok (args, t)) :
    ∀ h, Orderly false h → ∀ p ∈ answers w (start w) h, p.1 = .flags → ∃ fl, p.2 = .flags fl := by
  obtain ⟨hb, _⟩ := generate_ok w ok once
  have hst := body_steady w hw
  have key : ∀ h (made : Bool) (s : St), Orderly made h → Inv w (body w (ready w)).1.core.flags made s →
      ∀ p ∈ answers w s h, p.1 = .flags → ∃ fl, p.2 = .flags fl := by
    intro h
    induction h with
    | nil => intro _ _ _ _ p hp; cases hp
    | cons ev es ih =>
      intro made s ho hi p hp hf
      have hdef : ev = .define → made = false := by rintro rfl; exact ho.1
      have hi2 := step_inv w ok hb once hi ev hdef
      rcases List.mem_cons.1 hp with rfl | hp
      · simp only at hf
        subst hf
        simp only [step]
        cases made with
        | true =>
          have : getFlags w s = (s, .ok (body w (ready w)).1.core.flags) := by
            unfold getFlags
            rw [hi.1]; simp only [ne_eq, hi.2.1, not_false_eq_true, if_true]
          rw [this]
          exact ⟨_, rfl⟩
        | false =>
          obtain ⟨r, hr, hs⟩ := hi
          have h0 : s.core.flags = [] := by rw [hs]; exact (start_inputs w r).2
          have h1 : s.core.parse = [] := by rw [hs]; exact (start_inputs w r).1
          have hs2 := hst (ready w) s ⟨by rw [h1]; nofun, fun k hk => by cases hk⟩ hb
          unfold getFlags
          simp only [h0, ne_eq, not_true_eq_false, if_false]
          rcases hq : body w s with ⟨s1, _ | e⟩ <;> rw [hq] at hs2
          · exact ⟨_, rfl⟩
          · cases hs2.1
      · cases ev with
        | flags => exact ih made _ ho hi2 p hp hf
        | declare => exact ih false _ ho hi2 p hp hf
        | define => exact ih true _ ho.2 hi2 p hp hf
        | reset => exact ih false _ ho hi2 p hp hf
  intro h ho
  exact key h false (start w) ho (start_inv w _)

/-! ## Theorems -/

/-- C127 for functions: a function with parameters of classes and integers that returns an integer, with or without
a ward, catching exceptions or not: if its definition can be written once, then whatever the generator did with it
before, its method flags are `METH_VARARGS` and `METH_KEYWORDS` exactly if it has parameters (or the user asked for
them), otherwise `METH_NOARGS`, every declaration has the C parameters for these flags, and every definition
these parameters and the same text.  Here the generation may change the return handler, unlike in `C127_agree_partial`. -/
theorem C127_functions_agree (ps : List (Option (Str × Str) × Str)) (fn : Str) (ward : Option (Nat × Nat))
    (hward : ∀ i j, ward = some (i, j) →
      (∃ c n, ps[i]? = some (some c, n)) ∧ (∃ c n, ps[j]? = some (some c, n))) (w : Wrapper)
    (hp : w.params = ps.mapIdx (fun k p =>
      match p.1 with
      | some (pystruct, pytype) => classParam (k + 1) pystruct pytype p.2
      | none => intParam p.2))
    (hc : w.callStage = callFunction fn w.retType) (hb : w.hookBefore = noHook)
    (hr : w.ret = some intReturn)
    (hh : w.hookReturn = match ward with | some (i, j) => wardHook (i + 1) (j + 1) | none => noHook)
    {args t : List Str} (once : (generate w (start w)).2 = .ok (args, t)) :
    w.signature (flagsOf (!ps.isEmpty) (!ps.isEmpty) w.forceParse) = .ok args ∧
    ∀ h, Orderly false h → ∀ p ∈ answers w (start w) h,
      match p.1 with
      | .flags => p.2 = .flags (flagsOf (!ps.isEmpty) (!ps.isEmpty) w.forceParse)
      | .declare => p.2 = .declared args
      | .define => p.2 = .defined args t
      | .reset => p.2 = .done := by
  have ok : w.Ok := C127_functions ps fn ward hward w hp hc hb hr hh
  have ht := C127_functions_take ps fn w hp hc hb
  have hw : SteadyWrapper w := by
    refine ⟨?_, ?_, ?_, ?_, ⟨intReturn, hr, intReturn_steady⟩⟩
    · intro g hg
      rw [hp, List.mem_mapIdx] at hg
      obtain ⟨k, hk, rfl⟩ := hg
      rcases ps[k].1 with _ | ⟨a, b⟩
      · exact intParam_steady _
      · exact classParam_steady _ _ _ _
    · rw [hc]; exact callFunction_steady _ _
    · rw [hb]; exact noHook_steady
    · rw [hh]
      rcases ward with _ | ⟨i, j⟩
      · exact noHook_steady
      · exact wardHook_steady _ _
  obtain ⟨h1, h2⟩ := C127_flags_partial w ok ht once
  refine ⟨h1, ?_⟩
  intro h ho p hp
  obtain ⟨_, _, _, hall⟩ := C127_agree_partial w ok once
  have hev := hall h ho p hp
  rcases hp1 : p.1 with _ | _ | _ | _
  · obtain ⟨fl, hfl⟩ := steady_flags w ok hw once h ho p hp hp1
    show p.2 = _
    rw [hfl, h2 h ho p hp fl hfl]
  all_goals (rw [hp1] at hev; exact hev)

/-! ## Examples -/

/-- The function of `C127_flags_partial`'s example, which catches exceptions and whose return handler changes. -/
example : ∃ args t, (generate (keepFn true true) (start (keepFn true true))).2 = .ok (args, t) ∧
    (∀ h, Orderly false h → ∀ p ∈ answers (keepFn true true) (start (keepFn true true)) h, p.1 = .flags →
      p.2 = .flags ["METH_VARARGS".toList, "METH_KEYWORDS".toList]) := by
  have : ((generate (keepFn true true) (start (keepFn true true))).2.isOk) = true := by decide +kernel
  rcases hg : (generate (keepFn true true) (start (keepFn true true))).2 with e | ⟨args, t⟩
  · rw [hg] at this; cases this
  · refine ⟨args, t, rfl, ?_⟩
    intro h ho p hp hf
    have := (C127_functions_agree [(some ("PyA".toList, "PyA_Type".toList), "a".toList),
      (some ("PyA".toList, "PyA_Type".toList), "b".toList), (none, "n".toList)] "keep".toList (some (0, 1))
      (by intro i j h; injection h with h; injection h with h1 h2; subst h1; subst h2; exact ⟨⟨_, _, rfl⟩, ⟨_, _, rfl⟩⟩)
      (keepFn true true) rfl rfl rfl rfl rfl hg).2 h ho p hp
    rw [hf] at this
    exact this

end Verif.Trial
