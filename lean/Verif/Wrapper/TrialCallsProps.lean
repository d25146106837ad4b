import Verif.Wrapper.TrialSteadyProps

/-!
# C127: functions with exceptions, templates and without results
-/
namespace Verif.Trial
open Verif Verif.CodeBlock Verif.DeclScope Verif.Params

/-! ## Model -/

/-- What a function's call looks like: namespace with `::`, name, template parameters, `void`, and for each
exception of `throw` its full name and the lines of its conversion (cppexception.py:56-61; any here). -/
structure CallOf where
  «namespace» : Str := []
  name : Str
  template : List Str := []
  void : Bool := false
  type : Str
  throw : List (Str × List Str) := []

/-- The call itself, function.py:188-210. -/
def CallOf.statement (f : CallOf) (requires : Bool) (args : List Str) : Str :=
  (if f.void then [] else if requires then f.type ++ " retval = ".toList else "retval = ".toList) ++
    f.namespace ++ f.name ++
    (if f.template = [] then [] else "< ".toList ++ pyJoin ", ".toList f.template ++ " >".toList) ++
    ['('] ++ pyJoin ", ".toList args ++ ");".toList

/-- One `catch`, function.py:213-219. -/
def catchOps (e : Str × List Str) : List Op :=
  [.unindent 1, .writeCode 1 ("} catch (".toList ++ e.1 ++ " const &exc) {".toList), .indent 1 4, .writeCleanup 1] ++
    e.2.map (.writeCode 1) ++ [.writeCode 1 "return NULL;".toList]

/-- The statements of the call, function.py:193-221. -/
def CallOf.ops (f : CallOf) (requires : Bool) (args : List Str) : List Op :=
  if f.throw = [] then [.writeCode 1 (f.statement requires args)]
  else [.writeCode 1 "try\n{".toList, .indent 1 4, .writeCode 1 (f.statement requires args)] ++
    f.throw.flatMap catchOps ++ [.unindent 1, .writeCode 1 "}".toList]

/-- `Function.generate_call`, function.py:179-221 (the namespace is given). -/
def functionCall (f : CallOf) : Stage := lift fun c => c.blocks (f.ops c.requires c.call)

/-- `VoidReturn.convert_c_to_python`, voidtype.py:17-18. -/
def voidReturn : Stage := noHook

/-! ## Lemmas -/

theorem blocks_keep (c : Core) (os : List Op) :
    (c.blocks os).1.parse = c.parse ∧ (c.blocks os).1.flags = c.flags ∧ (c.blocks os).1.frame = c.frame := by
  induction os generalizing c with
  | nil => exact ⟨rfl, rfl, rfl⟩
  | cons o os ih =>
    unfold Core.blocks
    have h1 := block_parse c o
    have h2 := block_flags c o
    have h3 := block_frame c o
    rcases hq : c.block o with ⟨c1, _ | e⟩ <;> rw [hq] at h1 h2 h3
    · obtain ⟨a, b, d⟩ := ih c1
      exact ⟨a.trans h1, b.trans h2, d.trans h3⟩
    · exact ⟨h1, h2, h3⟩

/-- Statements in the block of the call whose `unindent`s match, `d` being open. -/
inductive Fine : Nat → List Op → Prop
  | nil (d) : Fine d []
  | write {d s os} : Fine d os → Fine d (.writeCode 1 s :: os)
  | cleanup {d os} : Fine d os → Fine d (.writeCleanup 1 :: os)
  | indent {d n os} : Fine (d + 1) os → Fine d (.indent 1 n :: os)
  | unindent {d os} : Fine d os → Fine (d + 1) (.unindent 1 :: os)

theorem fine_blocks {d : Nat} {os : List Op} (h : Fine d os) : ∀ c : Core, d ≤ c.callB.sink.core.stack.length →
    (c.blocks os).2 = none := by
  induction h with
  | nil d => exact fun _ _ => rfl
  | write _ ih => intro c hc; exact ih _ hc
  | @cleanup d os _ ih =>
    intro c hc
    refine ih { c with callB := { c.callB with sink := c.chain.writeCleanupTo 1 c.callB.sink } } ?_
    have : (c.chain.writeCleanupTo 1 c.callB.sink).core = c.callB.sink.core := by
      unfold Chain.writeCleanupTo
      exact writeAll_core _ _
    show d ≤ (c.chain.writeCleanupTo 1 c.callB.sink).core.stack.length
    rw [this]
    exact hc
  | @indent d n os _ ih =>
    intro c hc
    exact ih { c with callB := { c.callB with sink := { c.callB.sink with core := c.callB.sink.core.indent n } } }
      (Nat.succ_le_succ hc)
  | @unindent d os _ ih =>
    intro c hc
    rcases hs : c.callB.sink.core.stack with _ | ⟨l, st⟩
    · rw [hs] at hc; cases hc
    · have hu : c.block (.unindent 1) =
          ({ c with callB := { c.callB with sink := { c.callB.sink with core := { level := l, stack := st } } } }, none) := by
        have : c.chain.step (.unindent 1) = .ok (c.chain.upd 1
            { c.callB with sink := { c.callB.sink with core := { level := l, stack := st } } }) := by
          unfold Chain.step
          have : (c.chain 1).sink.core.unindent = .ok { level := l, stack := st } := by
            show c.callB.sink.core.unindent = _
            unfold CodeSink.Core.unindent
            rw [hs]
          simp only [this, bind, Except.bind, pure, Except.pure]
          rfl
        unfold Core.block
        rw [this]
        rfl
      show (Core.blocks c (.unindent 1 :: os)).2 = none
      unfold Core.blocks
      rw [hu]
      refine ih _ ?_
      rw [hs] at hc
      exact Nat.le_of_succ_le_succ hc

theorem Fine.writes {d : Nat} (l : List Str) {os : List Op} (h : Fine d os) : Fine d (l.map (.writeCode 1) ++ os) := by
  induction l with
  | nil => exact h
  | cons x l ih => exact .write ih

theorem catches_fine (l : List (Str × List Str)) {d : Nat} {os : List Op} (h : Fine (d + 1) os) :
    Fine (d + 1) (l.flatMap catchOps ++ os) := by
  induction l with
  | nil => exact h
  | cons e l ih =>
    rw [List.flatMap_cons, List.append_assoc]
    unfold catchOps
    rw [List.append_assoc, List.append_assoc]
    exact .unindent (.write (.indent (.cleanup (.writes _ (.write ih)))))

theorem functionCall_sure (f : CallOf) : Sure (fun c => c.blocks (f.ops c.requires c.call)) := by
  intro c
  refine ⟨?_, (blocks_keep _ _).1⟩
  refine fine_blocks (d := 0) ?_ c (Nat.zero_le _)
  unfold CallOf.ops
  split
  · exact .write (.nil _)
  · rw [List.append_assoc]
    exact .write (.indent (.write (catches_fine _ (.unindent (.write (.nil _))))))

theorem functionCall_fits (f : CallOf) (K : Nat → Prop) : Fits K K (functionCall f) :=
  fits_lift (fun c => (blocks_keep c _).2.2) K

/-! ## Theorems -/

/-- C127 for functions: functions, template or not, with parameters of classes and integers, an integer result or
none, with or without a ward, catching any number of exceptions: if the definition can be written once, then
whatever the generator did with the function before, its method flags are `METH_VARARGS` and `METH_KEYWORDS`
exactly if it has parameters (or the user asked for them), otherwise `METH_NOARGS`, every declaration has the C
parameters for these flags, and every definition these parameters and the same text. -/
theorem C127_calls_agree (ps : List (Option (Str × Str) × Str)) (f : CallOf) (ward : Option (Nat × Nat))
    (hward : ∀ i j, ward = some (i, j) →
      (∃ c n, ps[i]? = some (some c, n)) ∧ (∃ c n, ps[j]? = some (some c, n))) (w : Wrapper)
    (hp : w.params = ps.mapIdx (fun k p =>
      match p.1 with
      | some (pystruct, pytype) => classParam (k + 1) pystruct pytype p.2
      | none => intParam p.2))
    (hc : w.callStage = functionCall f) (hb : w.hookBefore = noHook)
    (hr : w.ret = some (if f.void then voidReturn else intReturn))
    (hh : w.hookReturn = match ward with | some (i, j) => wardHook (i + 1) (j + 1) | none => noHook)
    {args t : List Str} (once : (generate w (start w)).2 = .ok (args, t)) :
    w.signature (flagsOf (!ps.isEmpty) (!ps.isEmpty) w.forceParse) = .ok args ∧
    ∀ h, Orderly false h → ∀ p ∈ answers w (start w) h,
      match p.1 with
      | .flags => p.2 = .flags (flagsOf (!ps.isEmpty) (!ps.isEmpty) w.forceParse)
      | .declare => p.2 = .declared args
      | .define => p.2 = .defined args t
      | .reset => p.2 = .done := by
  have ok : w.Ok := by
    obtain ⟨⟨K, K', h1, h2, _, h4, h5⟩, h6, _⟩ := C127_functions ps [] ward hward
      { w with callStage := callFunction [] w.retType, ret := some intReturn } hp rfl hb rfl hh
    refine ⟨⟨K, K', h1, h2, hc ▸ functionCall_fits f K, h4, ?_⟩, h6, ?_⟩
    · rw [hr]
      show Fits K K' (if f.void then voidReturn else intReturn)
      split
      · refine ⟨fun s u hsu => ⟨rfl, hsu.1, fun _ => ⟨hsu.1, ?_⟩⟩, fun _ => rfl⟩
        exact ((h5.same s u hsu).2.2 rfl).2
      · exact h5
    · intro g hg
      rw [hr] at hg
      injection hg with hg
      rw [← hg]
      split
      · exact fun _ => rfl
      · exact fun _ => rfl
  have ht : Takes w (!ps.isEmpty) (!ps.isEmpty) := by
    obtain ⟨h1, h2, _⟩ := C127_functions_take ps [] { w with callStage := callFunction [] w.retType } hp rfl hb
    refine ⟨h1, h2, ?_⟩
    rw [hc]
    exact fun s => ⟨(blocks_keep _ _).1, (blocks_keep _ _).2.1⟩
  have hw : SteadyWrapper w := by
    refine ⟨?_, ?_, ?_, ?_, ⟨_, hr, ?_⟩⟩
    · intro g hg
      rw [hp, List.mem_mapIdx] at hg
      obtain ⟨k, hk, rfl⟩ := hg
      rcases ps[k].1 with _ | ⟨a, b⟩
      · exact intParam_steady _
      · exact classParam_steady _ _ _ _
    · rw [hc]; exact (functionCall_sure f).steady
    · rw [hb]; exact noHook_steady
    · rw [hh]
      rcases ward with _ | ⟨i, j⟩
      · exact noHook_steady
      · exact wardHook_steady _ _
    · split
      · exact noHook_steady
      · exact intReturn_steady
  obtain ⟨h1, h2⟩ := C127_flags_partial w ok ht once
  refine ⟨h1, ?_⟩
  intro h ho p hp
  obtain ⟨_, _, _, hall⟩ := C127_agree_partial w ok once
  have hev := hall h ho p hp
  rcases hp1 : p.1 with _ | _ | _ | _
  · obtain ⟨fl, hfl⟩ := steady_flags w ok hw once h ho p hp hp1
    show p.2 = _
    rw [hfl, h2 h ho p hp fl hfl]
  all_goals (rw [hp1] at hev; exact hev)

/-! ## Examples -/

/-- `void ns::keep< int >(A &a, A &b, int n)` that throws `E`, whose second parameter is kept alive by its first. -/
def throwing : Wrapper :=
  { keepFn true true with
    callStage := functionCall (CallOf.mk "ns::".toList "keep".toList ["int".toList] true "void".toList
      [("ns::E".toList, ["PyErr_SetNone((PyObject *) PyE_Type);".toList])])
    ret := some voidReturn
    retvalDecl := false }

example : (match (generate throwing (start throwing)).2 with
      | .ok (_, t) => (t.drop 10).take 7
      | .error _ => []) =
    ["try", "{", "    ns::keep< int >(*((PyA *) a)->obj, *((PyA *) b)->obj, n);", "} catch (ns::E const &exc) {",
      "    PyErr_SetNone((PyObject *) PyE_Type);", "    return NULL;", "}"].map String.toList := by decide +kernel

example : ∃ args t, (generate throwing (start throwing)).2 = .ok (args, t) ∧
    ∀ h, Orderly false h → ∀ p ∈ answers throwing (start throwing) h,
      (p.1 = .flags → p.2 = .flags ["METH_VARARGS".toList, "METH_KEYWORDS".toList]) ∧
      (p.1 = .define → p.2 = .defined args t) := by
  have : ((generate throwing (start throwing)).2.isOk) = true := by decide +kernel
  rcases hg : (generate throwing (start throwing)).2 with e | ⟨args, t⟩
  · rw [hg] at this; cases this
  · refine ⟨args, t, rfl, ?_⟩
    intro h ho p hp
    have := (C127_calls_agree [(some ("PyA".toList, "PyA_Type".toList), "a".toList),
      (some ("PyA".toList, "PyA_Type".toList), "b".toList), (none, "n".toList)]
      (CallOf.mk "ns::".toList "keep".toList ["int".toList] true "void".toList
        [("ns::E".toList, ["PyErr_SetNone((PyObject *) PyE_Type);".toList])]) (some (0, 1))
      (by intro i j h; injection h with h; injection h with h1 h2; subst h1; subst h2; exact ⟨⟨_, _, rfl⟩, ⟨_, _, rfl⟩⟩)
      throwing rfl rfl rfl rfl rfl hg).2 h ho p hp
    constructor <;> intro hf <;> rw [hf] at this <;> exact this

end Verif.Trial
