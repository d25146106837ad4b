import Verif.Wrapper.TrialProps
import Verif.Wrapper.TrialOverloads

/-!
# C127 for wrappers of overload sets
-/
namespace Verif.Trial
open Verif Verif.CodeBlock Verif.DeclScope Verif.Params

/-! ## Specification -/

/-- Whether no definition or declaration has been written (successfully or not) since the wrapper was new or
started afresh. -/
def Clean (us : List Use) : Bool :=
  us.foldl (fun c u => match u with
    | .event .define => false
    | .event .declare => false
    | .event .reset => true
    | _ => c) true

/-! ## Lemmas -/

theorem init_withParseError (w w' : Wrapper) (c : Core) (e : Str) (h1 : w'.returns = w.returns)
    (h2 : w'.retvalDecl = w.retvalDecl) (h3 : w'.retType = w.retType) (h4 : w'.extra = w.extra) :
    (Core.init w c).withParseError e = Core.init w' (c.withParseError e) := by
  have key : ∀ (l : List (Str × Str)) (c : Core),
      (l.foldl (fun c d => (c.declare d.1 d.2).1) c).withParseError e =
        l.foldl (fun c d => (c.declare d.1 d.2).1) (c.withParseError e) := by
    intro l
    induction l with
    | nil => intro c; rfl
    | cons d l ih => intro c; exact ih _
  have hr : ∀ (c : Core) (n : Str), (c.reserve n).withParseError e = (c.withParseError e).reserve n := fun _ _ => rfl
  have hA : ∀ (b : Bool) (c : Core) (t n : Str), (if b then (c.declare t n).1 else c).withParseError e =
      if b then ((c.withParseError e).declare t n).1 else c.withParseError e := by
    intro b c t n; cases b <;> rfl
  have hB : ∀ (b : Bool) (c : Core) (t n : Str),
      (if b then ((c.withParseError e).declare t n).1 else c.withParseError e).requires =
      (if b then (c.declare t n).1 else c).requires := by
    intro b c t n; cases b <;> rfl
  unfold Core.init
  dsimp only
  rw [key, h1, h2, h3, h4, hr, hr, hA, hA, hB]

theorem start_withParseError (w : Wrapper) (r : Bool) (e : Str) :
    (startCore w r).withParseError e = startCore { w with parseError := e } r := by
  unfold startCore
  rw [init_withParseError w { w with parseError := e } _ e rfl rfl rfl rfl]
  rfl

/-- The settings a set changes. -/
def SameBase (w v : Wrapper) : Prop :=
  ∃ f e g, v = { w with forceParse := f, parseError := e, signature := g }

theorem SameBase.ok {w v : Wrapper} (h : SameBase w v) (ok : w.Ok) : v.Ok := by
  obtain ⟨f, e, g, rfl⟩ := h
  exact ⟨ok.stages, ok.flags⟩

structure UInv (w : Wrapper) (clean : Bool) (p : Wrapper × St) : Prop where
  base : SameBase w p.1
  framed : Framed p.1 p.1.requires p.2.core
  fresh : clean = true → p.2.core = startCore p.1 p.1.requires

theorem fresh_inv {w : Wrapper} {s : St} (h : s.core = startCore w w.requires) (fl : List Str) :
    Inv w fl false s := ⟨_, Or.inl rfl, h⟩

theorem inv_fresh {w : Wrapper} (hst : ¬ (w.throws = true ∧ w.requires = true)) {s : St} {fl : List Str}
    (h : Inv w fl false s) : s.core = startCore w w.requires := by
  obtain ⟨r, hr, hs⟩ := h
  rcases hr with rfl | rfl
  · exact hs
  · rw [final_steady w hst] at hs; exact hs

theorem use_inv {w : Wrapper} (ok : w.Ok) (hst : ¬ (w.throws = true ∧ w.requires = true)) {c : Bool}
    {p : Wrapper × St} (h : UInv w c p) (u : Use) :
    UInv w (match u with
      | .event .define => false
      | .event .declare => false
      | .event .reset => true
      | _ => c) (use p u) := by
  obtain ⟨⟨f, e, g, hb⟩, hf, hn⟩ := h
  obtain ⟨v, s⟩ := p
  simp only at hb hf hn
  have okv : v.Ok := SameBase.ok ⟨f, e, g, hb⟩ ok
  have hsv : ¬ (v.throws = true ∧ v.requires = true) := by rw [hb]; exact hst
  cases u with
  | event ev =>
    have hstep := step_framed v okv hsv s ev hf
    cases ev with
    | flags =>
      refine ⟨⟨f, e, g, hb⟩, hstep, fun hc => ?_⟩
      have := (getFlags_new v okv s (fresh_inv (hn hc) [])).1
      show (step v s .flags).1.core = _
      unfold step
      rcases hg : getFlags v s with ⟨s1, er | fl⟩ <;> rw [hg] at this <;> exact inv_fresh hsv this
    | declare => exact ⟨⟨f, e, g, hb⟩, hstep, fun hc => absurd hc (by simp)⟩
    | define => exact ⟨⟨f, e, g, hb⟩, hstep, fun hc => absurd hc (by simp)⟩
    | reset => exact ⟨⟨f, e, g, hb⟩, hstep, fun _ => reset_core v _ _ hf⟩
  | force f' =>
    refine ⟨⟨f', e, g, by rw [hb]; rfl⟩, hf, fun hc => hn hc⟩
  | errorReturn e' =>
    refine ⟨⟨f, e', g, by rw [hb]; rfl⟩, ?_, fun hc => ?_⟩
    · simp only [Framed, Core.frame, Prod.mk.injEq] at hf
      simp only [use, Framed, Core.frame, Core.withParseError, hf.2.2.1, hf.2.2.2]
    · show s.core.withParseError e' = _
      rw [hn hc]; exact start_withParseError v _ e'
  | signature g' =>
    refine ⟨⟨f, e, g', by rw [hb]; rfl⟩, hf, fun hc => hn hc⟩

theorem useAll_inv (w : Wrapper) (ok : w.Ok) (hst : ¬ (w.throws = true ∧ w.requires = true)) (us : List Use) :
    UInv w (Clean us) (useAll w us) := by
  induction us using List.reverseRecOn with
  | nil => exact ⟨⟨_, _, _, rfl⟩, start_framed w _, fun _ => rfl⟩
  | append_singleton us u ih =>
    have := use_inv ok hst ih u
    unfold Clean useAll
    simp only [List.foldl_append, List.foldl_cons, List.foldl_nil]
    exact this

/-! ## Theorems -/

/-- C127 (overload sets): whatever is done with a wrapper while its set changes its settings - flags asked for,
definitions and declarations written, fresh starts, in any order and however they ended - a declaration is that
of a new wrapper with the settings it then has; and so are the definition and the flags, unless a definition or
declaration was written since the last fresh start.

Missing: wrappers that catch exceptions and whose return handler needs an assignment constructor; handlers
shared with such a wrapper (C127_shared_counterexample). -/
theorem C127_overloads_partial (w : Wrapper) (ok : w.Ok) (hst : ¬ (w.throws = true ∧ w.requires = true))
    (us : List Use) (v : Wrapper) (s : St) (hu : useAll w us = (v, s)) :
    (Trial.declare v s).2 = (Trial.declare v (start v)).2 ∧
    (Clean us = true → (generate v s).2 = (generate v (start v)).2 ∧ (getFlags v s).2 = (getFlags v (start v)).2) := by
  obtain ⟨⟨f, e, g, hb⟩, hf, hn⟩ := useAll_inv w ok hst us
  rw [hu] at hb hf hn
  simp only at hb hf hn
  have okv : v.Ok := SameBase.ok ⟨f, e, g, hb⟩ ok
  have hsv : ¬ (v.throws = true ∧ v.requires = true) := by rw [hb]; exact hst
  have gen : ∀ s t : St, s.core = startCore v v.requires → t.core = startCore v v.requires →
      (generate v s).2 = (generate v t).2 := by
    intro s t hs ht
    rw [(generate_main v okv s (fresh_inv hs [])).1, (generate_main v okv t (fresh_inv ht [])).1]
  refine ⟨?_, fun hc => ⟨gen s (start v) (hn hc) rfl, ?_⟩⟩
  · have := gen (reset v s) (reset v (start v)) (reset_core v _ _ hf) (reset_core v _ _ (start_framed v _))
    unfold Trial.declare
    rcases h1 : generate v (reset v s) with ⟨s1, e1 | ⟨a1, b1⟩⟩ <;>
      rcases h2 : generate v (reset v (start v)) with ⟨s2, e2 | ⟨a2, b2⟩⟩ <;> rw [h1, h2] at this <;> simp only at this ⊢
    · injection this with this; rw [this]
    · cases this
    · cases this
    · injection this with this; injection this with h3 h4; rw [h3]
  · rw [(getFlags_new v okv s (fresh_inv (hn hc) [])).2 (final_steady v hsv),
      (getFlags_new v okv (start v) (start_inv v [])).2 (final_steady v hsv)]

/-- C40 (flags across overload sets): whatever its set did with a wrapper before, once its definition is
written with the C parameters `args`, the flags the set asks for afterwards - any number of times, for the
method table - are the flags these parameters belong to, and the flags a new wrapper of these settings gives in a
trial.

Missing: settings changed after the definition (C40_stale_counterexample). -/
theorem C40_cached_partial (w : Wrapper) (ok : w.Ok) (hst : ¬ (w.throws = true ∧ w.requires = true))
    (us : List Use) (v : Wrapper) (s : St) (hu : useAll w us = (v, s)) (hc : Clean us = true)
    {args t : List Str} (hg : (generate v s).2 = .ok (args, t)) :
    ∃ fl, fl ≠ [] ∧ v.signature fl = .ok args ∧ (getFlags v (start v)).2 = .ok fl ∧
      ∀ n, answers v (generate v s).1 (List.replicate n .flags) = List.replicate n (.flags, .flags fl) := by
  obtain ⟨⟨f, e, g, hb⟩, hf, hn⟩ := useAll_inv w ok hst us
  rw [hu] at hb hf hn
  simp only at hb hf hn
  have okv : v.Ok := SameBase.ok ⟨f, e, g, hb⟩ ok
  have hsv : ¬ (v.throws = true ∧ v.requires = true) := by rw [hb]; exact hst
  obtain ⟨m1, m2, _⟩ := generate_main v okv s (fresh_inv (hn hc) [])
  obtain ⟨hbd, hsg⟩ : (body v (ready v)).2 = none ∧ v.signature (body v (ready v)).1.core.flags = .ok args := by
    apply generate_ok v okv (t := t)
    rw [← ((C127_overloads_partial w ok hst us v s hu).2 hc).1]
    exact hg
  obtain ⟨i1, i2, _⟩ := m2 hbd
  refine ⟨(body v (ready v)).1.core.flags, i2, hsg, ?_, ?_⟩
  · rw [(getFlags_new v okv (start v) (start_inv v [])).2 (final_steady v hsv)]
    rcases hr : body v (ready v) with ⟨q, _ | e'⟩
    · rfl
    · rw [hr] at hbd; cases hbd
  · intro n
    have hfl : step v (generate v s).1 .flags = ((generate v s).1, .flags (body v (ready v)).1.core.flags) := by
      unfold step getFlags
      simp only [i1, ne_eq, i2, not_false_eq_true, if_true]
    induction n with
    | zero => rfl
    | succ n ih => simp only [List.replicate_succ, answers, hfl, ih]

/-! ## Examples -/

/-- What an overload set does with a wrapper: its flags are normalized; the forward declaration is a trial
between fresh starts; then the definition. -/
def inSet (e : Str) : List Use :=
  let round : List Use := [.force (some true), .event .flags, .event .flags, .errorReturn e, .event .define]
  [.event .flags, .event .reset] ++ round ++ [.event .reset] ++ round.dropLast

/-- The definition in the set: the parsing part has the set's error return, and the text is the same as that of
a wrapper set up so at once. -/
example : Clean (inSet "{ fetch }\nreturn NULL;".toList) = true ∧
    ¬ ((keepFn false false).throws = true ∧ (keepFn false false).requires = true) ∧
    (useAll (keepFn false false) (inSet "{ fetch }\nreturn NULL;".toList)).1.parseError = "{ fetch }\nreturn NULL;".toList ∧
    (match generate (useAll (keepFn false false) (inSet "{ fetch }\nreturn NULL;".toList)).1
        (useAll (keepFn false false) (inSet "{ fetch }\nreturn NULL;".toList)).2 with
      | (_, .ok (_, t)) => t.drop 9 |>.take 3
      | _ => []) =
    ["    { fetch }", "    return NULL;", "}"].map String.toList := by decide +kernel

/-- The hypotheses of C40_cached_partial are met, with flags for keyword arguments. -/
example : (match generate (useAll (keepFn false false) (inSet "{ fetch }\nreturn NULL;".toList)).1
        (useAll (keepFn false false) (inSet "{ fetch }\nreturn NULL;".toList)).2 with
      | (_, .ok (a, _)) => a
      | _ => []) = ["PyObject * PYBINDGEN_UNUSED(dummy)", "PyObject *args", "PyObject *kwargs"].map String.toList := by
  decide +kernel

/-- `int get()`. -/
def getFn : Wrapper where
  params := []
  callStage := callFunction "get".toList "int".toList
  hookBefore := noHook
  hookReturn := noHook
  ret := some intReturn
  retType := "int".toList
  parseError := "return NULL;".toList
  errorReturn := "return NULL;".toList
  signature := fun fl => .ok (Wrap.functionArgs fl none [])

/-- C40 fails for a function that is generated alone and then becomes one of an overload set (`force_parse`,
overloading.py:96): the flags remembered from the definition (base.py:967-968) are not those of the arguments it
would parse now, and not those of a new wrapper. -/
theorem C40_stale_counterexample :
    (let p := useAll getFn [.event .define, .force (some true)]
     (match (getFlags p.1 p.2).2 with | .ok fl => fl | .error _ => [],
      match (getFlags p.1 (start p.1)).2 with | .ok fl => fl | .error _ => [])) =
    (["METH_NOARGS".toList], ["METH_VARARGS".toList, "METH_KEYWORDS".toList]) := by decide +kernel

end Verif.Trial
