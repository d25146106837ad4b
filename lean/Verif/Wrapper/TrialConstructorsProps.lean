import Verif.Wrapper.TrialOverloadsProps
import Verif.Wrapper.TrialConstructors

/-!
# C127 for constructors
-/
namespace Verif.Trial
open Verif Verif.CodeBlock Verif.DeclScope Verif.Params

/-! ## Specification -/

/-- No generation (successful or not) since the constructor was new or started afresh. -/
def CleanCtor (us : List CtorUse) : Bool :=
  us.foldl (fun c u => match u with | .define => false | .reset => true | _ => c) true

/-! ## Lemmas -/

theorem generateCtor_framed (w : Wrapper) (ok : w.Ok) (refused : Option PyErr) (s : St)
    (h : Framed w w.requires s.core) : Framed w w.requires (generateCtor w refused s).1.core := by
  have hb : Framed w w.requires (body w s).1.core := by
    show (body w s).1.core.frame = _
    rw [body_frame w ok]; exact h
  unfold generateCtor
  cases refused with
  | some e => exact h
  | none =>
    simp only
    rcases h1 : body w s with ⟨s1, _ | e⟩ <;> rw [h1] at hb
    · simp only
      rcases ctorNamed s1.core with e | u <;> exact hb
    · exact hb

theorem generateCtor_same (w : Wrapper) (ok : w.Ok) (refused : Option PyErr) (s t : St) (h : s.core = t.core) :
    (generateCtor w refused s).2 = (generateCtor w refused t).2 := by
  obtain ⟨b1, b2⟩ := body_same w ok s t h
  unfold generateCtor
  cases refused with
  | some e => rfl
  | none =>
    simp only
    rcases h1 : body w s with ⟨s1, _ | e⟩ <;> rcases h2 : body w t with ⟨t1, _ | e'⟩ <;>
      simp only [h1, h2] at b1 b2 ⊢
    · rw [b2]
      rcases ctorNamed t1.core with e | u <;> rfl
    · exact absurd b1 (by simp)
    · exact absurd b1 (by simp)
    · injection b1 with b1; rw [b1]

theorem useCtor_inv {w : Wrapper} (ok : w.Ok) (ht : w.throws = false) (refused : Option PyErr) {c : Bool}
    {p : Wrapper × St} (h : UInv w c p) (u : CtorUse) :
    UInv w (match u with | .define => false | .reset => true | _ => c) (useCtor refused p u) := by
  have hst : ¬ (w.throws = true ∧ w.requires = true) := by simp [ht]
  cases u with
  | flags =>
    have hu := use_inv ok hst h (.event .flags)
    have e : use p (.event .flags) = useCtor refused p .flags := by
      simp only [use, useCtor, step]
      rcases getFlags p.1 p.2 with ⟨s1, er | fl⟩ <;> rfl
    rw [e] at hu
    exact hu
  | define =>
    obtain ⟨hb, hf, hn⟩ := h
    exact ⟨hb, generateCtor_framed p.1 (hb.ok ok) refused p.2 hf, fun hc => absurd hc (by simp)⟩
  | reset => exact use_inv ok hst h (.event .reset)
  | force f => exact use_inv ok hst h (.force f)
  | errorReturn e => exact use_inv ok hst h (.errorReturn e)

/-! ## Theorems -/

/-- C127 (constructors): whatever was done with a constructor and its settings since it was made, and however
that ended, once it is started afresh - or if it was only tried out for its flags - its text is that of a new
constructor with the settings it then has, and so are its flags.
(`throws` says whether generation changes the return handler; a constructor has none.)

Missing: handlers that remember more than names (`Wrapper.Ok`). -/
theorem C127_constructors_partial (w : Wrapper) (ok : w.Ok) (ht : w.throws = false) (refused : Option PyErr)
    (us : List CtorUse) (v : Wrapper) (s : St) (hu : us.foldl (useCtor refused) (w, start w) = (v, s)) :
    (generateCtor v refused (reset v s)).2 = (generateCtor v refused (start v)).2 ∧
    (CleanCtor us = true → (generateCtor v refused s).2 = (generateCtor v refused (start v)).2 ∧
      (getFlags v s).2 = (getFlags v (start v)).2) := by
  have key : ∀ us : List CtorUse, UInv w (CleanCtor us) (us.foldl (useCtor refused) (w, start w)) := by
    intro us
    induction us using List.reverseRecOn with
    | nil => exact ⟨⟨_, _, _, rfl⟩, start_framed w _, fun _ => rfl⟩
    | append_singleton us u ih =>
      have := useCtor_inv ok ht refused ih u
      unfold CleanCtor
      simp only [List.foldl_append, List.foldl_cons, List.foldl_nil]
      exact this
  obtain ⟨hb, hf, hn⟩ := key us
  rw [hu] at hb hf hn
  simp only at hb hf hn
  have okv : v.Ok := hb.ok ok
  have hsv : ¬ (v.throws = true ∧ v.requires = true) := by
    obtain ⟨f, e, g, rfl⟩ := hb
    simp [ht]
  refine ⟨generateCtor_same v okv refused _ _ (reset_core v _ _ hf), fun hc =>
    ⟨generateCtor_same v okv refused _ _ (hn hc), ?_⟩⟩
  rw [(getFlags_new v okv s (fresh_inv (hn hc) [])).2 (final_steady v hsv),
    (getFlags_new v okv (start v) (start_inv v [])).2 (final_steady v hsv)]

/-! ## Examples -/

/-- `self->obj = new Foo(...)`, cppmethod.py:675-692. -/
def newFoo : Stage := lift fun c => c.blocks [
  .writeCode 1 ("self->obj = new Foo(".toList ++ pyJoin ", ".toList c.call ++ ");".toList),
  .writeCode 1 "self->flags = PYBINDGEN_WRAPPER_FLAG_NONE;".toList]

theorem newFoo_fits (K : Nat → Prop) : Fits K K newFoo := fits_lift (fun c => blocks_frame c _) K

/-- The generation of `Foo(int n, int m)`, cppmethod.py:644-692. -/
def fooCtor : Wrapper where
  params := [intParam "n".toList, intParam "m".toList]
  callStage := newFoo
  hookBefore := noHook
  hookReturn := noHook
  ret := none
  retType := []
  parseError := "return -1;".toList
  errorReturn := "return -1;".toList
  forceParse := some true
  signature := fun _ => .ok []

theorem fooCtor_ok : fooCtor.Ok where
  stages := ⟨fun _ => False, fun _ => False,
    .cons (intParam_fits _ _) (.cons (intParam_fits _ _) (.nil _)),
    noHook_fits _, newFoo_fits _, noHook_fits _, rfl⟩
  flags := ⟨KeepsFlags.lift (fun _ => rfl), fun _ h => by cases h⟩

/-- Generated after a failed or successful generation without a fresh start, the text is another one; after a
fresh start it is that of a new constructor, with the error return of its set. -/
example : let d := fun us : List CtorUse => let p := us.foldl (useCtor none) (fooCtor, start fooCtor)
      (match (generateCtor p.1 none p.2).2 with | .ok t => t | .error _ => [])
    d [.flags, .errorReturn "{ fetch }".toList, .define, .reset] =
      ["int n;", "int m;", "const char *keywords[] = {\"n\", \"m\", NULL};", "",
        "if (!PyArg_ParseTupleAndKeywords(args, kwargs, (char *) \"ii\", (char **) keywords, &n, &m)) {",
        "    { fetch }", "}", "self->obj = new Foo(n, m);", "self->flags = PYBINDGEN_WRAPPER_FLAG_NONE;",
        "return 0;"].map String.toList ∧
    ((d [.define]).length, (d [.define])[0]?, (d [.define])[7]?) =
      (10, some "int n2;".toList, some "self->obj = new Foo(n, m, n2, m2);".toList) := by decide +kernel

end Verif.Trial
