import Verif.Handlers.Args

/-!
# C80: class arguments reach C++ as the objects they wrap
-/
namespace Verif.Handlers
open Verif Verif.Flow Verif.Params Verif.Wrap

/-! ## Specification -/

/-- The parameter accepts values of classes convertible to its own: by value or const reference. -/
def Par.converts (p : Par) : Bool :=
  match p.kind with
  | .value => true
  | .ref c _ => c
  | _ => false

/-- The parameter accepts `None`. -/
def Par.nullOk (p : Par) : Bool :=
  match p.kind with
  | .ptr n _ _ => n
  | .shared n _ => n
  | _ => false

/-- `g` is the object at address `a`, passed the way the parameter asks for: a parameter by value
gets its value, a reference refers to it, a pointer points to it. -/
def Par.passes (p : Par) (a : Nat) (g : Got) : Prop :=
  match p.kind with
  | .value => g = .object a ∨ g = .made p.k.id a
  | .ref _ _ => g = .object a
  | .refInout => g = .object a
  | .ptr _ _ _ => g = .pointer (some a)
  | .shared _ _ => g = .pointer (some a)

/-- `g` is the C++ value `d` (a C++ expression). -/
def Is (d : Str) (g : Got) : Prop := g = .dflt d ∨ (d = "NULL".toList ∧ g = .pointer none)

/-- **The property.**  `x` is the argument (`none`: left out), `out` how the call ends. -/
structure Faithful (p : Par) (r : Rt) (x : Option PyVal) (out : Outcome) : Prop where
  /-- a declared default value stands for an argument left out -/
  left : x = none → ∀ d, p.dflt = some d → ∃ g, out = .called g ∧ Is d g
  /-- without default the argument is required -/
  missing : x = none → p.dflt = none → out = .typeError
  /-- an instance of the class is passed as the object it wraps -/
  inst : ∀ v, x = some v → r.sub v.type p.k.id = true →
    ∃ o g, v.obj = some o ∧ out = .called g ∧ p.passes (r.addr o p.k.id) g
  /-- an instance of a class with a declared conversion is converted -/
  conv : ∀ v, x = some v → r.sub v.type p.k.id = false → p.converts = true →
    (∃ s ∈ p.srcs, r.sub v.type s.id = true) →
    ∃ s ∈ p.srcs, r.sub v.type s.id = true ∧ ∃ o, v.obj = some o ∧
      out = .called (.made s.id (r.addr o s.id))
  /-- `None` is a null pointer where that is allowed -/
  null : ∀ v, x = some v → v.isNone = true → p.nullOk = true → out = .called (.pointer none)
  /-- anything else is refused -/
  other : ∀ v, x = some v → r.sub v.type p.k.id = false →
    (p.converts = true → ∀ s ∈ p.srcs, r.sub v.type s.id = false) →
    (p.nullOk = true → v.isNone = false) → out = .typeError

/-- Ordinary arguments: `__class__` tells the truth, `None` is no instance of a wrapped class, an
instance of a wrapped class that matters here has the structure of some wrapped class, holds an
object, and the object starts at the same address whichever of its classes it is seen as (single
inheritance). -/
structure Ordinary (p : Par) (r : Rt) (v : PyVal) : Prop where
  honest : v.cls = .is v.type
  none : v.isNone = true → ∀ t ∈ p.k :: p.srcs, r.sub v.type t.id = false
  wrapper : ∀ t ∈ p.k :: p.srcs, r.sub v.type t.id = true →
    ∃ d o, r.wrapped v.type = some d ∧ v.obj = some o ∧ r.addr o d = r.addr o t.id

/-- Parameters for which the property holds: the default of a pointer, if any, is `NULL`; a const
reference has no default or no conversions; `self` is not parsed; ownership of a pointer that may be
`None` is not transferred. -/
structure Good (p : Par) : Prop where
  notSelf : p.fromSelf = false
  noDfltInout : p.kind = .refInout → p.dflt = none
  ptrDflt : ∀ n t c, p.kind = .ptr n t c → p.dflt = none ∨ p.dflt = some "NULL".toList
  sharedDflt : ∀ n t, p.kind = .shared n t → p.dflt = none ∨ p.dflt = some "NULL".toList
  constRef : ∀ t, p.kind = .ref true t → p.srcs = []
  noneTransfer : ∀ t c, p.kind = .ptr true t c → t = false

/-! ## Proof -/

theorem isInstance_honest {r : Rt} {v : PyVal} (h : v.cls = .is v.type) (t : Nat) :
    r.isInstance v t = if r.sub v.type t then 1 else 0 := by
  unfold Rt.isInstance
  rw [h]
  cases h : r.sub v.type t <;> simp [h]

theorem derefObj_eq {r : Rt} {v : PyVal} {d o a : Nat} (h1 : r.wrapped v.type = some d)
    (h2 : v.obj = some o) (h3 : r.addr o d = a) : r.derefObj (some v) = .ok a := by
  simp [Rt.derefObj, Rt.readObj, h1, h2, h3, bind, Except.bind, pure, Except.pure]

theorem readObj_eq {r : Rt} {v : PyVal} {d o a : Nat} (h1 : r.wrapped v.type = some d)
    (h2 : v.obj = some o) (h3 : r.addr o d = a) : r.readObj (some v) = .ok (some a) := by
  simp [Rt.readObj, h1, h2, h3]

/-- The chain of conversions picks the first class the argument is an instance of. -/
theorem runChain_srcs {r : Rt} {v : PyVal} {g : Got} (hh : v.cls = .is v.type) : ∀ (l : List K),
    (∀ t ∈ l, r.sub v.type t.id = true →
      ∃ d o, r.wrapped v.type = some d ∧ v.obj = some o ∧ r.addr o d = r.addr o t.id) →
    ((∃ s ∈ l, r.sub v.type s.id = true) →
      ∃ s ∈ l, r.sub v.type s.id = true ∧ ∃ o, v.obj = some o ∧
        runChain r (some v) g (l.map (fun s => (C.isInstance s, E.deref s))) =
          .ok (.made s.id (r.addr o s.id))) ∧
    ((∀ s ∈ l, r.sub v.type s.id = false) →
      runChain r (some v) g (l.map (fun s => (C.isInstance s, E.deref s))) = .error .typeError)
  | [], _ => ⟨(by rintro ⟨s, hs, -⟩; cases hs), fun _ => rfl⟩
  | t :: l, hw => by
    obtain ⟨ih1, ih2⟩ := runChain_srcs (g := g) hh l (fun s hs => hw s (List.mem_cons_of_mem _ hs))
    by_cases ht : r.sub v.type t.id = true
    · obtain ⟨d, o, h1, h2, h3⟩ := hw t List.mem_cons_self ht
      refine ⟨fun _ => ⟨t, List.mem_cons_self, ht, o, h2, ?_⟩, fun h => ?_⟩
      · simp [runChain, C.holds, isInstance_honest hh, ht, E.assign, derefObj_eq h1 h2 h3, bind,
          Except.bind, pure, Except.pure]
      · exact absurd ht (by simp [h t List.mem_cons_self])
    · have hf : r.sub v.type t.id = false := by simpa using ht
      have e : runChain r (some v) g ((t :: l).map (fun s => (C.isInstance s, E.deref s))) =
          runChain r (some v) g (l.map (fun s => (C.isInstance s, E.deref s))) := by
        simp [runChain, C.holds, isInstance_honest hh, hf]
      rw [e]
      refine ⟨?_, fun h => ih2 (fun s hs => h s (List.mem_cons_of_mem _ hs))⟩
      rintro ⟨s, hs, hst⟩
      rcases List.mem_cons.mp hs with rfl | hs
      · exact absurd hst ht
      · obtain ⟨s', hs', h1, o, h2, h3⟩ := ih1 ⟨s, hs, hst⟩
        exact ⟨s', List.mem_cons_of_mem _ hs', h1, o, h2, h3⟩

theorem execAll_one (r : Rt) (x : Option PyVal) (v : Got) (s : S) :
    execAll r x v [s] = s.exec r x v := by
  simp only [execAll]
  cases s.exec r x v <;> rfl

/-- Running a snippet without statements. -/
theorem run_simple (s : Snip) (r : Rt) (v0 : Got) (x : Option PyVal) (hb : s.before = [])
    (hc : s.clearAfter = false) :
    s.run r v0 x = if s.parseOk r x then
      (match s.arg.eval r x v0 with | .error o => o | .ok g => .called g) else .typeError := by
  unfold Snip.run
  simp only [hb, execAll, hc]
  rfl

theorem run_val (s : Snip) (r : Rt) (v0 : Got) (x : Option PyVal) (ha : s.arg = .val)
    (hc : s.clearAfter = false) :
    s.run r v0 x = if s.parseOk r x then
      (match execAll r x v0 s.before with | .error o => o | .ok g => .called g) else .typeError := by
  unfold Snip.run
  simp only [ha, hc]
  cases execAll r x v0 s.before <;> rfl

theorem faithful_direct {p : Par} {r : Rt} {v0 : Got} {x : Option PyVal} {s : Snip} {pt : Str}
    {arg : E} (hn : p.nullOk = false) (hsrc : p.converts = true → p.srcs = [])
    (hpass : ∀ a, p.passes a (.object a)) (hd : p.dflt = none)
    (hs : s = { py := some (pt, none), parse := some (.typed p.k), arg := arg })
    (harg : arg = .deref p.k ∨ arg = .derefShort)
    (ho : ∀ v, x = some v → Ordinary p r v) : Faithful p r x (s.run r v0 x) := by
  subst hs
  rw [run_simple _ _ _ _ rfl rfl]
  have hev : arg.eval r x v0 = (do pure (.object (← r.derefObj x))) := by
    rcases harg with rfl | rfl <;> rfl
  simp only [hev]
  refine ⟨fun _ d h => (by rw [hd] at h; cases h), fun h _ => (by subst h; rfl), ?_, ?_, ?_, ?_⟩
  · rintro v rfl hi
    obtain ⟨d, o, h1, h2, h3⟩ := (ho v rfl).wrapper p.k List.mem_cons_self hi
    refine ⟨o, _, h2, ?_, hpass _⟩
    simp [Snip.parseOk, Rt.typeCheck, hi, derefObj_eq h1 h2 h3, bind, Except.bind, pure, Except.pure]
  · rintro v rfl - hc ⟨t, ht, -⟩
    rw [hsrc hc] at ht; cases ht
  · rintro v rfl - h
    rw [hn] at h; cases h
  · rintro v rfl h - -
    simp [Snip.parseOk, Rt.typeCheck, h]

theorem faithful_dflt {p : Par} {r : Rt} {v0 : Got} {x : Option PyVal} {s : Snip} {pt : Str}
    {d : Str} {dv : Option (Str × Str)} {pi : Option Str} (hn : p.nullOk = false)
    (hsrc : p.converts = true → p.srcs = [])
    (hpass : ∀ a, p.passes a (.object a)) (hd : p.dflt = some d)
    (hs : s = { py := some (pt, pi), parse := some (.typed p.k), optional := true, dfltVar := dv
                arg := .orDflt p.k d })
    (ho : ∀ v, x = some v → Ordinary p r v) : Faithful p r x (s.run r v0 x) := by
  subst hs
  rw [run_simple _ _ _ _ rfl rfl]
  refine ⟨?_, fun _ h => (by rw [hd] at h; cases h), ?_, ?_, ?_, ?_⟩
  · rintro rfl d' h
    rw [hd] at h
    cases h
    exact ⟨.dflt d, rfl, Or.inl rfl⟩
  · rintro v rfl hi
    obtain ⟨d, o, h1, h2, h3⟩ := (ho v rfl).wrapper p.k List.mem_cons_self hi
    refine ⟨o, _, h2, ?_, hpass _⟩
    simp [Snip.parseOk, Rt.typeCheck, hi, E.eval, derefObj_eq h1 h2 h3, bind, Except.bind, pure,
      Except.pure]
  · rintro v rfl - hc ⟨t, ht, -⟩
    rw [hsrc hc] at ht; cases ht
  · rintro v rfl - h
    rw [hn] at h; cases h
  · rintro v rfl h - -
    simp [Snip.parseOk, Rt.typeCheck, h]

/-- The conversion chain. -/
theorem convSnip_run {p : Par} {r : Rt} {v0 : Got} {v : PyVal} {dflt : Option Str} :
    (convSnip p dflt).run r v0 (some v) =
      match runChain r (some v) v0 ((p.k :: p.srcs).map (fun s => (C.isInstance s, E.deref s))) with
      | .error o => o
      | .ok g => .called g := by
  rw [run_val _ _ _ _ rfl rfl]
  have hp : (convSnip p dflt).parseOk r (some v) = true := rfl
  rw [if_pos hp]
  have hb : execAll r (some v) v0 (convSnip p dflt).before =
      runChain r (some v) v0 ((p.k :: p.srcs).map (fun s => (C.isInstance s, E.deref s))) := by
    simp only [convSnip]
    rw [execAll_one]
    cases dflt with
    | none => rfl
    | some d => rfl
  rw [hb]

theorem faithful_conv {p : Par} {r : Rt} {v0 : Got} {x : Option PyVal} (hk : p.kind = .value)
    (ho : ∀ v, x = some v → Ordinary p r v) : Faithful p r x ((convSnip p p.dflt).run r v0 x) := by
  have hn : p.nullOk = false := by simp [Par.nullOk, hk]
  cases x with
  | none =>
    refine ⟨?_, ?_, (by intro v h; cases h), (by intro v h; cases h), (by intro v h; cases h),
      (by intro v h; cases h)⟩
    · intro _ d hd
      rw [hd]
      refine ⟨.dflt d, ?_, Or.inl rfl⟩
      rfl
    · intro _ hd
      rw [hd]
      rfl
  | some v =>
    have ho' := ho v rfl
    rw [convSnip_run]
    obtain ⟨c1, c2⟩ := runChain_srcs (g := v0) ho'.honest (p.k :: p.srcs) ho'.wrapper
    refine ⟨(by intro h; cases h), (by intro h; cases h), ?_, ?_, ?_, ?_⟩
    · intro u hu hi
      cases hu
      obtain ⟨d, o, h1, h2, h3⟩ := ho'.wrapper p.k List.mem_cons_self hi
      refine ⟨o, .made p.k.id (r.addr o p.k.id), h2, ?_, ?_⟩
      · simp [runChain, C.holds, isInstance_honest ho'.honest, hi, E.assign, derefObj_eq h1 h2 h3, bind,
          Except.bind, pure, Except.pure]
      · simp [Par.passes, hk]
    · intro u hu hnk _ hex
      cases hu
      obtain ⟨t, ht, h1, o, h2, h3⟩ := c1 (by
        obtain ⟨t, ht, h⟩ := hex
        exact ⟨t, List.mem_cons_of_mem _ ht, h⟩)
      rcases List.mem_cons.mp ht with rfl | ht
      · rw [hnk] at h1; cases h1
      · exact ⟨t, ht, h1, o, h2, by rw [h3]⟩
    · intro u _ _ h
      rw [hn] at h; cases h
    · intro u hu h1 h2 _
      cases hu
      rw [c2 (by
        intro t ht
        rcases List.mem_cons.mp ht with rfl | ht
        · exact h1
        · exact h2 (by simp [Par.converts, hk]) t ht)]

theorem faithful_ptr {p : Par} {r : Rt} {v0 : Got} {x : Option PyVal} {num : Nat} {n t : Bool}
    {c : Option Str} (hk : p.kind = .ptr n t c) (hg : Good p)
    (ho : ∀ v, x = some v → Ordinary p r v) :
    Faithful p r x ((ptrSnip p n t c num).run r v0 x) := by
  have hself := hg.notSelf
  have hdf := hg.ptrDflt n t c hk
  have hcv : p.converts = false := by simp [Par.converts, hk]
  cases x with
  | none =>
    refine ⟨?_, ?_, (by intro v h; cases h), (by intro v h; cases h), (by intro v h; cases h),
      (by intro v h; cases h)⟩
    · intro _ d hd
      rcases hdf with h | h <;> rw [hd] at h
      · cases h
      · cases h
        refine ⟨.pointer none, ?_, Or.inr ⟨rfl, rfl⟩⟩
        cases n <;> cases t <;> cases c <;>
          simp [ptrSnip, hself, hd, Snip.run, Snip.parseOk, truthy, execAll, S.exec, E.assign, E.eval,
            bind, Except.bind, pure, Except.pure]
    · intro _ hd
      simp [ptrSnip, hself, hd, Snip.run, Snip.parseOk, truthy]
  | some v =>
    have ho' := ho v rfl
    refine ⟨(by intro h; cases h), (by intro h; cases h), ?_, ?_, ?_, ?_⟩
    · intro u hu hi
      cases hu
      obtain ⟨d, o, h1, h2, h3⟩ := ho'.wrapper p.k List.mem_cons_self hi
      have hnn : v.isNone = false := by
        cases hv : v.isNone
        · rfl
        · rw [ho'.none hv p.k List.mem_cons_self] at hi; cases hi
      refine ⟨o, .pointer (some (r.addr o p.k.id)), h2, ?_, by simp [Par.passes, hk]⟩
      have e1 := readObj_eq h1 h2 h3
      have e2 := derefObj_eq h1 h2 h3
      cases n <;> cases t <;> cases c <;>
        simp [ptrSnip, hself, Snip.run, Snip.parseOk, Rt.typeCheck, hi, hnn, h1, execAll, S.exec, E.assign,
          E.eval, e1, e2, isInstance_honest ho'.honest, bind, Except.bind, pure, Except.pure]
    · intro u _ _ h
      rw [hcv] at h; cases h
    · intro u hu hnone hnok
      cases hu
      have hn : n = true := by simpa [Par.nullOk, hk] using hnok
      subst hn
      have ht := hg.noneTransfer t c hk
      subst ht
      cases c <;>
        simp [ptrSnip, hself, Snip.run, Snip.parseOk, hnone, execAll, S.exec, E.eval, bind, Except.bind, pure,
          Except.pure]
    · intro u hu hi _ hnok
      cases hu
      cases n with
      | false =>
        cases t <;> cases c <;> simp [ptrSnip, hself, Snip.run, Snip.parseOk, Rt.typeCheck, hi]
      | true =>
        have hnn := hnok (by simp [Par.nullOk, hk])
        cases t <;> cases c <;>
          simp [ptrSnip, hself, Snip.run, Snip.parseOk, hnn, hi, execAll, S.exec,
            isInstance_honest ho'.honest, bind, Except.bind]

theorem faithful_shared {p : Par} {r : Rt} {x : Option PyVal} {num : Nat} {n : Bool}
    {t : Str} (hk : p.kind = .shared n t) (hg : Good p)
    (ho : ∀ v, x = some v → Ordinary p r v) :
    Faithful p r x ((sharedSnip p n t num).run r (.pointer none) x) := by
  have hdf := hg.sharedDflt n t hk
  have hcv : p.converts = false := by simp [Par.converts, hk]
  cases x with
  | none =>
    refine ⟨?_, ?_, (by intro v h; cases h), (by intro v h; cases h), (by intro v h; cases h),
      (by intro v h; cases h)⟩
    · intro _ d hd
      rcases hdf with h | h <;> rw [hd] at h
      · cases h
      · cases h
        refine ⟨.pointer none, ?_, Or.inr ⟨rfl, rfl⟩⟩
        cases n <;>
          simp [sharedSnip, hd, Snip.run, Snip.parseOk, truthy, execAll, S.exec, E.eval,
            bind, Except.bind, pure, Except.pure]
    · intro _ hd
      simp [sharedSnip, hd, Snip.run, Snip.parseOk, truthy]
  | some v =>
    have ho' := ho v rfl
    refine ⟨(by intro h; cases h), (by intro h; cases h), ?_, ?_, ?_, ?_⟩
    · intro u hu hi
      cases hu
      obtain ⟨d, o, h1, h2, h3⟩ := ho'.wrapper p.k List.mem_cons_self hi
      have hnn : v.isNone = false := by
        cases hv : v.isNone
        · rfl
        · rw [ho'.none hv p.k List.mem_cons_self] at hi; cases hi
      refine ⟨o, .pointer (some (r.addr o p.k.id)), h2, ?_, by simp [Par.passes, hk]⟩
      have e1 := readObj_eq h1 h2 h3
      cases n <;>
        simp [sharedSnip, Snip.run, Snip.parseOk, Rt.typeCheck, hi, hnn, execAll, S.exec,
          E.eval, e1, isInstance_honest ho'.honest, bind, Except.bind, pure, Except.pure]
    · intro u _ _ h
      rw [hcv] at h; cases h
    · intro u hu hnone hnok
      cases hu
      have hn : n = true := by simpa [Par.nullOk, hk] using hnok
      subst hn
      simp [sharedSnip, Snip.run, Snip.parseOk, hnone, execAll, S.exec, E.eval, bind, Except.bind, pure,
          Except.pure]
    · intro u hu hi _ hnok
      cases hu
      cases n with
      | false => simp [sharedSnip, Snip.run, Snip.parseOk, Rt.typeCheck, hi]
      | true =>
        have hnn := hnok (by simp [Par.nullOk, hk])
        simp [sharedSnip, Snip.run, Snip.parseOk, hnn, hi, execAll, S.exec,
            isInstance_honest ho'.honest, bind, Except.bind]

/-- **C80.**  For every parameter of a wrapped class (by value, reference, pointer or shared
pointer, with any class, name, conversions and default) for which code is generated, in every
runtime and for every argument: an instance is passed as the object it wraps, an instance of a
conversion source is converted, `None` is a null pointer where allowed, a default replaces an
argument left out, and anything else is a `TypeError`.  Limits: `Good` parameters and `Ordinary`
arguments; for each clause there is a counterexample below. -/
theorem C80_arguments_partial (p : Par) (num : Nat) (s : Snip) (hs : p.snip num = .ok s) (hg : Good p)
    (r : Rt) (v0 : Got) (hv : ∀ n t, p.kind = .shared n t → v0 = .pointer none)
    (x : Option PyVal) (ho : ∀ v, x = some v → Ordinary p r v) :
    Faithful p r x (s.run r v0 x) := by
  have hself := hg.notSelf
  unfold Par.snip at hs
  split at hs
  · -- by value
    rename_i hk
    have hn : p.nullOk = false := by simp [Par.nullOk, hk]
    have hpass : ∀ a, p.passes a (.object a) := by intro a; simp [Par.passes, hk]
    unfold valueSnip at hs
    rw [if_neg (by simp [hself])] at hs
    split at hs
    · rename_i hsrc
      split at hs
      · rename_i d hd
        split at hs
        · cases hs
          exact faithful_dflt hn (fun _ => hsrc) hpass hd rfl ho
        · cases hs
      · rename_i hd
        cases hs
        exact faithful_direct hn (fun _ => hsrc) hpass hd rfl (Or.inl rfl) ho
    · cases hs
      exact faithful_conv hk ho
  · -- by reference
    rename_i c t hk
    have hn : p.nullOk = false := by simp [Par.nullOk, hk]
    have hpass : ∀ a, p.passes a (.object a) := by intro a; simp [Par.passes, hk]
    have hsrc : p.converts = true → p.srcs = [] := by
      intro h
      simp only [Par.converts, hk] at h
      subst h
      exact hg.constRef t hk
    unfold refSnip at hs
    rw [if_neg (by simp [hself])] at hs
    split at hs
    · split at hs
      · rename_i d hd
        split at hs
        · cases hs
          exact faithful_dflt hn hsrc hpass hd rfl ho
        · split at hs
          · cases hs
            exact faithful_dflt hn hsrc hpass hd rfl ho
          · cases hs
      · rename_i hd
        cases hs
        exact faithful_direct hn hsrc hpass hd rfl (Or.inl rfl) ho
    · rename_i h
      simp only [Bool.not_eq_true, Bool.not_eq_false', Bool.and_eq_true, decide_eq_true_eq] at h
      obtain ⟨h1, h2⟩ := h
      subst h2
      exact absurd (hg.constRef t hk) h1
  · rename_i hk
    split at hs
    · cases hs
    · cases hs
      refine faithful_direct ?_ ?_ ?_ (hg.noDfltInout hk) rfl (Or.inr rfl) ho
      · simp [Par.nullOk, hk]
      · simp [Par.converts, hk]
      · intro a; simp [Par.passes, hk]
  · rename_i n t c hk
    cases hs
    exact faithful_ptr hk hg ho
  · rename_i n t hk
    cases hs
    rw [hv n t hk]
    exact faithful_shared hk hg ho

/-- **C80, const references with conversions.**  Here C++ never sees the argument's object itself,
only a value made from it; otherwise instances and conversion sources are accepted and the rest
refused as above. -/
theorem C80_const_ref_converting (p : Par) (num : Nat) (s : Snip) (t : Option Str)
    (hk : p.kind = .ref true t) (hself : p.fromSelf = false) (hsrc : p.srcs ≠ [])
    (hs : p.snip num = .ok s) (r : Rt) (v0 : Got) (v : PyVal) (ho : Ordinary p r v) :
    (∀ g, s.run r v0 (some v) = .called g → ∃ u ∈ p.k :: p.srcs, r.sub v.type u.id = true ∧
      ∃ o, v.obj = some o ∧ g = .made u.id (r.addr o u.id)) ∧
    ((∃ u ∈ p.k :: p.srcs, r.sub v.type u.id = true) ↔ ∃ g, s.run r v0 (some v) = .called g) ∧
    ((∀ u ∈ p.k :: p.srcs, r.sub v.type u.id = false) ↔ s.run r v0 (some v) = .typeError) := by
  have e : s = convSnip p none := by
    unfold Par.snip at hs
    rw [hk] at hs
    simp only [refSnip, hself] at hs
    simp only [hsrc, Bool.false_eq_true, if_false, ne_eq, not_false_eq_true, decide_true,
      Bool.and_true, Bool.not_true] at hs
    exact (Except.ok.inj hs).symm
  subst e
  rw [convSnip_run]
  obtain ⟨c1, c2⟩ := runChain_srcs (g := v0) ho.honest (p.k :: p.srcs) ho.wrapper
  by_cases h : ∃ u ∈ p.k :: p.srcs, r.sub v.type u.id = true
  · obtain ⟨u, hu, h1, o, h2, h3⟩ := c1 h
    rw [h3]
    refine ⟨?_, ⟨fun _ => ⟨_, rfl⟩, fun _ => h⟩, ⟨?_, ?_⟩⟩
    · intro g hg
      cases hg
      exact ⟨u, hu, h1, o, h2, rfl⟩
    · intro hf
      rw [hf u hu] at h1; cases h1
    · intro hf; cases hf
  · have h' : ∀ u ∈ p.k :: p.srcs, r.sub v.type u.id = false := by
      intro u hu
      cases hb : r.sub v.type u.id
      · rfl
      · exact absurd ⟨u, hu, hb⟩ h
    rw [c2 h']
    refine ⟨(by intro g hg; cases hg), ⟨fun hh => absurd hh h, (by rintro ⟨g, hg⟩; cases hg)⟩,
      ⟨fun _ => rfl, fun _ => h'⟩⟩

/-- **C80, type safety without trusting `__class__`.**  Where the argument is parsed with a type
check (no conversions, no `None`), an object that is not an instance is refused whatever it claims
to be. -/
theorem C80_type_checked (p : Par) (num : Nat) (s : Snip) (hs : p.snip num = .ok s)
    (hself : p.fromSelf = false) (hn : p.nullOk = false)
    (hc : p.converts = true → p.srcs = []) (r : Rt) (v0 : Got) (v : PyVal)
    (h : r.sub v.type p.k.id = false) : s.run r v0 (some v) = .typeError := by
  have key : s.parse = some (.typed p.k) → s.run r v0 (some v) = .typeError := by
    intro hp
    simp [Snip.run, Snip.parseOk, hp, Rt.typeCheck, h]
  apply key
  unfold Par.snip at hs
  split at hs
  · rename_i hk
    unfold valueSnip at hs
    rw [if_neg (by simp [hself]), if_pos (hc (by simp [Par.converts, hk]))] at hs
    split at hs
    · split at hs
      · cases hs; rfl
      · cases hs
    · cases hs; rfl
  · rename_i c t hk
    unfold refSnip at hs
    rw [if_neg (by simp [hself])] at hs
    split at hs
    · split at hs
      · split at hs
        · cases hs; rfl
        · split at hs
          · cases hs; rfl
          · cases hs
      · cases hs; rfl
    · rename_i h2
      simp only [Bool.not_eq_true, Bool.not_eq_false', Bool.and_eq_true, decide_eq_true_eq] at h2
      exact absurd (hc (by simp [Par.converts, hk, h2.2])) h2.1
  · split at hs
    · cases hs
    · cases hs; rfl
  · rename_i n t c hk
    cases hs
    have : n = false := by simpa [Par.nullOk, hk] using hn
    subst this
    simp [ptrSnip, hself]
  · rename_i n t hk
    cases hs
    have : n = false := by simpa [Par.nullOk, hk] using hn
    subst this
    simp [sharedSnip]

/-- **C80, `self`.**  A function added as a method gets the instance it is called on. -/
theorem C80_self (p : Par) (num : Nat) (s : Snip) (hs : p.snip num = .ok s)
    (hself : p.fromSelf = true) (hsh : ∀ n t, p.kind ≠ .shared n t) (r : Rt) (v0 : Got) (v : PyVal) (d o : Nat)
    (h1 : r.wrapped v.type = some d) (h2 : v.obj = some o) (h3 : r.addr o d = r.addr o p.k.id) :
    ∃ g, s.run r v0 (some v) = .called g ∧ p.passes (r.addr o p.k.id) g := by
  have e1 := readObj_eq h1 h2 h3
  have e2 := derefObj_eq h1 h2 h3
  unfold Par.snip at hs
  split at hs
  · rename_i hk
    simp only [valueSnip, hself, if_true] at hs
    cases hs
    exact ⟨.object (r.addr o p.k.id), by
      simp [Snip.run, Snip.parseOk, execAll, E.eval, e2, bind, Except.bind, pure, Except.pure],
      by simp [Par.passes, hk]⟩
  · rename_i c t hk
    simp only [refSnip, hself, if_true] at hs
    cases hs
    exact ⟨.object (r.addr o p.k.id), by
      simp [Snip.run, Snip.parseOk, execAll, E.eval, e2, bind, Except.bind, pure, Except.pure],
      by simp [Par.passes, hk]⟩
  · simp [hself] at hs
  · rename_i n t c hk
    cases hs
    refine ⟨.pointer (some (r.addr o p.k.id)), ?_, by simp [Par.passes, hk]⟩
    cases t <;> cases c <;>
      simp [ptrSnip, hself, Snip.run, Snip.parseOk, execAll, S.exec, E.eval, e1, e2, h1, bind, Except.bind,
        pure, Except.pure]
  · rename_i n t hk
    exact absurd hk (hsh n t)

/-! ## Where the property fails -/

namespace Ex
/-- Classes `Foo` (1), `Bar` (2); `Der` (3) derives from `Bar` first and `Foo` second; 0 is the type
of `None`, 9 some other type. -/
def foo : K := ⟨1, "Foo".toList, "Foo".toList, "PyFoo".toList, "PyFoo_Type".toList⟩
def bar : K := ⟨2, "Bar".toList, "Bar".toList, "PyBar".toList, "PyBar_Type".toList⟩
def rt : Rt :=
  { sub := fun a b => a == b || a == 3 && (b == 1 || b == 2)
    wrapped := fun t => if t = 1 ∨ t = 2 ∨ t = 3 then some t else none
    addr := fun o t => 100 * o + (if t = 1 ∧ o = 7 then 8 else 0) }
def aFoo : PyVal := { type := 1, cls := .is 1, obj := some 1 }
def aBar : PyVal := { type := 2, cls := .is 2, obj := some 2 }
/-- its C++ object has the `Foo` part at offset 8 -/
def aDer : PyVal := { type := 3, cls := .is 3, obj := some 7 }
def emptied : PyVal := { type := 1, cls := .is 1, obj := none }
def pyNone : PyVal := { type := 0, cls := .is 0, isNone := true }
/-- e.g. a weak reference proxy of a `Foo` -/
def liar : PyVal := { type := 9, cls := .is 1 }
/-- an object whose `__class__` attribute raises -/
def moody : PyVal := { type := 9, cls := .raises }
def val (srcs : List K) (d : Option Str) : Par := { kind := .value, k := foo, name := "f".toList, srcs, dflt := d }
def cref (srcs : List K) (d : Option Str) : Par := { val srcs d with kind := .ref true none }
def ptr (n t : Bool) (d : Option Str) : Par := { val [] d with kind := .ptr n t none }
end Ex
open Ex

/-- With implicit conversions declared, a const reference is not bound to the argument's object but
to a copy of it. -/
theorem C80_const_ref_copy_counterexample :
    (cref [bar] none).run rt (.pointer none) (some aFoo) = .ok (.called (.made 1 100)) ∧
    (cref [] none).run rt (.pointer none) (some aFoo) = .ok (.called (.object 100)) := by
  decide

/-- With implicit conversions declared, the default value of a const reference is ignored: the
argument is required. -/
theorem C80_const_ref_default_counterexample :
    (cref [bar] (some "Foo()".toList)).run rt (.pointer none) none = .ok .typeError := by
  decide

/-- The default value of a pointer is ignored: C++ gets `NULL`. -/
theorem C80_pointer_default_counterexample :
    (ptr false false (some "the_foo".toList)).run rt (.pointer none) none =
      .ok (.called (.pointer none)) := by
  decide

/-- A wrapper that lost its object (after a transfer of ownership) is dereferenced, or passed as a
null pointer where `None` would be refused. -/
theorem C80_emptied_counterexample :
    (val [] none).run rt (.pointer none) (some emptied) = .ok .nullDeref ∧
    (ptr false false none).run rt (.pointer none) (some emptied) = .ok (.called (.pointer none)) ∧
    (ptr false false none).run rt (.pointer none) (some pyNone) = .ok .typeError := by
  decide

/-- With `null_ok` or conversions, an object that only claims to be an instance (a weak reference
proxy) is read as if it were a wrapper. -/
theorem C80_proxy_counterexample :
    (ptr true false none).run rt (.pointer none) (some liar) = .ok .wild ∧
    (val [bar] none).run rt (.pointer none) (some liar) = .ok .wild ∧
    (ptr false false none).run rt (.pointer none) (some liar) = .ok .typeError := by
  decide

/-- So is an object whose `__class__` attribute raises: the error result of the instance check is
taken for "yes". -/
theorem C80_raising_class_counterexample :
    (ptr true false none).run rt (.pointer none) (some moody) = .ok .wild ∧
    (val [bar] none).run rt (.pointer none) (some moody) = .ok .wild := by
  decide

/-- An object is passed as its second base at the address of the whole object. -/
theorem C80_second_base_counterexample :
    (ptr false false none).run rt (.pointer none) (some aDer) = .ok (.called (.pointer (some 700))) ∧
    rt.addr 7 foo.id = 708 := by
  decide

/-- `None` passed for a pointer whose ownership is transferred is written to as if it were a
wrapper. -/
theorem C80_none_transfer_counterexample :
    (ptr true true none).run rt (.pointer none) (some pyNone) = .ok .wild ∧
    (ptr true false none).run rt (.pointer none) (some pyNone) = .ok (.called (.pointer none)) := by
  decide

/-! Non-vacuity: the hypotheses of the theorems hold of ordinary parameters and arguments. -/

example : Good (val [bar] (some "Foo()".toList)) := by
  constructor <;> intros <;> simp_all [val]
example : Good (ptr true false (some "NULL".toList)) := by
  constructor <;> intros <;> simp_all [ptr, val]
example : Ordinary (val [bar] none) rt aBar :=
  ⟨rfl, by decide, by
    intro t ht hs
    simp only [val, List.mem_cons, List.not_mem_nil, or_false] at ht
    rcases ht with rfl | rfl
    · exact absurd hs (by decide)
    · exact ⟨2, 2, by decide, rfl, rfl⟩⟩
example : (val [bar] none).run rt (.pointer none) (some aBar) = .ok (.called (.made 2 200)) := by decide
example : (val [bar] none).run rt (.pointer none) (some pyNone) = .ok .typeError := by decide

/-- The code generated for `Foo f` with a conversion from `Bar`, as a test prints it. -/
example : ((val [bar] none).convert none {}).toOption.map (fun w => (w.ops, w.call)) =
    some ([.write 1 "if (PyObject_IsInstance(f, (PyObject*) &PyFoo_Type)) {\n    f2 = *((PyFoo *) f)->obj;".toList,
      .write 1 "} else if (PyObject_IsInstance(f, (PyObject*) &PyBar_Type)) {\n    f2 = *((PyBar *) f)->obj;".toList,
      .check 1 "} else {".toList (some
        "PyErr_Format(PyExc_TypeError, \"parameter must an instance of one of the types (Foo, Bar), not %s\", Py_TYPE(f)->tp_name);".toList)],
      ["f2".toList]) := by
  decide +kernel

/-! ## C42 and C44: the handlers keep the rules for code blocks -/

theorem declOpt_ops {w w' : W} {d : Option (Str × Str × Option Str)} {o v : Str}
    (h : declOpt w d o = .ok (w', v)) : w'.ops = w.ops := by
  unfold declOpt at h
  split at h
  · cases h; rfl
  · exact declare_ops h

theorem chainOps_write (py val : Str) : ∀ (b : Bool) (l : List (C × E)), ∀ op ∈ chainOps py val b l,
    ∃ s, op = .write 1 s
  | _, [], op, h => by cases h
  | b, (c, e) :: rest, op, h => by
    rcases List.mem_cons.mp h with rfl | h
    · exact ⟨_, rfl⟩
    · exact chainOps_write py val false rest op h

theorem stmt_early (py val : Str) (s : S) : ∀ op ∈ s.ops py val, Early op := by
  intro op hop
  cases s with
  | chain l names =>
    rcases List.mem_append.mp hop with h | h
    · obtain ⟨t, rfl⟩ := chainOps_write _ _ _ _ op h
      trivial
    · simp only [List.mem_singleton] at h
      subst h; simp [Early]
  | set e => simp only [S.ops, List.mem_singleton] at hop; subst hop; trivial
  | noneOrInstance k n => simp only [S.ops, List.mem_singleton] at hop; subst hop; simp [Early]
  | setNullOk => simp only [S.ops, List.mem_singleton] at hop; subst hop; trivial
  | setIf => simp only [S.ops, List.mem_singleton] at hop; subst hop; trivial
  | incref t =>
    simp only [S.ops, List.mem_cons, List.not_mem_nil, or_false] at hop
    rcases hop with rfl | rfl | rfl <;> trivial

/-- The operations of a class parameter handler. -/
theorem par_ops {p : Par} {u : Option Str} {w w' : W} (h : p.convert u w = .ok w') :
    ∃ s py val, p.snip (w.parse.length + 1) = .ok s ∧
      w'.ops = w.ops ++ (s.before.flatMap (S.ops py val) ++
        if s.clearAfter then clearOps py u else []) := by
  unfold Par.convert at h
  obtain ⟨s, hs, h⟩ := bind_ok.mp h
  unfold Snip.convert at h
  obtain ⟨⟨w1, py⟩, h1, h⟩ := bind_ok.mp h
  obtain ⟨⟨w2, val⟩, h2, h⟩ := bind_ok.mp h
  obtain ⟨⟨w3, dv⟩, h3, h⟩ := bind_ok.mp h
  have h := (Except.ok.inj h).symm
  refine ⟨s, py, val, hs, ?_⟩
  rw [h]
  have e : w3.ops = w.ops := by rw [declOpt_ops h3, declOpt_ops h2, declOpt_ops h1]
  cases hc : s.clearAfter <;> rcases s.parse with _ | _ | _ <;> simp [W.addCall, W.addParse, e]

/-- Class parameters keep the rule of C42: error exits before the call, nothing to clean up. -/
theorem opsIn_par (p : Par) (u : Option Str) : OpsIn Early (p.convert u) := by
  intro w w' h
  obtain ⟨s, py, val, -, e⟩ := par_ops h
  refine ⟨_, e, ?_⟩
  intro op hop
  rcases List.mem_append.mp hop with hop | hop
  · obtain ⟨st, -, hst⟩ := List.mem_flatMap.mp hop
    exact stmt_early py val st op hst
  · split at hop
    · simp only [clearOps, List.mem_append, List.mem_cons, List.mem_map, List.not_mem_nil,
        or_false] at hop
      rcases hop with (rfl | ⟨t, -, rfl⟩) | rfl | rfl <;> trivial
    · cases hop

theorem before_conv (p : Par) (d : Option Str) (t : Str) : S.incref t ∉ (convSnip p d).before := by
  simp [convSnip]

/-- C80 (ownership): exactly when a pointer parameter transfers ownership, the wrapper gives its C++
object up after the call, or, for a reference counted class, a reference is added for C++ before it. -/
theorem C80_ownership (p : Par) (num : Nat) (s : Snip) (hs : p.snip num = .ok s) :
    (s.clearAfter = true ↔ ∃ n, p.kind = .ptr n true none) ∧
    ∀ t, S.incref t ∈ s.before ↔ ∃ n, p.kind = .ptr n true (some t) := by
  unfold Par.snip at hs
  split at hs
  · rename_i hk
    simp only [hk, reduceCtorEq, exists_false, iff_false]
    unfold valueSnip at hs
    repeat' split at hs
    all_goals cases hs
    all_goals exact ⟨by simp [convSnip], by simp [convSnip]⟩
  · rename_i hk
    simp only [hk, reduceCtorEq, exists_false, iff_false]
    unfold refSnip at hs
    repeat' split at hs
    all_goals cases hs
    all_goals exact ⟨by simp [convSnip], by simp [convSnip]⟩
  · rename_i hk
    simp only [hk, reduceCtorEq, exists_false, iff_false]
    split at hs
    all_goals cases hs
    exact ⟨by simp, by simp⟩
  · rename_i n t c hk
    cases hs
    simp only [hk, Kind.ptr.injEq]
    unfold ptrSnip
    constructor
    · cases p.fromSelf <;> cases t <;> cases c <;> simp
    · intro t'
      cases p.fromSelf <;> cases n <;> cases t <;> cases c <;> simp <;> exact eq_comm
  · rename_i n t hk
    cases hs
    simp only [hk, reduceCtorEq, exists_false, iff_false]
    unfold sharedSnip
    cases n <;> simp

example : ((ptr true true none).snip 1).toOption.map (fun s => (s.clearAfter, s.before.length)) =
    some (true, 2) := by decide
example : (({ ptr true true none with kind := .ptr true true (some "f->obj->Ref();".toList) } : Par).snip 1).toOption.map
    (fun s => (s.clearAfter, s.before.length)) = some (false, 3) := by decide

theorem stmt_block (py val : Str) (s : S) : ∀ op ∈ s.ops py val, op.block = 1 := by
  intro op hop
  cases s with
  | chain l names =>
    rcases List.mem_append.mp hop with h | h
    · obtain ⟨t, rfl⟩ := chainOps_write _ _ _ _ op h
      rfl
    · simp only [List.mem_singleton] at h
      subst h; rfl
  | set e => simp only [S.ops, List.mem_singleton] at hop; subst hop; rfl
  | noneOrInstance k n => simp only [S.ops, List.mem_singleton] at hop; subst hop; rfl
  | setNullOk => simp only [S.ops, List.mem_singleton] at hop; subst hop; rfl
  | setIf => simp only [S.ops, List.mem_singleton] at hop; subst hop; rfl
  | incref t =>
    simp only [S.ops, List.mem_cons, List.not_mem_nil, or_false] at hop
    rcases hop with rfl | rfl | rfl <;> rfl

/-- C80 (order): the code that computes the argument runs after the arguments are parsed and before
the call (block 1); only the code giving up an object whose ownership is transferred runs after the
call (block 2). -/
theorem C80_order (p : Par) (u : Option Str) (w w' : W) (h : p.convert u w = .ok w') :
    ∃ a b, w'.ops = w.ops ++ a ++ b ∧ (∀ op ∈ a, op.block = 1) ∧ (∀ op ∈ b, op.block = 2) ∧
      (b ≠ [] ↔ ∃ n, p.kind = .ptr n true none) := by
  obtain ⟨s, py, val, hs, e⟩ := par_ops h
  have hc := (C80_ownership p _ s hs).1
  refine ⟨_, _, by rw [e, List.append_assoc], ?_, ?_, ?_⟩
  · intro op hop
    obtain ⟨st, -, hst⟩ := List.mem_flatMap.mp hop
    exact stmt_block py val st op hst
  · intro op hop
    split at hop
    · simp only [clearOps, List.mem_append, List.mem_cons, List.mem_map, List.not_mem_nil,
        or_false] at hop
      rcases hop with (rfl | ⟨t, -, rfl⟩) | rfl | rfl <;> rfl
    · cases hop
  · rw [← hc]
    split <;> simp_all [clearOps]

end Verif.Handlers
