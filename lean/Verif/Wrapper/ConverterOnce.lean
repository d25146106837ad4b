import Verif.Wrapper.Converter

/-!
# C96: every converter is defined once
-/
namespace Verif.Convert
open Verif Verif.Flow Verif.Params Verif.DeclScope Verif.Wrap

theorem run_append (d : Defs) (a b : List Req) :
    d.run (a ++ b) = (((d.run a).1.run b).1, (d.run a).2 ++ ((d.run a).1.run b).2) := by
  induction a generalizing d with
  | nil => rfl
  | cons r a ih =>
    show (((d.step r).1.run (a ++ b)).1, (d.step r).2 :: ((d.step r).1.run (a ++ b)).2) = _
    rw [ih]
    rfl

/-- What is known after the requests `rs`. -/
structure Inv (rs : List Req) (d : Defs) : Prop where
  taken : ∀ n, n ∈ d.once ↔ ∃ r ∈ rs, r.name = n
  nodup : (d.fns.map Fn.name).Nodup
  src : ∀ f ∈ d.fns, f.src ∈ rs ∧ f.name = f.src.name ∧ f.src.fails = none
  has : ∀ n ∈ d.once, (∃ f ∈ d.fns, f.name = n) ∨ ∃ r ∈ rs, r.name = n ∧ r.fails ≠ none

theorem step_inv {rs : List Req} {d : Defs} (h : Inv rs d) (r : Req) : Inv (rs ++ [r]) (d.step r).1 := by
  have mono : ∀ {p : Req → Prop}, (∃ r ∈ rs, p r) → ∃ r' ∈ rs ++ [r], p r' :=
    fun ⟨q, hq, hp⟩ => ⟨q, List.mem_append_left _ hq, hp⟩
  by_cases hr : r.name ∈ d.once
  · have hd : (d.step r).1 = d := by
      unfold Defs.step
      rw [if_pos hr]
      cases r <;> rfl
    rw [hd]
    refine ⟨fun n => ⟨fun hn => mono ((h.taken n).mp hn), ?_⟩, h.nodup,
      fun f hf => ⟨List.mem_append_left _ (h.src f hf).1, (h.src f hf).2⟩,
      fun n hn => (h.has n hn).imp id mono⟩
    rintro ⟨q, hq, rfl⟩
    rcases List.mem_append.mp hq with hq | hq
    · exact (h.taken _).mpr ⟨q, hq, rfl⟩
    · rw [List.mem_singleton.mp hq]; exact hr
  · have htaken : ∀ n, n ∈ r.name :: d.once ↔ ∃ r' ∈ rs ++ [r], r'.name = n := by
      intro n
      rw [List.mem_cons, h.taken]
      constructor
      · rintro (rfl | ⟨q, hq, hn⟩)
        · exact ⟨r, List.mem_append_right _ List.mem_cons_self, rfl⟩
        · exact ⟨q, List.mem_append_left _ hq, hn⟩
      · rintro ⟨q, hq, rfl⟩
        rcases List.mem_append.mp hq with hq | hq
        · exact .inr ⟨q, hq, rfl⟩
        · exact .inl (by rw [List.mem_singleton.mp hq])
    cases hf : r.fails with
    | some e =>
      have hd : (d.step r).1 = { d with once := r.name :: d.once } := by
        unfold Defs.step
        rw [if_neg hr, hf]
      rw [hd]
      refine ⟨htaken, h.nodup, fun f hf => ⟨List.mem_append_left _ (h.src f hf).1, (h.src f hf).2⟩, ?_⟩
      intro n hn
      rcases List.mem_cons.mp hn with rfl | hn
      · exact .inr ⟨r, List.mem_append_right _ List.mem_cons_self, rfl, by rw [hf]; exact nofun⟩
      · exact (h.has n hn).imp id mono
    | none =>
      have hd : (d.step r).1 = ⟨r.name :: d.once, d.fns ++ [⟨r.name, r⟩]⟩ := by
        unfold Defs.step
        rw [if_neg hr, hf]
      rw [hd]
      refine ⟨htaken, ?_, ?_, ?_⟩
      · show ((d.fns ++ [Fn.mk r.name r]).map Fn.name).Nodup
        rw [List.map_append, List.nodup_append]
        refine ⟨h.nodup, by simp, ?_⟩
        intro a ha b hb
        obtain ⟨f, hf, rfl⟩ := List.mem_map.mp ha
        have hb : b = r.name := by simpa using hb
        rw [hb]
        intro e
        obtain ⟨h1, h2, _⟩ := h.src f hf
        exact hr ((h.taken _).mpr ⟨f.src, h1, by rw [← h2, e]⟩)
      · intro f hf'
        rcases List.mem_append.mp hf' with hf' | hf'
        · exact ⟨List.mem_append_left _ (h.src f hf').1, (h.src f hf').2⟩
        · rw [List.mem_singleton.mp hf']
          exact ⟨List.mem_append_right _ List.mem_cons_self, rfl, hf⟩
      · intro n hn
        rcases List.mem_cons.mp hn with rfl | hn
        · exact .inl ⟨_, List.mem_append_right _ List.mem_cons_self, rfl⟩
        · exact (h.has n hn).imp (fun ⟨f, hf, e⟩ => ⟨f, List.mem_append_left _ hf, e⟩) mono

theorem run_inv (rs : List Req) : Inv rs (Defs.run {} rs).1 := by
  have h : ∀ (rs pre : List Req) (d : Defs), Inv pre d → Inv (pre ++ rs) (d.run rs).1 := by
    intro rs
    induction rs with
    | nil => intro pre d h; rw [List.append_nil]; exact h
    | cons r rs ih =>
      intro pre d h
      have := ih (pre ++ [r]) _ (step_inv h r)
      rw [List.append_assoc] at this
      exact this
  exact h rs [] {} ⟨by simp, List.nodup_nil, by simp, by simp⟩

/-- C96 (definitions): whatever converters a module asks for, in whatever order, no function is defined
twice, every function defined was asked for and has the name the request asked for. -/
theorem C96_defined_once (rs : List Req) :
    ((Defs.run {} rs).1.fns.map Fn.name).Nodup ∧
    ∀ f ∈ (Defs.run {} rs).1.fns, f.src ∈ rs ∧ f.name = f.src.name :=
  ⟨(run_inv rs).nodup, fun f hf => ⟨((run_inv rs).src f hf).1, ((run_inv rs).src f hf).2.1⟩⟩

theorem step_ok {d : Defs} {r : Req} {n : Str} (h : (d.step r).2 = .ok n) : n = r.name := by
  unfold Defs.step at h
  split at h
  · cases r <;> first | exact (Except.ok.inj h).symm | cases h
  · split at h
    · cases h
    · exact (Except.ok.inj h).symm

/-- C96 (answers): the name a request is answered with is the name of a function in the module; not so
if an earlier request for that name failed. -/
theorem C96_answered_partial (pre post : List Req) (r : Req) (n : Str)
    (h : (Defs.run {} (pre ++ r :: post)).2[pre.length]? = some (.ok n))
    (hf : ∀ q ∈ pre ++ r :: post, q.name = n → q.fails = none) :
    n = r.name ∧ ∃ f ∈ (Defs.run {} (pre ++ r :: post)).1.fns, f.name = n := by
  have hlen : ∀ (rs : List Req) (d : Defs), (d.run rs).2.length = rs.length := by
    intro rs
    induction rs with
    | nil => intro d; rfl
    | cons r rs ih => intro d; show (_ :: ((d.step r).1.run rs).2).length = _; rw [List.length_cons, ih]; rfl
  have hn : n = r.name := by
    rw [run_append] at h
    dsimp only at h
    rw [List.getElem?_append_right (by rw [hlen]; exact Nat.le_refl _), hlen, Nat.sub_self] at h
    exact step_ok (Option.some.inj h)
  refine ⟨hn, ?_⟩
  have hi := run_inv (pre ++ r :: post)
  have hmem : n ∈ (Defs.run {} (pre ++ r :: post)).1.once :=
    (hi.taken n).mpr ⟨r, List.mem_append_right _ List.mem_cons_self, hn.symm⟩
  rcases hi.has n hmem with h | ⟨q, hq, h1, h2⟩
  · exact h
  · exact absurd (hf q hq h1) h2

/-- C96 (the right function): if requests with the same name are for the same type with the same options, and
none fails, each has exactly one function, written for it. -/
theorem C96_right_function_partial (rs : List Req) (hs : ∀ q ∈ rs, ∀ r ∈ rs, q.name = r.name → q = r)
    (hf : ∀ r ∈ rs, r.fails = none) (r : Req) (hr : r ∈ rs) :
    ∀ f, f ∈ (Defs.run {} rs).1.fns ∧ f.name = r.name ↔ f = ⟨r.name, r⟩ := by
  have hi := run_inv rs
  have key : ∀ f ∈ (Defs.run {} rs).1.fns, f.name = r.name → f = ⟨r.name, r⟩ := by
    intro f hm hn
    obtain ⟨h1, h2, _⟩ := hi.src f hm
    have hsrc : f.src = r := hs _ h1 _ hr (by rw [← h2, hn])
    obtain ⟨a, b⟩ := f
    have hn : a = r.name := hn
    have hsrc : b = r := hsrc
    rw [hn, hsrc]
  intro f
  refine ⟨fun h => key f h.1 h.2, ?_⟩
  rintro rfl
  refine ⟨?_, rfl⟩
  rcases hi.has r.name ((hi.taken _).mpr ⟨r, hr, rfl⟩) with ⟨f, hm, hn⟩ | ⟨q, hq, _, h2⟩
  · rw [← key f hm hn]; exact hm
  · exact absurd (hf q hq) h2

/-- The text of some types. -/
def tyOf (s : String) : Names := ⟨s.toList, s.toList, "Py".toList ++ s.toList, "Py".toList ++ s.toList ++ "_Type".toList⟩

/-- Counterexamples: the classes `A::B` and `A__B` share the converter of the one asked for first; so do
`PyObject*` items with and without `caller_owns_return`. -/
theorem C96_shared_counterexample :
    ((Defs.run {} [.fromPy "A::B".toList (.cls (tyOf "AB1")), .fromPy "A__B".toList (.cls (tyOf "AB2"))]).1.fns.map Fn.src =
      [.fromPy "A::B".toList (.cls (tyOf "AB1"))]) ∧
    ((Defs.run {} [.fromPy "PyObject *".toList (.plain (.pyobject true)),
        .fromPy "PyObject *".toList (.plain (.pyobject false))]).1.fns.map Fn.src =
      [.fromPy "PyObject *".toList (.plain (.pyobject true))]) := by
  constructor <;> decide +kernel

/-- Counterexample: the converter of a `char *` to be freed cannot be generated; when it is asked for
again, the answer is the name of a function that does not exist. -/
theorem C96_missing_counterexample :
    Defs.run {} [.toPy "char *".toList (.cstring true), .toPy "char *".toList (.cstring true)] =
      (⟨["_wrap_convert_c2py__char___star__".toList], []⟩,
        [.error .attributeError, .ok "_wrap_convert_c2py__char___star__".toList]) := by
  rfl

/-- Counterexample: a container declared after its converter has been asked for, or twice, raises
`KeyError`. -/
theorem C96_container_counterexample :
    (Defs.run {} [.container "std::vector< int >".toList, .container "std::vector< int >".toList]).2 =
      [.ok "_wrap_convert_py2c__std__vector__lt___int___gt__".toList, .error .keyError] := by
  rfl

/-- The hypotheses are met by a module with converters in both directions, one asked for twice. -/
example : ((Defs.run {} [.fromPy "int".toList (.plain (.int .int)), .toPy "int".toList (.int .int),
    .container "std::vector< int >".toList, .fromPy "int".toList (.plain (.int .int))]).1.fns.map Fn.name =
    ["_wrap_convert_py2c__int".toList, "_wrap_convert_c2py__int".toList,
      "_wrap_convert_py2c__std__vector__lt___int___gt__".toList]) := by
  decide +kernel

end Verif.Convert
