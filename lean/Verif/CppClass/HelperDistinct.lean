import Verif.CppClass.HelperComplete
import Verif.Attributes.Symbols

/-!
# C106: the member functions of a helper class are different functions
-/
namespace Verif.HelperCode
open Verif Verif.Utils Verif.Overload

/-- Where a function declared for the set of name `n` comes from. -/
inductive Of (n : Str) (f : Fn) : Prop where
  | main (h : f.name = wrapName n) (t : f.types.length = 3)
  | delegate (k : Nat) (h : f.name = wrapName n ++ "__".toList ++ natStr k) (t : f.types.length = 4)
  | inl (h : f.name = n ++ "__parent_caller".toList)

theorem callerArgs_length (E : Env) (mu : Bool) (m : VMeth) : (callerArgs E mu m).length = 3 := by
  unfold callerArgs; split <;> rfl

theorem wrapperArgs_length (p : Str) : (wrapperArgs p varargs).length = 3 := by
  have h1 : varargs.contains "METH_VARARGS".toList = true := by decide
  have h2 : varargs.contains "METH_KEYWORDS".toList = true := by decide
  simp only [wrapperArgs, h1, h2, if_true]; rfl

theorem delegate_length (E : Env) (n : Str) (m : VMeth) (k : Nat) : (delegateFn E n m k).types.length = 4 := by
  simp [delegateFn, static, callerArgs_length]

theorem setFns_of {E : Env} {n : Str} {mu : Bool} {l : List VMeth} {f : Fn} (h : f ∈ setFns E n mu l) : Of n f := by
  unfold setFns at h
  split at h
  · cases h
  · rw [List.mem_singleton.1 h]; exact .main rfl (callerArgs_length _ _ _)
  · rcases List.mem_cons.1 h with rfl | h
    · exact .main rfl (wrapperArgs_length _)
    · obtain ⟨p, _, rfl⟩ := List.mem_map.1 h
      exact .delegate p.2 rfl (delegate_length _ _ _ _)

/-- Names that do not look like those of generated functions. -/
def Clean (n : Str) : Prop := ¬ "_wrap".toList <+: n ∧ ¬ "__parent_caller".toList <:+ n

theorem wrap_ne_inl {x y : Str} (hy : ¬ "_wrap".toList <+: y) : wrapName x ≠ y ++ "__parent_caller".toList := by
  intro h
  unfold wrapName at h
  match y, hy, h with
  | [], _, h => exact absurd (List.cons.inj (List.cons.inj h).2).1 (by decide)
  | [a], _, h => exact absurd (List.cons.inj (List.cons.inj h).2).1 (by decide)
  | [a, b], _, h => exact absurd (List.cons.inj (List.cons.inj (List.cons.inj h).2).2).1 (by decide)
  | [a, b, c], _, h => exact absurd (List.cons.inj (List.cons.inj (List.cons.inj (List.cons.inj h).2).2).2).1 (by decide)
  | [a, b, c, d], _, h =>
    exact absurd (List.cons.inj (List.cons.inj (List.cons.inj (List.cons.inj (List.cons.inj h).2).2).2).2).1 (by decide)
  | a :: b :: c :: d :: e :: r, hy, h =>
    obtain ⟨h1, h⟩ := List.cons.inj h
    obtain ⟨h2, h⟩ := List.cons.inj h
    obtain ⟨h3, h⟩ := List.cons.inj h
    obtain ⟨h4, h⟩ := List.cons.inj h
    obtain ⟨h5, h⟩ := List.cons.inj h
    subst h1 h2 h3 h4 h5
    exact hy ⟨r, rfl⟩

theorem wrap_append (n x : Str) : wrapName n ++ x = wrapName (n ++ x) := by simp [wrapName]

theorem Of.unique {n n' : Str} {f f' : Fn} (h : Of n f) (h' : Of n' f') (hk : f.key = f'.key)
    (hn : Clean n) (hn' : Clean n') : n = n' := by
  have e1 : f.name = f'.name := congrArg (·.1) hk
  have e2 : f.types = f'.types := congrArg (·.2.1) hk
  cases h with
  | main a t =>
    cases h' with
    | main a' t' => rw [a, a'] at e1; exact List.append_cancel_left e1
    | delegate k a' t' => rw [e2, t'] at t; cases t
    | inl a' => rw [a, a'] at e1; exact absurd e1 (wrap_ne_inl hn'.1)
  | delegate k a t =>
    cases h' with
    | main a' t' => rw [e2, t'] at t; cases t
    | delegate k' a' t' =>
      rw [a, a'] at e1
      exact List.append_cancel_left (Attr.underscore_split e1 (fun _ h => Attr.digit_ne_underscore h)
        (fun _ h => Attr.digit_ne_underscore h)).1
    | inl a' =>
      rw [a, a', List.append_assoc, wrap_append] at e1
      exact absurd e1 (wrap_ne_inl hn'.1)
  | inl a =>
    cases h' with
    | main a' t' => rw [a, a'] at e1; exact absurd e1.symm (wrap_ne_inl hn.1)
    | delegate k' a' t' =>
      rw [a, a', List.append_assoc, wrap_append] at e1
      exact absurd e1.symm (wrap_ne_inl hn.1)
    | inl a' => rw [a, a'] at e1; exact List.append_cancel_right e1

theorem setFns_nodup (E : Env) (n : Str) (mu : Bool) (l : List VMeth) : ((setFns E n mu l).map Fn.key).Nodup := by
  unfold setFns
  split
  · simp
  · simp
  · rw [List.map_cons, List.nodup_cons]
    constructor
    · intro h
      obtain ⟨f, hf, he⟩ := List.mem_map.1 h
      obtain ⟨p, _, rfl⟩ := List.mem_map.1 hf
      have := congrArg (fun k : Str × List Str × Bool => k.2.1.length) he
      simp only [Fn.key, delegate_length] at this
      rw [show (static (wrapName n) (wrapperArgs E.pystruct varargs)).types.length = 3 from wrapperArgs_length _] at this
      cases this
    · rw [List.map_map]
      refine List.Nodup.of_map (fun k : Str × List Str × Bool => k.1) ?_
      rw [List.map_map]
      have : (l.zipIdx.map ((fun k : Str × List Str × Bool => k.1) ∘ Fn.key ∘ fun p => delegateFn E n p.1 p.2)) =
          (List.range' 0 l.length).map fun k => delegateName (wrapName n) k := by
        rw [← List.zipIdx_map_snd 0 l, List.map_map]; rfl
      rw [this]
      exact (List.nodup_range').map (fun a b hab => natStr_injective (List.append_cancel_left hab))

theorem inlines_nodup {l : List VMeth} (h : (l.map fun m => m.params.map (·.1)).Nodup) :
    ((l.map inlineFn).map Fn.key).Nodup := by
  rw [List.map_map]
  refine List.Nodup.of_map (fun k : Str × List Str × Bool => k.2.1) ?_
  rw [List.map_map]
  exact h

theorem nodup_append_keys {a b : List Fn} (ha : (a.map Fn.key).Nodup) (hb : (b.map Fn.key).Nodup)
    (h : ∀ x ∈ a, ∀ y ∈ b, x.key ≠ y.key) : ((a ++ b).map Fn.key).Nodup := by
  rw [List.map_append, List.nodup_append]
  refine ⟨ha, hb, ?_⟩
  rintro x hx y hy rfl
  obtain ⟨f, hf, rfl⟩ := List.mem_map.1 hx
  obtain ⟨g, hg, he⟩ := List.mem_map.1 hy
  exact h f hf g hg he.symm

theorem sets_nodup {E : Env} {sets sets' : List PSet} {l : List Fn} (h : declareSets E sets = .ok (l, sets'))
    (hn : (sets.map (·.name)).Nodup) (hw : ∀ s ∈ sets, ∀ m ∈ s.wrappers, m.name = s.name)
    (hd : ∀ s ∈ sets, (s.wrappers.map fun m => m.params.map (·.1)).Nodup)
    (hc : ∀ s ∈ sets, Clean s.name) :
    (l.map Fn.key).Nodup ∧ ∀ f ∈ l, ∃ s ∈ sets, Of s.name f := by
  induction sets generalizing l sets' with
  | nil => cases h; simp
  | cons s rest ih =>
    unfold declareSets at h
    cases h1 : declareSet E s with
    | error e => rw [h1] at h; cases h
    | ok r1 =>
      obtain ⟨l1, s1⟩ := r1
      rw [h1] at h
      simp only at h
      cases h2 : declareSets E rest with
      | error e => rw [h2] at h; cases h
      | ok r2 =>
        obtain ⟨l2, s2⟩ := r2
        rw [h2] at h
        simp only [Except.ok.injEq, Prod.mk.injEq] at h
        obtain ⟨rfl, rfl⟩ := h
        obtain ⟨hnh, hnt⟩ := List.nodup_cons.1 hn
        obtain ⟨N2, O2⟩ := ih h2 hnt (fun s hs => hw s (by simp [hs])) (fun s hs => hd s (by simp [hs]))
          (fun s hs => hc s (by simp [hs]))
        have L1 : (l1.map Fn.key).Nodup ∧ ∀ f ∈ l1, Of s.name f := by
          rcases declareSet_spec h1 with ⟨rfl, _⟩ | ⟨k, out, hk, hgen, hs', hl⟩
          · simp
          · have hof : ∀ f ∈ k.map inlineFn, Of s.name f := by
              intro f hf
              obtain ⟨m, hm, rfl⟩ := List.mem_map.1 hf
              rw [hk.eq] at hm
              refine .inl ?_
              show m.name ++ _ = _
              rw [hw s (by simp) m (List.mem_filter.1 hm).1]
            rw [hl]
            refine ⟨nodup_append_keys (setFns_nodup _ _ _ _) (inlines_nodup ?_) ?_, ?_⟩
            · rw [hk.eq]
              exact ((List.filter_sublist).map _).nodup (hd s (by simp))
            · intro x hx y hy hxy
              have hy' := hof y hy
              obtain ⟨m, hm, rfl⟩ := List.mem_map.1 hy
              have e1 : x.name = m.name ++ "__parent_caller".toList := congrArg (·.1) hxy
              have hm' : m.name = s.name := by rw [hk.eq] at hm; exact hw s (by simp) m (List.mem_filter.1 hm).1
              have hcl := hc s (by simp)
              rw [hm'] at e1
              cases setFns_of hx with
              | main a t => rw [a] at e1; exact wrap_ne_inl hcl.1 e1
              | delegate k a t =>
                rw [a, List.append_assoc, wrap_append] at e1
                exact wrap_ne_inl hcl.1 e1
              | inl a =>
                have hkd := setFns_wrapper _ _ _ _ x hx
                unfold setFns at hx
                split at hx
                · cases hx
                · rw [List.mem_singleton.1 hx] at a
                  exact wrap_ne_inl hcl.1 a
                · rcases List.mem_cons.1 hx with rfl | hx
                  · exact wrap_ne_inl hcl.1 a
                  · obtain ⟨p, _, rfl⟩ := List.mem_map.1 hx
                    have : wrapName s.name ++ "__".toList ++ natStr p.2 = s.name ++ "__parent_caller".toList := a
                    rw [List.append_assoc, wrap_append] at this
                    exact wrap_ne_inl hcl.1 this
            · intro f hf
              rcases List.mem_append.1 hf with hf | hf
              · exact setFns_of hf
              · exact hof f hf
        refine ⟨nodup_append_keys L1.1 N2 ?_, ?_⟩
        · intro x hx y hy hxy
          obtain ⟨s', hs', ho⟩ := O2 y hy
          have := (L1.2 x hx).unique ho hxy (hc s (by simp)) (hc s' (by simp [hs']))
          exact hnh (List.mem_map.2 ⟨s', hs', this.symm⟩)
        · intro f hf
          rcases List.mem_append.1 hf with hf | hf
          · exact ⟨s, by simp, L1.2 f hf⟩
          · obtain ⟨s', hs', ho⟩ := O2 f hf
            exact ⟨s', by simp [hs'], ho⟩

theorem overridden_sub {seen ms : List VMeth} : ∀ m ∈ overridden seen ms, m ∈ ms := by
  induction ms generalizing seen with
  | nil => intro m hm; cases hm
  | cons x xs ih =>
    intro m hm
    unfold overridden at hm
    split at hm
    · exact List.mem_cons_of_mem _ (ih m hm)
    · rcases List.mem_cons.1 hm with rfl | hm
      · simp
      · exact List.mem_cons_of_mem _ (ih m hm)

theorem overridden_new {seen ms : List VMeth} : ∀ m ∈ overridden seen ms, ∀ e ∈ seen, m.matches e = false := by
  induction ms generalizing seen with
  | nil => intro m hm; cases hm
  | cons x xs ih =>
    intro m hm e he
    unfold overridden at hm
    split at hm
    · exact ih m hm e he
    · next hx =>
      rcases List.mem_cons.1 hm with rfl | hm
      · rw [Bool.eq_false_iff]
        intro h
        exact hx (.inr (List.any_eq_true.2 ⟨e, he, h⟩))
      · exact ih m hm e (by simp [he])

theorem overridden_pairwise {seen ms : List VMeth} :
    (overridden seen ms).Pairwise (fun a b => b.matches a = false) := by
  induction ms generalizing seen with
  | nil => exact .nil
  | cons x xs ih =>
    unfold overridden
    split
    · exact ih
    · exact .cons (fun b hb => overridden_new b hb x (by simp)) ih

/-- C106 (partial: a method has the same Python name in every class that declares it, and no method is
named like a generated function): no two member functions of the helper class have the same name,
parameter types and constness. -/
theorem C106_distinct_partial {E : Env} {dep : Bool} {ms : List VMeth} {decls : List Fn} {H' : Helper}
    (h : declare E (build dep ms) = .ok (some decls, H'))
    (hr : ∀ a ∈ ms, ∀ b ∈ ms, a.name = b.name → a.params.map (·.1) = b.params.map (·.1) → a.isConst = b.isConst →
      a.mangled = b.mangled)
    (hw : ∀ m ∈ ms, ¬ "_wrap".toList <+: m.name ∧ ¬ "__parent_caller".toList <:+ m.name) :
    (decls.map Fn.key).Nodup := by
  have B := built dep ms
  have hme := build_methods dep ms
  unfold declare at h
  cases h1 : declareSets E (build dep ms).sets with
  | error e => rw [h1] at h; cases h
  | ok q =>
    obtain ⟨l, sets⟩ := q
    rw [h1, B.proxies, hme] at h
    simp only at h
    cases h2 : declareProxies E ((overridden [] ms).map fun m => ⟨m, false⟩) with
    | error e => rw [h2] at h; cases h
    | ok q =>
      obtain ⟨r, ps⟩ := q
      rw [h2] at h
      cases r with
      | none => cases h
      | some l2 =>
        simp only [Except.ok.injEq, Prod.mk.injEq, Option.some.injEq] at h
        obtain ⟨rfl, rfl⟩ := h
        obtain ⟨h5, -⟩ := (proxies_done h2).2 l2 rfl
        have hsn : ∀ s ∈ (build dep ms).sets, s.wrappers ≠ [] → Clean s.name := by
          intro s hs hne
          obtain ⟨m, hm⟩ := List.exists_mem_of_ne_nil _ hne
          obtain ⟨h3, h4, _⟩ := B.wrappers s hs m hm
          rw [hme] at h3
          rw [← h4]; exact hw m (overridden_sub m h3)
        have hne : ∀ s ∈ (build dep ms).sets, s.wrappers ≠ [] := by
          have key : ∀ (ms : List VMeth) (H : Helper), (∀ s ∈ H.sets, s.wrappers ≠ []) →
              ∀ s ∈ (ms.foldl (Helper.add dep) H).sets, s.wrappers ≠ [] := by
            intro ms
            induction ms with
            | nil => intro H hH; exact hH
            | cons m ms ih =>
              intro H hH
              refine ih _ ?_
              unfold Helper.add
              split
              · exact hH
              · split
                · split <;> exact hH
                · simp only
                  split
                  · intro s hs
                    rcases addCaller_mem hs with hs | hs | ⟨s0, h0, hn, hs, ha⟩
                    · exact hH s hs
                    · rw [hs]; simp
                    · rw [hs]; simp
                  · exact hH
          exact key ms {} (by simp)
        obtain ⟨N, O⟩ := sets_nodup h1 B.nodup (fun s hs m hm => (B.wrappers s hs m hm).2.1) B.distinct
          (fun s hs => hsn s hs (hne s hs))
        subst h5
        refine nodup_append_keys N ?_ ?_
        · rw [List.map_map]
          have hp := (overridden_pairwise (seen := []) (ms := ms)).filter proxyWorks
          have hsub : ∀ m ∈ (overridden [] ms).filter proxyWorks, m ∈ ms := fun m hm =>
            overridden_sub m (List.mem_filter.1 hm).1
          have : ((overridden [] ms).filter proxyWorks).Pairwise (fun a b => (Fn.key ∘ virtFn) a ≠ (Fn.key ∘ virtFn) b) := by
            refine hp.imp_of_mem ?_
            intro a b ha hb hab he
            have e1 : a.name = b.name := congrArg (·.1) he
            have e2 : a.params.map (·.1) = b.params.map (·.1) := congrArg (·.2.1) he
            have e3 : a.isConst = b.isConst := congrArg (·.2.2) he
            have e4 := hr a (hsub a ha) b (hsub b hb) e1 e2 e3
            have : b.matches a = true := by
              simp only [VMeth.matches, decide_eq_true_eq]
              exact ⟨e4.symm, e2.symm, e3.symm⟩
            rw [this] at hab; cases hab
          exact List.pairwise_map.2 this
        · intro x hx y hy hxy
          obtain ⟨s, hs, ho⟩ := O x hx
          obtain ⟨m, hm, rfl⟩ := List.mem_map.1 hy
          have hcm := hw m (overridden_sub m (List.mem_filter.1 hm).1)
          have e1 : x.name = m.name := congrArg (·.1) hxy
          have hpre : ∀ z : Str, wrapName z ≠ m.name := by
            intro z hz
            exact hcm.1 ⟨'_' :: z, by rw [← hz]; rfl⟩
          cases ho with
          | main a t => rw [a] at e1; exact hpre _ e1
          | delegate k a t => rw [a, List.append_assoc, wrap_append] at e1; exact hpre _ e1
          | inl a => rw [a] at e1; exact hcm.2 ⟨s.name, e1⟩

/-! ## Examples and counterexamples -/

private def intT : Str := "int".toList
private def voidT : Str := "void".toList
private def A : Str := "A".toList

/-- Two overloads of a protected method, of which one cannot be generated, a pure virtual method, a
constant and a non-constant public method of the same name. -/
def exampleMethods : List VMeth :=
  [ { owner := A, name := "f".toList, mangled := "f".toList, ret := intT, params := [(intT, "a".toList)], vis := .prot },
    { owner := A, name := "f".toList, mangled := "f".toList, ret := voidT, vis := .prot },
    { owner := A, name := "f".toList, mangled := "f".toList, ret := voidT, params := [("X".toList, "x".toList)],
      vis := .prot, callerFails := some .codeGenerationError, proxyFails := some .notSupportedError },
    { owner := A, name := "g".toList, mangled := "g".toList, ret := voidT, isPure := true },
    { owner := A, name := "h".toList, mangled := "h".toList, ret := intT, isConst := true },
    { owner := A, name := "h".toList, mangled := "h".toList, ret := intT } ]

def exampleEnv : Env := ⟨some fun _ _ => true, "PyA".toList⟩

def keysOf (r : PyRes (Option (List Fn) × Helper)) : Option (List (Str × Nat × Bool)) :=
  match r with
  | .ok (some l, _) => some (l.map fun f => (f.name, f.types.length, f.isConst))
  | _ => none

example : keysOf (declare exampleEnv (build false exampleMethods)) = some
    [("_wrap_f".toList, 3, false), ("_wrap_f__0".toList, 4, false), ("_wrap_f__1".toList, 4, false),
     ("f__parent_caller".toList, 1, false), ("f__parent_caller".toList, 0, false),
     ("f".toList, 1, false), ("f".toList, 0, false), ("g".toList, 0, false), ("h".toList, 0, true),
     ("h".toList, 0, false)] := by decide +kernel

example : (∀ a ∈ exampleMethods, ∀ b ∈ exampleMethods, a.name = b.name →
      a.params.map (·.1) = b.params.map (·.1) → a.isConst = b.isConst → a.mangled = b.mangled) ∧
    (∀ m ∈ exampleMethods, ¬ "_wrap".toList <+: m.name ∧ ¬ "__parent_caller".toList <:+ m.name) := by
  decide +kernel

def pureG : VMeth :=
  { owner := A, name := "g".toList, mangled := "g".toList, ret := voidT, isPure := true,
    proxyFails := some .codeGenerationError }

/-- Giving up: the override of `g` cannot be generated. -/
example : (declare exampleEnv (build false [pureG])).map (fun r => (r.1.isSome, r.2.cannot)) =
    .ok (false, true) := by decide +kernel

/-- C106 fails when a method has a Python name of its own in one class only: `f` is renamed in class `A` and
declared again, without that, in the derived class `B`.  The helper class of `B` declares `f` twice. -/
theorem C106_renamed_counterexample :
    let fB : VMeth := { owner := "B".toList, name := "f".toList, mangled := "f".toList, ret := voidT }
    let fA : VMeth := { owner := A, name := "f".toList, mangled := "run".toList, ret := voidT }
    ∃ decls H', declare ⟨none, "PyB".toList⟩ (build false [fB, fA]) = .ok (some decls, H') ∧
      ¬ (decls.map Fn.key).Nodup := by
  refine ⟨_, _, rfl, ?_⟩
  decide +kernel

end Verif.HelperCode
