import Verif.CppClass.HelperCode
import Mathlib.Data.List.Perm.Basic
import Mathlib.Data.List.Nodup

/-!
# C106: helper classes are complete
-/
namespace Verif.HelperCode
open Verif Verif.Utils Verif.Overload

/-! ## One overload set -/

/-- The parent caller of the method can be generated. -/
def works (m : VMeth) : Bool := m.callerFails.isNone

theorem flags_ok {E : Env} {m : VMeth} (h : works m = true) : (ops E).flags m = .ok varargs := by
  unfold works at h
  cases hc : m.callerFails with
  | none => simp [ops, flagsOf, hc]
  | some e => rw [hc] at h; cases h

theorem flags_inv {E : Env} {m : VMeth} {f : List Str} (h : (ops E).flags m = .ok f) : works m = true := by
  unfold works
  cases hc : m.callerFails with
  | none => rfl
  | some e => simp [ops, flagsOf, hc] at h

theorem gen_works {E : Env} {m : VMeth} (h : works m = true) : (ops E).gen m = .ok () := by
  unfold works at h
  cases hc : m.callerFails with
  | none => simp [ops, outcome, hc]
  | some e => rw [hc] at h; cases h

theorem gen_inv' {E : Env} {m : VMeth} {u : Unit} (h : (ops E).gen m = .ok u) : works m = true := by
  unfold works
  cases hc : m.callerFails with
  | none => rfl
  | some e => simp [ops, outcome, hc] at h

theorem sameSet_self (a : List Str) : sameSet a a = true := (sameSet_iff a a).2 (fun _ => Iff.rfl)

theorem call_ok {W α : Type} (hd : Handler W) (w : W) (a : α) :
    callWithErrorHandling hd defaultHandled w (.ok a : PyRes α) = .ok a := by
  cases hd <;> rfl

theorem call_inv {W α : Type} {hd : Handler W} {w : W} {r : PyRes α} {a : α}
    (h : callWithErrorHandling hd defaultHandled w r = .ok a) : r = .ok a := by
  cases hd with
  | none => exact h
  | some f =>
    cases r with
    | ok b => exact h
    | error e =>
      simp only [callWithErrorHandling] at h
      split at h
      · split at h <;> cases h
      · cases h

theorem scan_works {E : Env} (l : List VMeth) (hl : ∀ m ∈ l, works m = true) (ex : Option (List Str))
    (hex : ex = none ∨ ex = some varargs) : scan (ops E) ex l = .done := by
  induction l generalizing ex with
  | nil => rfl
  | cons m ms ih =>
    have hm := hl m (by simp)
    have hg : (ops E).guarded m = .ok varargs := by
      unfold Ops.guarded; rw [flags_ok hm]; exact call_ok _ _ _
    unfold scan
    rw [hg]
    rcases hex with rfl | rfl
    · exact ih (fun x hx => hl x (by simp [hx])) _ (.inr rfl)
    · simp only [sameSet_self, if_true]
      exact ih (fun x hx => hl x (by simp [hx])) _ (.inr rfl)

theorem normLoop_works {E : Env} (l : List VMeth) (hl : ∀ m ∈ l, works m = true) :
    normLoop (ops E) l = .ok l := by
  rw [normLoop]
  split
  · rfl
  · next e h => rw [scan_works l hl none (.inl rfl)] at h; cases h
  · next w h => rw [scan_works l hl none (.inl rfl)] at h; cases h

theorem normalize_works {E : Env} (l : List VMeth) (hl : ∀ m ∈ l, works m = true) :
    normalize (ops E) l = .ok l := by
  unfold normalize
  split
  · rfl
  · exact normLoop_works l hl

theorem normalize_all {E : Env} {ws l : List VMeth} (h : normalize (ops E) ws = .ok l) (hn : ws.length ≠ 1) :
    ∀ m ∈ l, works m = true := by
  intro m hm
  obtain ⟨f, _, hf, _⟩ := (C22_uniform _ _ _ h).2 hn m hm m hm
  exact flags_inv hf

theorem normalize_idem {E : Env} {ws l : List VMeth} (h : normalize (ops E) ws = .ok l) :
    normalize (ops E) l = .ok l := by
  by_cases hn : ws.length = 1
  · have : l = ws := by simp only [normalize, hn, if_true] at h; cases h; rfl
    rw [this] at h ⊢; exact h
  · exact normalize_works l (normalize_all h hn)

theorem scan_no_remove {W : Type} {o : Ops W} (ho : o.handler = none) (ex : Option (List Str)) (l : List W) (w : W) :
    scan o ex l ≠ .remove w := by
  induction l generalizing ex with
  | nil => intro h; cases h
  | cons x xs ih =>
    unfold scan
    simp only [ho, Option.isSome_none, Bool.false_eq_true, if_false]
    split
    · split <;> (intro h; cases h)
    · split
      · exact ih _
      · split
        · exact ih _
        · intro h; cases h

/-- What is left of an overload set with several wrappers: those that can be generated. -/
theorem normalize_filter {E : Env} {ws l : List VMeth} (h : normalize (ops E) ws = .ok l) (hn : ws.length ≠ 1) :
    l = ws.filter works := by
  cases hh : E.handler with
  | none =>
    have ho : (ops E).handler = none := by simp [ops, hh]
    have hl : l = ws := by
      simp only [normalize, hn, if_false] at h
      rw [normLoop] at h
      split at h
      · cases h; rfl
      · cases h
      · next w hw => exact absurd hw (scan_no_remove ho _ _ _)
    have hall := normalize_all h hn
    rw [hl] at hall ⊢
    exact (List.filter_eq_self.2 hall).symm
  | some hd =>
    have ho : (ops E).handler.isSome = true := by simp [ops, hh]
    rw [C22_kept_exactly _ _ ho hn] at h
    split at h
    · cases h
    · cases h
      have hu : ∀ m, usable (ops E) m = if works m then some varargs else none := by
        intro m
        cases hw : works m with
        | true => simp [usable, flags_ok hw]
        | false =>
          have : m.callerFails.isSome = true := by
            unfold works at hw
            cases hc : m.callerFails with
            | none => rw [hc] at hw; cases hw
            | some e => rfl
          obtain ⟨e, he⟩ := Option.isSome_iff_exists.1 this
          simp [usable, ops, flagsOf, he]
      unfold keep
      cases hf : ws.findSome? (usable (ops E)) with
      | none =>
        rw [List.findSome?_eq_none_iff] at hf
        symm
        simp only [List.filter_eq_nil_iff]
        intro m hm hw
        have := hf m hm
        rw [hu, if_pos hw] at this
        cases this
      | some f =>
        obtain ⟨m, hm, hmf⟩ := List.exists_of_findSome?_eq_some hf
        rw [hu] at hmf
        have : f = varargs := by
          split at hmf
          · cases hmf; rfl
          · cases hmf
        subst this
        simp only
        apply List.filter_congr
        intro x _
        rw [hu]
        cases works x with
        | true => simp [sameSet_self]
        | false => rfl

theorem genDelegates_works {E : Env} (b : Str) (k : Nat) (l : List VMeth) (hl : ∀ m ∈ l, works m = true) :
    ∃ ds, genDelegates (ops E) b k l = .ok ds ∧ ds.length = l.length := by
  induction l generalizing k with
  | nil => exact ⟨[], rfl, rfl⟩
  | cons m ms ih =>
    obtain ⟨ds, h, hd⟩ := ih (k + 1) (fun x hx => hl x (by simp [hx]))
    refine ⟨delegateName b k :: ds, ?_, by simp [hd]⟩
    unfold genDelegates
    rw [gen_works (hl m (by simp)), call_ok]
    simp only [h]

/-- `generate` gives the same with the wrappers that `_normalize_py_method_flags` leaves. -/
theorem generate_norm {E : Env} {b p : Str} {ws l : List VMeth} (h : normalize (ops E) ws = .ok l) :
    Overload.generate (ops E) b p l = Overload.generate (ops E) b p ws := by
  unfold Overload.generate
  rw [h, normalize_idem h]

theorem generate_after (E : Env) (s : PSet) : (s.after E).generate E = s.generate E := by
  unfold PSet.after PSet.generate
  cases h : normalize (ops E) s.wrappers with
  | ok l => exact generate_norm h
  | error e => rfl

/-- A successful `generate`: the wrappers left all work, and what is written is known. -/
theorem generate_inv {E : Env} {b p : Str} {ws : List VMeth} {out : Out VMeth}
    (h : Overload.generate (ops E) b p ws = .ok out) :
    ∃ l, normalize (ops E) ws = .ok l ∧ l ≠ [] ∧ (∀ m ∈ l, works m = true) ∧
      ((∃ m, l = [m] ∧ out = .single m) ∨
       (1 < l.length ∧ ∃ ds, genDelegates (ops E) b 0 l = .ok ds ∧
          out = .dispatcher (wrapperArgs p varargs) ds (emitBody ds))) := by
  unfold Overload.generate at h
  cases hn : normalize (ops E) ws with
  | error e => rw [hn] at h; cases h
  | ok l =>
    rw [hn] at h
    refine ⟨l, rfl, ?_⟩
    match l, hn, h with
    | [], _, h => cases h
    | [m], hn, h =>
      simp only [ops, Bool.false_eq_true, if_false] at h
      split at h
      · cases h
      · next hc =>
        have hw := gen_inv' (E := E) (call_inv hc)
        cases h
        refine ⟨by simp, fun x hx => ?_, .inl ⟨m, rfl, rfl⟩⟩
        rw [List.mem_singleton.1 hx]; exact hw
    | m :: m2 :: ms, hn, h =>
      have hne : ws.length ≠ 1 := by
        intro h1
        simp only [normalize, h1, if_true] at hn
        cases hn
        simp at h1
      have hall := normalize_all hn hne
      refine ⟨by simp, hall, .inr ⟨by simp, ?_⟩⟩
      unfold generateMany at h
      simp only [flags_ok (E := E) (hall m (by simp))] at h
      obtain ⟨ds, hd, hlen⟩ := genDelegates_works (E := E) b 0 (m :: m2 :: ms) hall
      rw [hd] at h
      match ds, hlen, hd, h with
      | d :: ds, _, hd, h => cases h; exact ⟨d :: ds, hd, rfl⟩

/-- What is declared for a set, given the wrappers left. -/
def setFns (E : Env) (n : Str) (multi : Bool) (l : List VMeth) : List Fn :=
  match l with
  | [] => []
  | [m] => [static (wrapName n) (callerArgs E multi m)]
  | _ => static (wrapName n) (wrapperArgs E.pystruct varargs) :: (l.zipIdx).map (fun p => delegateFn E n p.1 p.2)

theorem delegateDecls_works (E : Env) (n : Str) (k : Nat) (l : List VMeth) (hl : ∀ m ∈ l, works m = true) :
    delegateDecls E n k l = .ok ((l.zipIdx k).map fun p => delegateFn E n p.1 p.2) := by
  induction l generalizing k with
  | nil => rfl
  | cons m ms ih =>
    have hm := hl m (by simp)
    unfold works at hm
    unfold delegateDecls
    cases hc : m.callerFails with
    | some e => rw [hc] at hm; cases hm
    | none => simp only [ih (k + 1) (fun x hx => hl x (by simp [hx])), List.zipIdx_cons, List.map_cons]

theorem delegateDefs_works (E : Env) (n : Str) (c k : Nat) (l : List VMeth) (hl : ∀ m ∈ l, works m = true) :
    delegateDefs E n c k l = (l.zipIdx k).map fun p => ⟨delegateFn E n p.1 p.2, c⟩ := by
  induction l generalizing k with
  | nil => rfl
  | cons m ms ih =>
    have hm := hl m (by simp)
    unfold works at hm
    unfold delegateDefs
    cases hc : m.callerFails with
    | some e => rw [hc] at hm; cases hm
    | none => simp only [ih (k + 1) (fun x hx => hl x (by simp [hx])), List.zipIdx_cons, List.map_cons]

/-- The set after `generate`, when it succeeds. -/
theorem after_ok {E : Env} {s : PSet} {l : List VMeth} (h : normalize (ops E) s.wrappers = .ok l) :
    s.after E = { s with wrappers := l, multi := s.multi || decide (s.wrappers.length ≠ 1), used := true } := by
  unfold PSet.after; rw [h]

/-- What a set comes to: nothing, or its wrappers that work; and whether they parse arguments always. -/
structure Kept (s : PSet) (l : List VMeth) : Prop where
  nonempty : l ≠ []
  works : ∀ m ∈ l, works m = true
  eq : l = s.wrappers.filter HelperCode.works

theorem kept_of {E : Env} {s : PSet} {out : Out VMeth} (h : s.generate E = .ok out) :
    ∃ l, normalize (ops E) s.wrappers = .ok l ∧ Kept s l := by
  obtain ⟨l, hn, hne, hall, _⟩ := generate_inv h
  refine ⟨l, hn, hne, hall, ?_⟩
  by_cases h1 : s.wrappers.length = 1
  · have : l = s.wrappers := by simp only [normalize, h1, if_true] at hn; cases hn; rfl
    rw [← this]; exact (List.filter_eq_self.2 hall).symm
  · exact normalize_filter hn h1

/-- Declaring a set, exactly. -/
theorem declareSet_spec {E : Env} {s s' : PSet} {l : List Fn} (h : declareSet E s = .ok (l, s')) :
    (l = [] ∧ guardSet E s (s.generate E) = .error .skipWrapper ∧ s'.name = s.name ∧ s'.generate E = s.generate E) ∨
    (∃ k out, Kept s k ∧ s.generate E = .ok out ∧
      s' = { name := s.name, wrappers := k, multi := s.multi || decide (s.wrappers.length ≠ 1), used := false } ∧
      l = setFns E s.name s'.multi k ++ k.map inlineFn) := by
  have hr : s.reset.generate E = s.generate E := rfl
  have hg : guardSet E s.reset (s.reset.generate E) = guardSet E s (s.generate E) := rfl
  unfold declareSet at h
  simp only [hg] at h
  cases hs : guardSet E s (s.generate E) with
  | error e =>
    rw [hs] at h
    left
    cases e <;> first
      | (cases h; done)
      | (simp only [Except.ok.injEq, Prod.mk.injEq] at h
         obtain ⟨h1, h2⟩ := h
         refine ⟨h1.symm, rfl, ?_, ?_⟩
         · rw [← h2]; simp only [PSet.reset, PSet.after]; split <;> rfl
         · rw [← h2]; exact (generate_after E s.reset))
  | ok out0 =>
    right
    have hgen : s.generate E = .ok out0 := call_inv hs
    obtain ⟨k, hn, hk⟩ := kept_of hgen
    have ha : (s.reset.after E).reset =
        { name := s.name, wrappers := k, multi := s.multi || decide (s.wrappers.length ≠ 1), used := false } := by
      rw [after_ok (s := s.reset) hn]; rfl
    have hgen1 : (s.reset.after E).reset.generate E = .ok out0 := (generate_after E s.reset).trans hgen
    rw [hs] at h
    simp only [hgen1] at h
    rw [ha] at h hgen1
    have hn1 : normalize (ops E) k = .ok k := normalize_idem hn
    have ha1 := after_ok (E := E) (s := PSet.mk s.name k (s.multi || decide (s.wrappers.length ≠ 1)) false) hn1
    simp only [ha1] at h
    have hm : (s.multi || decide (s.wrappers.length ≠ 1) || decide (k.length ≠ 1)) =
        (s.multi || decide (s.wrappers.length ≠ 1)) := by
      by_cases h1 : s.wrappers.length = 1
      · have : k = s.wrappers := by simp only [normalize, h1, if_true] at hn; cases hn; rfl
        rw [this]; simp [h1]
      · simp [h1]
    rw [hm] at h
    generalize hmu : (s.multi || decide (s.wrappers.length ≠ 1)) = mu at *
    obtain ⟨k2, hn2, _, _, hcase⟩ := generate_inv hgen1
    have hk2 : k2 = k := by rw [hn1] at hn2; cases hn2; rfl
    subst hk2
    unfold classDecls at h
    rcases hcase with ⟨m, rfl, rfl⟩ | ⟨hlen, ds, hds, rfl⟩
    · simp only [List.length_cons, List.length_nil, Nat.lt_irrefl, if_false, Except.ok.injEq, Prod.mk.injEq, Nat.zero_add] at h
      obtain ⟨h1, h2⟩ := h
      refine ⟨[m], _, hk, hgen, ?_, ?_⟩
      · rw [← h2]; rfl
      · rw [← h1, ← h2]; rfl
    · simp only [hlen, if_true, delegateDecls_works E s.name 0 k2 hk.works, Except.ok.injEq, Prod.mk.injEq] at h
      obtain ⟨h1, h2⟩ := h
      refine ⟨k2, _, hk, hgen, ?_, ?_⟩
      · rw [← h2]; rfl
      · rw [← h1, ← h2]
        match k2, hlen with
        | a :: b :: r, _ => rfl

/-- Defining a set that has been declared. -/
theorem defineSet_spec {E : Env} (dep : Bool) {s : PSet} {k : List VMeth} {out : Out VMeth} (hk : Kept s k)
    (hg : s.generate E = .ok out) (s' : PSet)
    (hs : s' = { name := s.name, wrappers := k, multi := s.multi || decide (s.wrappers.length ≠ 1), used := false }) :
    ∃ d main, defineSet E dep s' = .ok (d, [((if dep then '_' :: s.name else s.name), main)]) ∧
      (d.map (·.fn)).Perm (setFns E s.name s'.multi k) ∧ (∀ x ∈ d, x.copies = 1) ∧ main ∈ d.map (·.fn) := by
  obtain ⟨k0, hn, hk0⟩ := kept_of hg
  have hkk : k0 = k := by rw [hk0.eq, hk.eq]
  subst hkk
  have hn1 : normalize (ops E) k0 = .ok k0 := normalize_idem hn
  have hgen : s'.generate E = .ok out := by
    rw [hs]; exact (generate_norm (b := wrapName s.name) (p := E.pystruct) hn).trans hg
  have hmu : (s'.multi || decide (k0.length ≠ 1)) = s'.multi := by
    rw [hs]
    by_cases h1 : s.wrappers.length = 1
    · have : k0 = s.wrappers := by simp only [normalize, h1, if_true] at hn; cases hn; rfl
      rw [this]; simp [h1]
    · simp [h1]
  have hw' : s'.wrappers = k0 := by rw [hs]
  have hu' : s'.used = false := by rw [hs]
  have hname : s'.name = s.name := by rw [hs]
  have ha := after_ok (E := E) (s := s') (l := k0) (by rw [hw']; exact hn1)
  rw [hw', hmu] at ha
  have hgd : guardSet E s' (s'.generate E) = .ok out := by rw [hgen]; exact call_ok _ _ _
  unfold defineSet
  rw [hgd]
  simp only [ha, hu', hname, Bool.false_eq_true, if_false]
  obtain ⟨k2, hn2, _, _, hcase⟩ := generate_inv hgen
  have hk2 : k2 = k0 := by rw [hw', hn1] at hn2; cases hn2; rfl
  subst hk2
  refine ⟨_, _, rfl, ?_⟩
  rcases hcase with ⟨m, rfl, rfl⟩ | ⟨hlen, ds, hds, rfl⟩
  · refine ⟨List.Perm.refl _, ?_, ?_⟩
    · intro x hx; rw [List.mem_singleton.1 hx]
    · exact List.mem_singleton.2 rfl
  · have hdd : setDefs E (PSet.mk s.name k2 s'.multi true) 1
        (.dispatcher (wrapperArgs E.pystruct varargs) ds (emitBody ds)) =
        (k2.zipIdx).map (fun p => (⟨delegateFn E s.name p.1 p.2, 1⟩ : Def)) ++
          [⟨static (wrapName s.name) (wrapperArgs E.pystruct varargs), 1⟩] := by
      simp only [setDefs, delegateDefs_works E _ 1 0 k2 hk0.works]; rfl
    rw [hdd]
    refine ⟨?_, ?_, ?_⟩
    · match k2, hlen with
      | a :: b :: r, _ =>
        simp only [setFns, List.map_append, List.map_map, List.map_cons, List.map_nil]
        exact List.perm_append_comm.trans (List.Perm.refl _)
    · intro x hx
      rw [List.mem_append] at hx
      rcases hx with hx | hx
      · obtain ⟨p, _, rfl⟩ := List.mem_map.1 hx; rfl
      · rw [List.mem_singleton.1 hx]
    · simp [mainFn]

end Verif.HelperCode
