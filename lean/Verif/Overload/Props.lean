import Verif.Overload.Model
import Verif.Utils.Props

/-!
# C22, C23, C24: overload sets
-/
namespace Verif.Overload
open Verif Verif.Utils

variable {W : Type}

/-! ## C22: flags of the wrappers kept -/

theorem sameSet_iff (a b : List Str) : sameSet a b = true ↔ (∀ x, x ∈ a ↔ x ∈ b) := by
  simp only [sameSet, Bool.and_eq_true, List.all_eq_true, List.contains_iff_mem]
  constructor
  · rintro ⟨h1, h2⟩ x; exact ⟨h1 x, h2 x⟩
  · intro h; exact ⟨fun x hx => (h x).1 hx, fun x hx => (h x).2 hx⟩

/-- The flags a wrapper contributes, when it does not have to be skipped or fail. -/
def usable (o : Ops W) (w : W) : Option (List Str) :=
  match o.flags w with
  | .ok f => some f
  | .error _ => none

/-- The specification: keep the wrappers whose flag set is that of the first usable one. -/
def keep (o : Ops W) (ws : List W) : List W :=
  match ws.findSome? (usable o) with
  | none => []
  | some f => ws.filter fun w => match usable o w with
    | some g => sameSet g f
    | none => false

/-- The error a wrapper's flags raise through the error handling policy, if it is not a skip. -/
def fatal (o : Ops W) (w : W) : Option PyErr :=
  match o.guarded w with
  | .error e => if e = .skipWrapper then none else some e
  | .ok _ => none

private theorem guarded_ok (o : Ops W) (w : W) (f : List Str) :
    o.guarded w = .ok f ↔ usable o w = some f := by
  unfold Ops.guarded usable
  rw [C28_value_iff]
  cases o.flags w <;> simp

/-- Wrappers the scan passes over without complaint, given the flags seen so far. -/
private def passes (o : Ops W) (f : List Str) (w : W) : Bool :=
  match usable o w with
  | some g => sameSet g f
  | none => false

private theorem scan_some {o : Ops W} {f : List Str} {ws : List W} (hh : o.handler.isSome = true) :
    (∀ r, scan o (some f) ws = r → match r with
      | .done => ∀ w ∈ ws, passes o f w = true
      | .remove w => ∃ a b, ws = a ++ w :: b ∧ (∀ x ∈ a, passes o f x = true) ∧
          passes o f w = false ∧ fatal o w = none
      | .raise e => ∃ a w b, ws = a ++ w :: b ∧ (∀ x ∈ a, passes o f x = true) ∧ fatal o w = some e) := by
  induction ws with
  | nil => rintro r rfl; simp [scan]
  | cons x xs ih =>
    intro r hr
    unfold scan at hr
    cases hg : o.guarded x with
    | error e =>
      rw [hg] at hr
      have hu : usable o x = none := by
        cases hu : usable o x with
        | none => rfl
        | some g => rw [(guarded_ok o x g).2 hu] at hg; cases hg
      by_cases he : e = .skipWrapper
      · simp [he, hh] at hr
        subst hr
        refine ⟨[], xs, rfl, by simp, by simp [passes, hu], by simp [fatal, hg, he]⟩
      · simp [he] at hr
        subst hr
        exact ⟨[], x, xs, rfl, by simp, by simp [fatal, hg, he]⟩
    | ok g =>
      rw [hg] at hr
      have hu := (guarded_ok o x g).1 hg
      by_cases hs : sameSet g f = true
      · simp only [hs, if_true] at hr
        have := ih r hr
        have hp : passes o f x = true := by simp [passes, hu, hs]
        cases r with
        | done => intro w hw; rcases List.mem_cons.1 hw with rfl | hw; exact hp; exact this w hw
        | remove w =>
          obtain ⟨a, b, h1, h2, h3, h4⟩ := this
          refine ⟨x :: a, b, by simp [h1], ?_, h3, h4⟩
          intro y hy; rcases List.mem_cons.1 hy with rfl | hy; exact hp; exact h2 y hy
        | raise e =>
          obtain ⟨a, w, b, h1, h2, h3⟩ := this
          refine ⟨x :: a, w, b, by simp [h1], ?_, h3⟩
          intro y hy; rcases List.mem_cons.1 hy with rfl | hy; exact hp; exact h2 y hy
      · simp only [hs, hh] at hr
        simp at hr
        subst hr
        exact ⟨[], xs, rfl, by simp, by simp [passes, hu, hs], by simp [fatal, hg]⟩

/-- The first fatal error in declaration order. -/
def firstFatal (o : Ops W) (ws : List W) : Option PyErr := ws.findSome? (fatal o)

private theorem usable_of_passes {o : Ops W} {f : List Str} {w : W} (h : passes o f w = true) :
    fatal o w = none := by
  unfold passes at h
  cases hu : usable o w with
  | none => simp [hu] at h
  | some g => simp [fatal, (guarded_ok o w g).2 hu]

variable [DecidableEq W]

private theorem erase_first {a b : List W} {w : W} (h : w ∉ a) : (a ++ w :: b).erase w = a ++ b := by
  rw [List.erase_append_right _ h]; simp

private theorem normLoop_spec (n : Nat) (o : Ops W) (hh : o.handler.isSome = true) (ws : List W)
    (hn : ws.length = n) :
    normLoop o ws = match firstFatal o ws with
      | some e => .error e
      | none => .ok (keep o ws) := by
  induction n using Nat.strongRecOn generalizing ws with
  | ind n ih =>
    rw [normLoop]
    cases ws with
    | nil => simp [scan, firstFatal, keep]
    | cons x xs =>
      have hscan : scan o none (x :: xs) = match o.guarded x with
          | .error e => if e = .skipWrapper then .remove x else .raise e
          | .ok f => scan o (some f) xs := by
        rw [scan]
        cases o.guarded x with
        | error e => simp [hh]
        | ok f => rfl
      cases hg : o.guarded x with
      | error e =>
        rw [hg] at hscan
        have hu : usable o x = none := by
          cases hu : usable o x with
          | none => rfl
          | some g => rw [(guarded_ok o x g).2 hu] at hg; cases hg
        by_cases he : e = .skipWrapper
        · simp only [he, if_true] at hscan
          have hx : fatal o x = none := by simp [fatal, hg, he]
          split
          · next h => rw [hscan] at h; cases h
          · next h => rw [hscan] at h; cases h
          · next w h =>
            rw [hscan] at h; cases h
            simp only [List.erase_cons_head]
            rw [ih xs.length (by simp at hn; omega) xs rfl]
            simp [firstFatal, hx, keep, hu]
        · simp only [he, if_false] at hscan
          have hx : fatal o x = some e := by simp [fatal, hg, he]
          split
          · next h => rw [hscan] at h; cases h
          · next e' h => rw [hscan] at h; cases h; simp [firstFatal, hx]
          · next w h => rw [hscan] at h; cases h
      | ok f =>
        rw [hg] at hscan
        simp only at hscan
        have hu := (guarded_ok o x f).1 hg
        have hx : fatal o x = none := by simp [fatal, hg]
        have hff : sameSet f f = true := by rw [sameSet_iff]; simp
        have hxp : passes o f x = true := by simp [passes, hu, hff]
        have hkeep : ∀ l, keep o (x :: l) = x :: l.filter (passes o f) := by
          intro l
          simp only [keep, List.findSome?_cons, hu]
          rw [List.filter_cons]
          simp [hu, hff]
          rfl
        have hsp := scan_some (f := f) (ws := xs) hh
        split
        · next h =>
          rw [hscan] at h
          have := hsp _ h
          simp only at this
          have h1 : xs.findSome? (fatal o) = none := by
            rw [List.findSome?_eq_none_iff]; intro w hw; exact usable_of_passes (this w hw)
          simp only [firstFatal, List.findSome?_cons, hx, h1, hkeep]
          rw [List.filter_eq_self.2 this]
        · next e h =>
          rw [hscan] at h
          obtain ⟨a, w, b, h1, h2, h3⟩ := hsp _ h
          have : xs.findSome? (fatal o) = some e := by
            rw [h1, List.findSome?_append]
            have : a.findSome? (fatal o) = none := by
              rw [List.findSome?_eq_none_iff]; intro y hy; exact usable_of_passes (h2 y hy)
            simp [this, h3]
          simp [firstFatal, hx, this]
        · next w h =>
          rw [hscan] at h
          obtain ⟨a, b, h1, h2, h3, h4⟩ := hsp _ h
          have hwx : w ≠ x := by rintro rfl; rw [hxp] at h3; cases h3
          have hwa : w ∉ a := by intro hw; rw [h2 w hw] at h3; cases h3
          have he : (x :: xs).erase w = x :: (a ++ b) := by
            rw [h1, List.erase_cons_tail (by simpa using Ne.symm hwx), erase_first hwa]
          rw [he, ih (x :: (a ++ b)).length (by rw [← hn, h1]; simp) _ rfl]
          simp only [firstFatal, List.findSome?_cons, hx, hkeep, h1, List.findSome?_append, h4,
            List.filter_append, List.filter_cons, h3]
          simp

/-- C22, exactly which wrappers remain, with an error handler installed and more than one
declared wrapper: the loop terminates; the first error the policy does not turn into a skip (in
declaration order) propagates; otherwise the wrappers kept are, in declaration order, those whose
flags can be computed and are the same set as those of the first such wrapper. -/
theorem C22_kept_exactly (o : Ops W) (ws : List W) (hh : o.handler.isSome = true)
    (hl : ws.length ≠ 1) :
    normalize o ws = match firstFatal o ws with
      | some e => .error e
      | none => .ok (keep o ws) := by
  unfold normalize
  rw [if_neg hl]
  exact normLoop_spec _ o hh ws rfl

/-- C22: a single declared wrapper is kept without looking at its flags. -/
theorem C22_single (o : Ops W) (w : W) : normalize o [w] = .ok [w] := by simp [normalize]

omit [DecidableEq W] in
private theorem scan_none_done {o : Ops W} {ex : Option (List Str)} {ws : List W}
    (h : scan o ex ws = .done) :
    ∃ f, (∀ g, ex = some g → f = g) ∧ ∀ w ∈ ws, ∃ g, o.flags w = .ok g ∧ sameSet g f = true := by
  induction ws generalizing ex with
  | nil => cases ex with
    | none => exact ⟨[], by simp, by simp⟩
    | some g => exact ⟨g, by simp, by simp⟩
  | cons x xs ih =>
    unfold scan at h
    cases hg : o.guarded x with
    | error e => rw [hg] at h; simp only at h; split at h <;> (try split at h) <;> cases h
    | ok f =>
      rw [hg] at h
      have hu := (C28_value_iff _ _ _ _ _).1 hg
      cases ex with
      | none =>
        obtain ⟨f', h1, h2⟩ := ih h
        have := h1 f rfl
        subst this
        refine ⟨f', by simp, ?_⟩
        intro w hw
        rcases List.mem_cons.1 hw with rfl | hw
        · exact ⟨f', hu, by rw [sameSet_iff]; simp⟩
        · exact h2 w hw
      | some g =>
        simp only at h
        split at h
        · next hs =>
          obtain ⟨f', h1, h2⟩ := ih h
          have := h1 g rfl
          subst this
          refine ⟨f', by simp, ?_⟩
          intro w hw
          rcases List.mem_cons.1 hw with rfl | hw
          · exact ⟨f, hu, hs⟩
          · exact h2 w hw
        · split at h <;> cases h

private theorem normLoop_ok (n : Nat) (o : Ops W) (ws r : List W) (hn : ws.length = n)
    (h : normLoop o ws = .ok r) : r.Sublist ws ∧ scan o none r = .done := by
  induction n using Nat.strongRecOn generalizing ws with
  | ind n ih =>
    rw [normLoop] at h
    split at h
    · next hs => cases h; exact ⟨.refl _, hs⟩
    · cases h
    · next w hs =>
      have hm := scan_remove_mem hs
      have hlen := List.length_erase_of_mem hm
      have hpos := List.length_pos_of_mem hm
      obtain ⟨h1, h2⟩ := ih (ws.erase w).length (by omega) (ws.erase w) rfl h
      exact ⟨h1.trans List.erase_sublist, h2⟩

/-- C22: with or without a handler, whenever the flags are made uniform the result is a
subsequence of the declared wrappers and any two wrappers kept have the same set of flags. -/
theorem C22_uniform (o : Ops W) (ws r : List W) (h : normalize o ws = .ok r) :
    r.Sublist ws ∧ (ws.length ≠ 1 → ∀ w ∈ r, ∀ v ∈ r, ∃ f g, o.flags w = .ok f ∧ o.flags v = .ok g ∧
      ∀ x, x ∈ f ↔ x ∈ g) := by
  unfold normalize at h
  split at h
  · next hl => cases h; exact ⟨.refl _, fun hn => absurd hl hn⟩
  · obtain ⟨h1, h2⟩ := normLoop_ok _ o ws r rfl h
    refine ⟨h1, fun _ w hw v hv => ?_⟩
    obtain ⟨f, _, hf⟩ := scan_none_done h2
    obtain ⟨g1, e1, s1⟩ := hf w hw
    obtain ⟨g2, e2, s2⟩ := hf v hv
    rw [sameSet_iff] at s1 s2
    exact ⟨g1, g2, e1, e2, fun x => (s1 x).trans (s2 x).symm⟩

/-- Without an error handler, overloads with different flags end in an `AttributeError` (the code
calls `settings.error_handler.handle_error` on `None`) instead of a code generation error. -/
theorem C22_no_handler_counterexample :
    normalize (W := Nat)
      { flags := fun w => .ok (if w = 0 then ["METH_VARARGS".toList] else ["METH_STATIC".toList]),
        gen := fun _ => .ok (), needsIface := fun _ => false, docstring := fun _ => none,
        handler := none } [0, 1] = .error .attributeError := by
  rw [normalize, if_neg (by decide), normLoop]
  rfl

example : ∃ o : Ops Nat, o.handler.isSome = true ∧ firstFatal o [0, 1, 2, 3, 4] = none ∧
    keep o [0, 1, 2, 3, 4] = [1, 3] :=
  ⟨{ flags := fun w => if w = 0 then .error .notSupportedError
        else .ok (if w % 2 = 1 then ["METH_VARARGS".toList] else ["METH_STATIC".toList]),
     gen := fun _ => .ok (), needsIface := fun _ => false, docstring := fun _ => none,
     handler := some fun _ _ => true }, by decide, by decide, by decide⟩

/-! ## C23, C24: what the dispatcher does -/

variable {R E : Type}

private def stAfter (es : List E) (tr : List (Ev E)) (rv : Option R) : St R E :=
  { slot := fun i => es[i]?, owned := fun i => decide (i < es.length), retval := rv, list := [],
    listRefs := 0, err := none, trace := tr }

/-- Events of the rejecting calls. -/
def rejEvents : List (Str × E) → List (Ev E)
  | [] => []
  | (d, e) :: r => .called d :: .took e :: rejEvents r

private theorem rejEvents_append (a : List (Str × E)) (d : Str) (e : E) :
    rejEvents (a ++ [(d, e)]) = rejEvents a ++ [.called d, .took e] := by
  induction a with
  | nil => rfl
  | cons p r ih => obtain ⟨x, y⟩ := p; simp [rejEvents, ih]

private theorem decrefs_range (s : St R E) (es : List E) (m : Nat) (k : Nat)
    (hk : k + m = es.length) (hs : ∀ i, i < es.length → s.slot i = es[i]?)
    (ho : ∀ i, k ≤ i → i < es.length → s.owned i = true) :
    ∃ ow, s.decrefs (List.range' k m) =
      some { s with owned := ow, trace := s.trace ++ (es.drop k).map .released } := by
  induction m generalizing k s with
  | zero =>
    refine ⟨s.owned, ?_⟩
    have : es.drop k = [] := List.drop_eq_nil_of_le (by omega)
    simp [St.decrefs, this]
  | succ m ih =>
    have hk' : k < es.length := by omega
    rw [List.range'_succ]
    have h1 : s.decref k = some { s with owned := Function.update s.owned k false, trace := s.trace ++ [.released es[k]] } := by
      unfold St.decref
      rw [hs k hk', List.getElem?_eq_getElem hk']
      simp [ho k (Nat.le_refl _) hk']
    unfold St.decrefs
    rw [h1]
    simp only [Option.bind_some]
    obtain ⟨ow, hw⟩ := ih { s with owned := Function.update s.owned k false, trace := s.trace ++ [.released es[k]] }
      (k + 1) (by omega) hs (by
        intro i hi hlt
        simp only [Function.update]
        rw [dif_neg (by omega)]
        exact ho i (by omega) hlt)
    refine ⟨ow, ?_⟩
    rw [hw]
    simp only [List.append_assoc, List.singleton_append]
    rw [← List.map_cons, ← List.drop_eq_getElem_cons hk']

private theorem slot_update (es : List E) (e : E) :
    Function.update (fun i => es[i]?) es.length (some e) = fun i => (es ++ [e])[i]? := by
  funext i
  simp only [Function.update]
  split
  · next h => subst h; simp
  · next h =>
    rcases Nat.lt_or_ge i es.length with hi | hi
    · simp [List.getElem?_append_left hi]
    · rw [List.getElem?_eq_none hi, List.getElem?_eq_none (by simp; omega)]

private theorem owned_update (es : List E) (e : E) :
    Function.update (fun i => decide (i < es.length)) es.length true = fun i => decide (i < (es ++ [e]).length) := by
  funext i
  simp only [Function.update]
  split
  · next h => subst h; simp
  · next h => simp; omega

/-- Running the rejecting calls `pre` first. -/
private theorem exec_rejects (oc : Str → Reply R E) (done pre : List (Str × E)) (post : List Str)
    (rest : List Stmt) (rv : Option R) (hpre : ∀ p ∈ pre, oc p.1 = .reject p.2) :
    exec oc (emitCalls done.length (pre.map (·.1) ++ post) ++ rest)
        (stAfter (done.map (·.2)) (rejEvents done) rv) =
      exec oc (emitCalls (done ++ pre).length post ++ rest)
        (stAfter ((done ++ pre).map (·.2)) (rejEvents (done ++ pre)) rv) := by
  induction pre generalizing done with
  | nil => simp
  | cons p ps ih =>
    obtain ⟨d, e⟩ := p
    have hd : oc d = .reject e := hpre (d, e) (by simp)
    have h := ih (done ++ [(d, e)]) (fun q hq => hpre q (by simp [hq]))
    simp only [List.append_assoc, List.singleton_append] at h
    rw [← h]
    simp only [List.map_cons, List.cons_append, emitCalls, exec, hd]
    have hlen : done.length = (done.map (·.2)).length := by simp
    have hst : ({ stAfter (done.map (·.2)) (rejEvents done) rv with
          slot := Function.update (stAfter (done.map (·.2)) (rejEvents done) rv).slot done.length (some e),
          owned := Function.update (stAfter (done.map (·.2)) (rejEvents done) rv).owned done.length true,
          trace := (stAfter (done.map (·.2)) (rejEvents done) rv).trace ++ [.called d, .took e] } : St R E) =
        stAfter ((done ++ [(d, e)]).map (·.2)) (rejEvents (done ++ [(d, e)])) rv := by
      rw [hlen]
      simp only [stAfter]
      rw [slot_update, owned_update _ e, rejEvents_append]
      simp
    rw [hst]
    simp [Function.update]

private def stErr (es : List E) (tr : List (Ev E)) (rv : Option R) (n k : Nat) : St R E :=
  { slot := fun i => es[i]?, owned := fun i => decide (k ≤ i ∧ i < es.length), retval := rv,
    list := (es.take k).map some ++ List.replicate (n - k) none,
    listRefs := 1, err := none, trace := tr ++ (es.take k).map .released }

private theorem exec_errors (oc : Str → Reply R E) (es : List E) (tr : List (Ev E)) (rv : Option R)
    (m k : Nat) (hk : k + m = es.length) (rest : List Stmt) :
    exec oc (((List.range' k m).flatMap fun i => [.setItem i i, .decref i]) ++ rest)
        (stErr es tr rv es.length k) =
      exec oc rest (stErr es tr rv es.length es.length) := by
  induction m generalizing k with
  | zero => simp at hk; subst hk; simp
  | succ m ih =>
    have hk' : k < es.length := by omega
    rw [List.range'_succ]
    simp only [List.flatMap_cons, List.cons_append, List.nil_append, exec]
    have h1 : (stErr es tr rv es.length k).slot k = some es[k] := by simp [stErr, hk']
    rw [h1]
    simp only
    have h2 : (stErr es tr rv es.length k).owned k = true ∧ k < (stErr es tr rv es.length k).list.length ∧ 0 < (stErr es tr rv es.length k).listRefs := by
      simp [stErr, hk']; omega
    rw [if_pos h2]
    have h3 : ({ stErr es tr rv es.length k with list := (stErr es tr rv es.length k).list.set k (some es[k]) } : St R E).decref k =
        some (stErr es tr rv es.length (k + 1)) := by
      unfold St.decref
      simp only [h1]
      rw [if_pos h2.1]
      simp only [stErr]
      congr 1
      congr 1
      · funext i
        simp only [Function.update]
        split
        · next h => subst h; exact (decide_eq_false (by omega)).symm
        · next h => exact decide_eq_decide.2 (by omega)
      · rw [List.set_append]
        have e1 : ((es.take k).map some).length = k := by simp; omega
        rw [e1, if_neg (by omega)]
        have e2 : es.length - k = (es.length - (k + 1)) + 1 := by omega
        rw [e2, List.replicate_succ]
        simp only [Nat.sub_self, List.set_cons_zero]
        rw [List.take_succ_eq_append_getElem hk', List.map_append, List.append_assoc]
        rfl
      · rw [List.take_succ_eq_append_getElem hk', List.map_append, List.append_assoc]
        rfl
    rw [h3]
    simp only [Option.bind_some]
    exact ih (k + 1) (by omega)

/-- C23 and C24, success: if the delegates `pre` reject with the errors `es` and the next one, `d`,
accepts with the result `r` (which may be `NULL` with an error set), the dispatcher returns `r`;
exactly `pre` and then `d` are called, in order, and not one of the later ones; each error reference
received is given up exactly once, and no null or dangling reference is used. -/
theorem C23_first_accepting_wins (oc : Str → Reply R E) (pre : List (Str × E)) (d : Str)
    (post : List Str) (r : R) (hpre : ∀ p ∈ pre, oc p.1 = .reject p.2) (hd : oc d = .accept r) :
    run oc (emitBody (pre.map (·.1) ++ d :: post)) =
      some (.returned r,
        rejEvents pre ++ [.called d] ++ (pre.map (·.2)).map .released) := by
  have h0 := exec_rejects oc [] pre (d :: post)
    (.newList (pre.map (·.1) ++ d :: post).length :: emitErrors (pre.map (·.1) ++ d :: post).length ++
      [.setTypeError, .decrefList, .errorReturn]) none hpre
  unfold run emitBody
  have hinit : ({ slot := fun _ => none, owned := fun _ => false, retval := none, list := [], listRefs := 0, err := none, trace := [] } : St R E) =
      stAfter (([] : List (Str × E)).map (·.2)) (rejEvents []) none := by
    simp [stAfter, rejEvents]
  rw [hinit]
  simp only [List.append_assoc, List.cons_append, List.length_nil, List.nil_append] at h0 ⊢
  rw [h0]
  simp only [emitCalls, List.cons_append, exec, hd]
  have hslot : (stAfter (R := R) (pre.map (·.2)) (rejEvents pre) none).slot pre.length = none := by
    simp [stAfter]
  rw [hslot]
  simp only
  obtain ⟨ow, hw⟩ := decrefs_range
    ({ stAfter (R := R) (pre.map (·.2)) (rejEvents pre) none with
        retval := some r, trace := rejEvents pre ++ [.called d] })
    (pre.map (·.2)) pre.length 0 (by simp) (by intro i _; rfl) (by intro i _ hi; simp [stAfter] at hi ⊢; exact hi)
  rw [List.range_eq_range']
  simp only [stAfter] at hw ⊢
  rw [hw]
  simp

/-- C23 and C24, failure: if all delegates reject, each is called once in declaration order, the
dispatcher returns its error value with `TypeError` set to the list of all error strings in that
order, each error reference received is given up exactly once, and one reference to the list
remains, the one the error indicator holds. -/
theorem C23_all_reject (oc : Str → Reply R E) (ds : List (Str × E))
    (h : ∀ p ∈ ds, oc p.1 = .reject p.2) :
    run oc (emitBody (ds.map (·.1))) =
      some (.typeError (ds.map fun p => some p.2) 1,
        rejEvents ds ++ (ds.map (·.2)).map .released) := by
  have h0 := exec_rejects oc [] ds [] (.newList (ds.map (·.1)).length ::
      emitErrors (ds.map (·.1)).length ++ [.setTypeError, .decrefList, .errorReturn]) (none : Option R) h
  unfold run emitBody
  have hinit : ({ slot := fun _ => none, owned := fun _ => false, retval := none, list := [], listRefs := 0, err := none, trace := [] } : St R E) =
      stAfter (([] : List (Str × E)).map (·.2)) (rejEvents []) none := by
    simp [stAfter, rejEvents]
  rw [hinit]
  simp only [List.append_nil, List.length_nil, List.nil_append] at h0 ⊢
  simp only [List.append_assoc, List.cons_append] at h0 ⊢
  rw [h0]
  simp only [emitCalls, List.nil_append, exec, List.length_map]
  have hst : ({ stAfter (R := R) (ds.map (·.2)) (rejEvents ds) none with
      list := List.replicate ds.length none, listRefs := 1 } : St R E) =
      stErr (ds.map (·.2)) (rejEvents ds) none (ds.map (·.2)).length 0 := by
    simp [stAfter, stErr]
  refine Eq.trans (congrArg (exec oc _) hst) ?_
  have h1 := exec_errors oc (ds.map (·.2)) (rejEvents ds) none ds.length 0 (by simp)
    [.setTypeError, .decrefList, .errorReturn]
  unfold emitErrors
  rw [List.range_eq_range', h1]
  simp [exec, stErr, List.map_map]
  constructor
  · rw [List.take_of_length_le (by simp)]; rfl
  · rw [List.take_of_length_le (by simp)]

/-- C24, as a count: in every run of a dispatcher the number of times a reference to an error is
received equals the number of times it is given up. -/
theorem C24_released_once [DecidableEq E] (oc : Str → Reply R E) (ds : List Str) :
    ∃ fin tr, run oc (emitBody ds) = some (fin, tr) ∧
      ∀ e, tr.count (.took e) = tr.count (.released e) := by
  have hc1 : ∀ (l : List (Str × E)) (e : E), (rejEvents l).count (.took e) = (l.map (·.2)).count e := by
    intro l e
    induction l with
    | nil => rfl
    | cons p r ih =>
      obtain ⟨x, y⟩ := p
      simp [rejEvents, List.count_cons, ih]
  have hc2 : ∀ (l : List (Str × E)) (e : E), (rejEvents l).count (.released e) = 0 := by
    intro l e
    induction l with
    | nil => rfl
    | cons p r ih => obtain ⟨x, y⟩ := p; simp [rejEvents, List.count_cons, ih]
  have hc3 : ∀ (l : List E) (e : E), (l.map Ev.released).count (.released e) = l.count e := by
    intro l e
    induction l with
    | nil => rfl
    | cons p r ih => simp [List.count_cons, ih]
  have hc4 : ∀ (l : List E) (e : E), (l.map Ev.released).count (.took e) = 0 := by
    intro l e
    induction l with
    | nil => rfl
    | cons p r ih => simp [List.count_cons, ih]
  have split : (∃ p : List (Str × E), ds = p.map (·.1) ∧ ∀ q ∈ p, oc q.1 = .reject q.2) ∨
      ∃ (p : List (Str × E)) (d : Str) (post : List Str) (r : R), ds = p.map (·.1) ++ d :: post ∧
        (∀ q ∈ p, oc q.1 = .reject q.2) ∧ oc d = .accept r := by
    induction ds with
    | nil => exact .inl ⟨[], rfl, by simp⟩
    | cons x xs ih =>
      cases hx : oc x with
      | accept r => exact .inr ⟨[], x, xs, r, rfl, by simp, hx⟩
      | reject e =>
        rcases ih with ⟨p, h1, h2⟩ | ⟨p, d, post, r, h1, h2, h3⟩
        · refine .inl ⟨(x, e) :: p, by simp [h1], ?_⟩
          intro q hq; rcases List.mem_cons.1 hq with rfl | hq; exact hx; exact h2 q hq
        · refine .inr ⟨(x, e) :: p, d, post, r, by simp [h1], ?_, h3⟩
          intro q hq; rcases List.mem_cons.1 hq with rfl | hq; exact hx; exact h2 q hq
  rcases split with ⟨p, rfl, h⟩ | ⟨p, d, post, r, rfl, h, hd⟩
  · refine ⟨_, _, C23_all_reject oc p h, ?_⟩
    intro e
    rw [List.count_append, List.count_append, hc1, hc2, hc3, hc4]; simp
  · refine ⟨_, _, C23_first_accepting_wins oc p d post r h hd, ?_⟩
    intro e
    rw [List.count_append, List.count_append, List.count_append, List.count_append, hc1, hc2, hc3, hc4]
    simp [List.count_cons]

example : run (R := Nat) (E := Nat) (fun d => if d = "c".toList then .accept 7 else .reject d.length)
    (emitBody ["a".toList, "bb".toList, "c".toList, "d".toList]) =
  some (.returned 7, [.called "a".toList, .took 1, .called "bb".toList, .took 2, .called "c".toList,
    .released 1, .released 2]) := by decide

/-! ## Which delegates exist -/

/-- The delegates of a dispatcher: the wrappers that generate, in declaration order, each named
after its position among all wrappers. -/
theorem C23_delegates (o : Ops W) (base : Str) (k : Nat) (ws : List W) (ds : List Str)
    (h : genDelegates o base k ws = .ok ds) :
    ds = ((ws.zipIdx k).filter fun p => match o.gen p.1 with
      | .ok _ => true
      | .error _ => false).map fun p => base ++ "__".toList ++ natStr p.2 := by
  induction ws generalizing k ds with
  | nil => cases h; rfl
  | cons w ws ih =>
    unfold genDelegates at h
    rw [List.zipIdx_cons, List.filter_cons]
    cases hg : o.gen w with
    | ok u =>
      cases u
      rw [hg] at h
      rw [(C28_value_iff _ _ _ _ _).2 rfl] at h
      simp only at h
      split at h
      · cases h
      · next ds' hds => cases h; simp [hg, ih _ _ hds, delegateName]
    | error e =>
      rw [hg] at h
      simp only [Bool.false_eq_true, if_false]
      split at h
      · exact ih _ _ h
      · cases h
      · next hh => rw [C28_value_iff] at hh; cases hh

/-- The names of the delegates of one overload set are distinct. -/
theorem C23_delegate_names_distinct (o : Ops W) (base : Str) (k : Nat) (ws : List W) (ds : List Str)
    (h : genDelegates o base k ws = .ok ds) : ds.Nodup := by
  rw [C23_delegates o base k ws ds h]
  have h1 : ((ws.zipIdx k).map fun p => base ++ "__".toList ++ natStr p.2).Nodup := by
    have e : ((ws.zipIdx k).map fun p => base ++ "__".toList ++ natStr p.2) =
        (List.range' k ws.length).map fun n => base ++ "__".toList ++ natStr n := by
      rw [← List.zipIdx_map_snd k ws, List.map_map]; rfl
    rw [e]
    exact (List.nodup_range').map (fun a b hab => natStr_injective (List.append_cancel_left hab))
  exact h1.sublist (List.filter_sublist.map _)

/-- C23: what an overload set is generated as. -/
theorem C23_generate (o : Ops W) (base pystruct : Str) (ws : List W) (args ds : List Str)
    (body : List Stmt) (h : generate o base pystruct ws = .ok (.dispatcher args ds body)) :
    ∃ kept, normalize o ws = .ok kept ∧ ds ≠ [] ∧ body = emitBody ds ∧
      genDelegates o base 0 kept = .ok ds ∧
      ∃ w f, kept.head? = some w ∧ o.flags w = .ok f ∧ args = wrapperArgs pystruct f := by
  have many : ∀ w ws, generateMany o base pystruct w ws = .ok (.dispatcher args ds body) →
      ds ≠ [] ∧ body = emitBody ds ∧ genDelegates o base 0 ws = .ok ds ∧
        ∃ f, o.flags w = .ok f ∧ args = wrapperArgs pystruct f := by
    intro w ws h
    unfold generateMany at h
    split at h
    · cases h
    · next f hf =>
      split at h
      · cases h
      · cases h
      · next ds' hne hds =>
        cases h
        exact ⟨hne, rfl, hds, f, hf, rfl⟩
  unfold generate at h
  split at h
  · cases h
  · cases h
  · next w hn =>
    split at h
    · obtain ⟨h1, h2, h3, f, h4, h5⟩ := many _ _ h
      exact ⟨[w], hn, h1, h2, h3, w, f, rfl, h4, h5⟩
    · split at h <;> cases h
  · next w ws' _ hn =>
    obtain ⟨h1, h2, h3, f, h4, h5⟩ := many _ _ h
    exact ⟨_, hn, h1, h2, h3, w, f, rfl, h4, h5⟩


/-- C23: parameters of the dispatcher: always the object, then the tuple of arguments and the
dictionary of keyword arguments, each exactly when the method flags say that Python passes it. -/
theorem C23_dispatcher_arguments (o : Ops W) (base pystruct : Str) (ws : List W) (args ds : List Str)
    (body : List Stmt) (h : generate o base pystruct ws = .ok (.dispatcher args ds body)) :
    ∃ kept w f, normalize o ws = .ok kept ∧ kept.head? = some w ∧ o.flags w = .ok f ∧
      args.head? = some (pystruct ++ " *self".toList) ∧ args.tail.Sublist ["PyObject *args".toList, "PyObject *kwargs".toList] ∧
      ("PyObject *args".toList ∈ args.tail ↔ "METH_VARARGS".toList ∈ f) ∧
      ("PyObject *kwargs".toList ∈ args.tail ↔ "METH_KEYWORDS".toList ∈ f) := by
  obtain ⟨kept, h1, _, _, _, w, f, h2, h3, h4⟩ := C23_generate o base pystruct ws args ds body h
  refine ⟨kept, w, f, h1, h2, h3, ?_⟩
  subst h4
  have hne : ("PyObject *args".toList : Str) ≠ "PyObject *kwargs".toList := by decide
  unfold wrapperArgs
  by_cases ha : "METH_VARARGS".toList ∈ f <;> by_cases hk : "METH_KEYWORDS".toList ∈ f <;>
    simp only [List.contains_iff_mem, ha, hk, if_true, if_false, List.cons_append, List.nil_append, List.append_nil,
      List.head?_cons, List.tail_cons] <;> exact ⟨trivial, by decide, by decide, by decide⟩

/-! ## Docstrings of overload sets -/

/-- The docstring shown for an overload set: none if no overload has one, the common one if all
that have one agree, otherwise an error. -/
theorem C48_docstring (docs : List (Option Str)) (r : Option Str) :
    tableDocstring docs = .ok r ↔
      ((∀ d, some d ∈ docs → r = some d) ∧ (∀ d, r = some d → some d ∈ docs)) := by
  have hm : ∀ d, d ∈ (docs.filterMap id).dedup ↔ some d ∈ docs := by
    intro d; simp
  have hnd := List.nodup_dedup (docs.filterMap id)
  unfold tableDocstring
  generalize (docs.filterMap id).dedup = l at hm hnd
  match l with
  | [] =>
    simp only [List.not_mem_nil, false_iff] at hm
    simp [hm]
    constructor
    · rintro rfl; simp
    · intro h; cases r with
      | none => rfl
      | some d => exact absurd rfl (h d)
  | [a] =>
    simp only [List.mem_singleton] at hm
    simp only [Except.ok.injEq, ← hm]
    constructor
    · rintro rfl; simp
    · rintro ⟨h1, _⟩; exact (h1 a rfl).symm
  | a :: b :: t =>
    simp only [reduceCtorEq, false_iff, not_and]
    intro h
    have h1 := h a ((hm a).1 (by simp))
    have h2 := h b ((hm b).1 (by simp))
    rw [h1] at h2
    simp at h2 hnd
    exact absurd h2 hnd.1.1

/-- When the docstrings conflict the code generation is refused. -/
theorem C48_docstring_conflict (docs : List (Option Str)) (a b : Str) (ha : some a ∈ docs)
    (hb : some b ∈ docs) (hab : a ≠ b) : tableDocstring docs = .error .codeGenerationError := by
  cases h : tableDocstring docs with
  | ok r =>
    have := ((C48_docstring docs r).1 h).1
    have h1 := this a ha
    have h2 := this b hb
    rw [h1] at h2; cases h2; exact absurd rfl hab
  | error e =>
    unfold tableDocstring at h
    split at h <;> cases h
    rfl

example : tableDocstring [none, some "x".toList, none, some "x".toList] = .ok (some "x".toList) := by decide

end Verif.Overload
