import Verif.Parser.ScriptReplay
import Mathlib.Data.List.Nodup

/-!
# C84: an annotation takes effect or is reported

What annotations mean is given by the relations `ReturnAnn`, `ParamAnn`, `MethodAnn`, `FunctionAnn` and `ClassAnn`: the
keyword argument and the value an annotation stands for.
-/
namespace Verif.Scan
open Verif Verif.Pygen
open Verif.Annot (ODict)

/-! ## What annotations mean -/

/-- Annotations whose value is true or false. -/
inductive BoolValue : Option Str → PyVal → Prop where
  | mk {v : Option Str} {b : Bool} : Annot.parseBoolean (aval v) = .ok b → BoolValue v (.bool b)

/-- Annotations whose value is a number. -/
inductive IntValue (num : Str → Option Int) : Option Str → PyVal → Prop where
  | mk {s : Str} {i : Int} : num s = some i → IntValue num (some s) (.int i)

/-- The annotations of a return value. -/
inductive ReturnAnn (num : Str → Option Int) : Str → Option Str → PyVal → Prop where
  | bool {k : Str} {v : Option Str} {w : PyVal} : k ∈ ["caller_owns_return".toList, "free_after_copy".toList,
      "reference_existing_object".toList, "return_internal_reference".toList] → BoolValue v w → ReturnAnn num k v w
  | custodian {v : Option Str} {w : PyVal} : IntValue num v w → ReturnAnn num "custodian".toList v w

def returnKnown : List Str := ["caller_owns_return".toList, "free_after_copy".toList, "reference_existing_object".toList,
  "return_internal_reference".toList, "custodian".toList]

/-- The annotations of a parameter. -/
inductive ParamAnn (num : Str → Option Int) : Str → Option Str → PyVal → Prop where
  | bool {k : Str} {v : Option Str} {w : PyVal} : k ∈ ["transfer_ownership".toList, "null_ok".toList] → BoolValue v w →
      ParamAnn num k v w
  | int {k : Str} {v : Option Str} {w : PyVal} : k ∈ ["custodian".toList, "array_length".toList] → IntValue num v w →
      ParamAnn num k v w
  | default {v : Option Str} : ParamAnn num "default_value".toList v (strArg v)
  | dirIn {s : Str} : Annot.lower s = "in".toList → ParamAnn num "direction".toList (some s) (.int 1)
  | dirOut {s : Str} : Annot.lower s = "out".toList → ParamAnn num "direction".toList (some s) (.int 2)
  | dirInout {s : Str} : Annot.lower s = "inout".toList → ParamAnn num "direction".toList (some s) (.int 3)

def paramKnown : List Str := ["transfer_ownership".toList, "direction".toList, "custodian".toList, "array_length".toList,
  "default_value".toList, "null_ok".toList]

/-! ## Loops -/

/-- One annotation after another: the assignments and warnings of a loop are those of its steps. -/
theorem loop_warn {step : Str → Option Str → PyRes Effect} {anns : Anns} {kw : Kw} {ws : List Warn} {r : Kw × List Warn}
    (h : loop step anns kw ws = .ok r) (w : Warn) :
    w ∈ r.2 ↔ w ∈ ws ∨ ∃ p ∈ anns, ∃ e, step p.1 p.2 = .ok e ∧ w ∈ e.2 := by
  induction anns generalizing kw ws with
  | nil => cases h; simp
  | cons a l ih =>
    obtain ⟨n, v⟩ := a
    rw [loop] at h
    obtain ⟨e, he, h⟩ := bind_ok h
    rw [ih h, List.mem_append]
    constructor
    · rintro ((h | h) | ⟨p, hp, e', h⟩)
      · exact Or.inl h
      · exact Or.inr ⟨_, List.mem_cons_self, e, he, h⟩
      · exact Or.inr ⟨p, List.mem_cons_of_mem _ hp, e', h⟩
    · rintro (h | ⟨p, hp, e', h1, h2⟩)
      · exact Or.inl (Or.inl h)
      · rcases List.mem_cons.mp hp with rfl | hp
        · rw [he] at h1
          cases h1
          exact Or.inl (Or.inr h2)
        · exact Or.inr ⟨p, hp, e', h1, h2⟩

/-- Every step of a loop that ends has ended. -/
theorem loop_step {step : Str → Option Str → PyRes Effect} {anns : Anns} {kw : Kw} {ws : List Warn} {r : Kw × List Warn}
    (h : loop step anns kw ws = .ok r) : ∀ p ∈ anns, ∃ e, step p.1 p.2 = .ok e := by
  induction anns generalizing kw ws with
  | nil => intro p hp; cases hp
  | cons a l ih =>
    obtain ⟨n, v⟩ := a
    rw [loop] at h
    obtain ⟨e, he, h⟩ := bind_ok h
    intro p hp
    rcases List.mem_cons.mp hp with rfl | hp
    · exact ⟨e, he⟩
    · exact ih h p hp

/-- A loop that fails fails in a step. -/
theorem loop_error {step : Str → Option Str → PyRes Effect} {anns : Anns} {kw : Kw} {ws : List Warn} {x : PyErr}
    (h : loop step anns kw ws = .error x) : ∃ p ∈ anns, step p.1 p.2 = .error x := by
  induction anns generalizing kw ws with
  | nil => cases h
  | cons a l ih =>
    obtain ⟨n, v⟩ := a
    rw [loop] at h
    cases he : step n v with
    | error y =>
      rw [he] at h
      cases h
      exact ⟨_, List.mem_cons_self, he⟩
    | ok e =>
      rw [he] at h
      obtain ⟨p, hp, h⟩ := ih h
      exact ⟨p, List.mem_cons_of_mem _ hp, h⟩

/-- A step that assigns at most one keyword argument, named after the annotation by `key`. -/
def Keyed (step : Str → Option Str → PyRes Effect) (key : Str → Str) : Prop :=
  ∀ n v e, step n v = .ok e → e.1 = [] ∨ ∃ w, e.1 = [(key n, w)]

/-- The keyword arguments a loop makes, if different annotations are for different keyword arguments. -/
theorem loop_get {step : Str → Option Str → PyRes Effect} {key : Str → Str} (hk : Keyed step key) {anns : Anns} {kw : Kw}
    {ws : List Warn} {r : Kw × List Warn} (h : loop step anns kw ws = .ok r)
    (hn : ∀ p ∈ anns, ∀ q ∈ anns, ∀ e e', step p.1 p.2 = .ok e → step q.1 q.2 = .ok e' → e.1 ≠ [] → e'.1 ≠ [] →
      key p.1 = key q.1 → p = q) (k : Str) (w : PyVal) :
    ODict.get r.1 k = some w ↔ (∃ p ∈ anns, ∃ e, step p.1 p.2 = .ok e ∧ (k, w) ∈ e.1) ∨
      (ODict.get kw k = some w ∧ ∀ p ∈ anns, ∀ e, step p.1 p.2 = .ok e → e.1 ≠ [] → key p.1 ≠ k) := by
  induction anns generalizing kw ws with
  | nil => cases h; simp
  | cons a l ih =>
    obtain ⟨n, v⟩ := a
    rw [loop] at h
    obtain ⟨e, he, h⟩ := bind_ok h
    rw [ih h (fun p hp q hq => hn p (List.mem_cons_of_mem _ hp) q (List.mem_cons_of_mem _ hq))]
    have he' : step (n, v).1 (n, v).2 = .ok e := he
    have at0 : ∀ w', ODict.get (setAll kw e.1) k = some w' ↔
        (k, w') ∈ e.1 ∨ (ODict.get kw k = some w' ∧ (e.1 ≠ [] → key n ≠ k)) := by
      intro w'
      rcases hk n v e he with h0 | ⟨w0, h0⟩
      · rw [h0]; simp [setAll]
      · rw [h0]
        show ODict.get (ODict.set kw (key n) w0) k = some w' ↔ _
        rw [Annot.get_set]
        by_cases hkk : key n = k
        · rw [if_pos hkk]
          simp [hkk, eq_comm]
        · rw [if_neg hkk]
          simp [hkk, fun h => hkk (Eq.symm h)]
          intro hh; exact absurd hh.symm hkk
    constructor
    · rintro (⟨p, hp, h⟩ | ⟨h1, h2⟩)
      · exact Or.inl ⟨p, List.mem_cons_of_mem _ hp, h⟩
      · rcases (at0 w).mp h1 with h1 | ⟨h1, h3⟩
        · exact Or.inl ⟨_, List.mem_cons_self, e, he, h1⟩
        · refine Or.inr ⟨h1, ?_⟩
          intro p hp e' hpe hne
          rcases List.mem_cons.mp hp with rfl | hp
          · rw [he'] at hpe
            cases hpe
            exact h3 hne
          · exact h2 p hp e' hpe hne
    · rintro (⟨p, hp, e', hpe, hw⟩ | ⟨h1, h2⟩)
      · rcases List.mem_cons.mp hp with rfl | hp
        · rw [he'] at hpe
          cases hpe
          by_cases hl : ∃ q ∈ l, ∃ e'', step q.1 q.2 = .ok e'' ∧ e''.1 ≠ [] ∧ key q.1 = k
          · obtain ⟨q, hq, e'', hqe, hne, hqk⟩ := hl
            have hpk : key n = k := by
              rcases hk n v e he with h0 | ⟨w0, h0⟩
              · rw [h0] at hw; cases hw
              · rw [h0] at hw
                cases List.mem_singleton.mp hw
                rfl
            have := hn (n, v) List.mem_cons_self q (List.mem_cons_of_mem _ hq) e e'' he hqe
              (fun h => by rw [h] at hw; cases hw) hne (hpk.trans hqk.symm)
            subst this
            exact Or.inl ⟨_, hq, e, he, hw⟩
          · refine Or.inr ⟨(at0 w).mpr (Or.inl hw), ?_⟩
            intro q hq e'' hqe hne hqk
            exact hl ⟨q, hq, e'', hqe, hne, hqk⟩
        · exact Or.inl ⟨p, hp, e', hpe, hw⟩
      · refine Or.inr ⟨(at0 w).mpr (Or.inr ⟨h1, fun hne => h2 _ List.mem_cons_self e he hne⟩), ?_⟩
        exact fun p hp => h2 p (List.mem_cons_of_mem _ hp)

/-- With the name as the key, and each annotation once. -/
theorem loop_get_name {step : Str → Option Str → PyRes Effect} (hk : Keyed step id) {anns : Anns} {r : Kw × List Warn}
    (h : loop step anns [] [] = .ok r) (hn : (anns.map (·.1)).Nodup) (k : Str) (w : PyVal) :
    ODict.get r.1 k = some w ↔ ∃ v, (k, v) ∈ anns ∧ ∃ e, step k v = .ok e ∧ (k, w) ∈ e.1 := by
  have inj : ∀ p ∈ anns, ∀ q ∈ anns, p.1 = q.1 → p = q := by
    intro p hp q hq e
    exact List.inj_on_of_nodup_map hn hp hq e
  rw [loop_get hk h (fun p hp q hq _ _ _ _ _ _ e => inj p hp q hq e)]
  constructor
  · rintro (⟨p, hp, e, he, hw⟩ | ⟨h, _⟩)
    · have : p.1 = k := by
        rcases hk p.1 p.2 e he with h0 | ⟨w0, h0⟩
        · rw [h0] at hw; cases hw
        · rw [h0] at hw
          exact (congrArg (·.1) (List.mem_singleton.mp hw)).symm
      subst this
      exact ⟨p.2, hp, e, he, hw⟩
    · cases h
  · rintro ⟨v, hv, e, he, hw⟩
    exact Or.inl ⟨(k, v), hv, e, he, hw⟩

/-! ## Steps and their meaning -/

theorem boolArg_iff {v : Option Str} {w : PyVal} : boolArg v = .ok w ↔ BoolValue v w := by
  constructor
  · intro h
    obtain ⟨b, hb, rfl⟩ := map_ok h
    exact .mk hb
  · rintro ⟨hb⟩
    rw [boolArg, hb]; rfl

theorem intArg_iff {num : Str → Option Int} {v : Option Str} {w : PyVal} : intArg num v = .ok w ↔ IntValue num v w := by
  constructor
  · intro h
    unfold intArg at h
    split at h
    · cases h
    · split at h
      · rename_i hs; cases h; exact .mk hs
      · cases h
  · rintro ⟨hs⟩
    rw [intArg, hs]

theorem assign_iff {k : Str} {v : PyRes PyVal} {e : Effect} : assign k v = .ok e ↔ ∃ w, v = .ok w ∧ e = ([(k, w)], []) := by
  constructor
  · intro h
    obtain ⟨w, hw, rfl⟩ := map_ok h
    exact ⟨w, hw, rfl⟩
  · rintro ⟨w, hw, rfl⟩
    rw [assign, hw]; rfl

theorem assign_keyed {n : Str} {v : PyRes PyVal} {e : Effect} (h : assign n v = .ok e) : e.1 = [] ∨ ∃ w, e.1 = [(n, w)] := by
  obtain ⟨w, _, rfl⟩ := assign_iff.mp h
  exact Or.inr ⟨w, rfl⟩

theorem returnStep_keyed (num : Str → Option Int) : Keyed (returnStep num) id := by
  intro n v e h
  unfold returnStep at h
  split at h
  · rename_i hn
    obtain ⟨w, _, rfl⟩ := map_ok h
    exact Or.inr ⟨w, by rw [hn]; rfl⟩
  iterate 4
    split at h
    · exact assign_keyed h
  · cases h; exact Or.inl rfl

/-- What one annotation of a return value does. -/
theorem returnStep_iff {num : Str → Option Int} {n : Str} {v : Option Str} {e : Effect} (h : returnStep num n v = .ok e)
    (w : PyVal) : (n, w) ∈ e.1 ↔ ReturnAnn num n v w := by
  have hb : ∀ {k : Str}, k ∈ ["caller_owns_return".toList, "free_after_copy".toList, "reference_existing_object".toList,
      "return_internal_reference".toList] → (ReturnAnn num k v w ↔ BoolValue v w) := by
    intro k hk
    constructor
    · intro h
      cases h with
      | bool _ h => exact h
      | custodian => exact absurd hk (by decide)
    · exact .bool hk
  unfold returnStep at h
  split at h
  · rename_i hn
    subst hn
    obtain ⟨w', hw, rfl⟩ := map_ok h
    rw [hb (by decide), ← boolArg_iff, hw]
    simp [eq_comm]
  split at h
  · rename_i hn
    subst hn
    obtain ⟨w', hw, rfl⟩ := assign_iff.mp h
    rw [hb (by decide), ← boolArg_iff, hw]
    simp [eq_comm]
  split at h
  · rename_i hn
    subst hn
    obtain ⟨w', hw, rfl⟩ := assign_iff.mp h
    rw [hb (by decide), ← boolArg_iff, hw]
    simp [eq_comm]
  split at h
  · rename_i hn
    subst hn
    obtain ⟨w', hw, rfl⟩ := assign_iff.mp h
    rw [hb (by decide), ← boolArg_iff, hw]
    simp [eq_comm]
  split at h
  · rename_i hn
    subst hn
    obtain ⟨w', hw, rfl⟩ := assign_iff.mp h
    have : ReturnAnn num "custodian".toList v w ↔ IntValue num v w := by
      constructor
      · generalize hx : "custodian".toList = x
        intro h
        cases h with
        | bool hk _ => subst hx; exact absurd hk (by decide)
        | custodian h => exact h
      · exact .custodian
    rw [this, ← intArg_iff, hw]
    simp [eq_comm]
  · rename_i h1 h2 h3 h4 h5
    cases h
    simp only [List.not_mem_nil, false_iff]
    intro h
    cases h with
    | bool hk _ =>
      simp only [List.mem_cons, List.not_mem_nil, or_false] at hk
      rcases hk with h | h | h | h
      · exact h1 h
      · exact h2 h
      · exact h3 h
      · exact h4 h
    | custodian => exact h5 rfl

theorem returnStep_warn {num : Str → Option Int} {n : Str} {v : Option Str} {e : Effect} (h : returnStep num n v = .ok e)
    (w : Warn) : w ∈ e.2 ↔ w = .annotation n ∧ (n ∉ returnKnown ∨ n = "caller_owns_return".toList) := by
  unfold returnStep at h
  split at h
  · rename_i hn
    obtain ⟨w', hw, rfl⟩ := map_ok h
    simp [hn]
  split at h
  · rename_i hn
    obtain ⟨w', hw, rfl⟩ := assign_iff.mp h
    subst hn
    simp only [List.not_mem_nil, false_iff]
    rintro ⟨_, h⟩
    revert h; decide
  split at h
  · rename_i hn
    obtain ⟨w', hw, rfl⟩ := assign_iff.mp h
    subst hn
    simp only [List.not_mem_nil, false_iff]
    rintro ⟨_, h⟩
    revert h; decide
  split at h
  · rename_i hn
    obtain ⟨w', hw, rfl⟩ := assign_iff.mp h
    subst hn
    simp only [List.not_mem_nil, false_iff]
    rintro ⟨_, h⟩
    revert h; decide
  split at h
  · rename_i hn
    obtain ⟨w', hw, rfl⟩ := assign_iff.mp h
    subst hn
    simp only [List.not_mem_nil, false_iff]
    rintro ⟨_, h⟩
    revert h; decide
  · rename_i h1 h2 h3 h4 h5
    cases h
    have : n ∉ returnKnown := by
      unfold returnKnown
      simp only [List.mem_cons, List.not_mem_nil, or_false, not_or]
      exact ⟨h1, h2, h3, h4, h5⟩
    simp [this]

/-- **C84** for return values: the type gets exactly the keyword arguments its annotations stand for; those that mean
nothing are reported by name.  What is missing: `caller_owns_return`, which takes effect, is reported as well. -/
theorem C84_return_partial (num : Str → Option Int) (type : Str) (anns : Anns) (hn : (anns.map (·.1)).Nodup)
    {r : Spec × List Warn} (h : lookupReturn num type anns = .ok r) :
    r.1.args = [type] ∧
    (∀ k w, ODict.get r.1.kw k = some w ↔ ∃ v, (k, v) ∈ anns ∧ ReturnAnn num k v w) ∧
    (∀ w, w ∈ r.2 ↔ ∃ n v, (n, v) ∈ anns ∧ w = .annotation n ∧ (n ∉ returnKnown ∨ n = "caller_owns_return".toList)) := by
  obtain ⟨q, hq, rfl⟩ := map_ok h
  refine ⟨rfl, ?_, ?_⟩
  · intro k w
    show ODict.get q.1 k = some w ↔ _
    rw [loop_get_name (returnStep_keyed num) hq hn]
    constructor
    · rintro ⟨v, hv, e, he, hw⟩
      exact ⟨v, hv, (returnStep_iff he w).mp hw⟩
    · rintro ⟨v, hv, ha⟩
      obtain ⟨e, he⟩ := loop_step hq _ hv
      exact ⟨v, hv, e, he, (returnStep_iff he w).mpr ha⟩
  · intro w
    show w ∈ q.2 ↔ _
    rw [loop_warn hq]
    constructor
    · rintro (h | ⟨p, hp, e, he, hw⟩)
      · cases h
      · exact ⟨p.1, p.2, hp, (returnStep_warn he w).mp hw⟩
    · rintro ⟨n, v, hv, hw⟩
      obtain ⟨e, he⟩ := loop_step hq _ hv
      exact Or.inr ⟨_, hv, e, he, (returnStep_warn he w).mpr hw⟩

theorem C84_caller_owns_return_counterexample :
    ∃ r, lookupReturn (fun _ => none) "A *".toList [("caller_owns_return".toList, some "true".toList)] = .ok r ∧
      ODict.get r.1.kw "caller_owns_return".toList = some (.bool true) ∧ r.2 = [.annotation "caller_owns_return".toList] :=
  ⟨_, rfl, by decide +kernel⟩

/-! ## Parameters -/

theorem paramStep_keyed (num : Str → Option Int) : Keyed (paramStep num) id := by
  intro n v e h
  unfold paramStep at h
  split at h
  · exact assign_keyed h
  split at h
  · rename_i hn
    subst hn
    unfold directionStep at h
    split at h
    · cases h
    iterate 3
      split at h
      · cases h; exact Or.inr ⟨_, rfl⟩
    · cases h; exact Or.inl rfl
  split at h
  · exact assign_keyed h
  split at h
  · exact assign_keyed h
  split at h
  · cases h; exact Or.inr ⟨_, rfl⟩
  split at h
  · exact assign_keyed h
  · cases h; exact Or.inl rfl

theorem paramAnn_bool {num : Str → Option Int} {k : Str} {v : Option Str} {w : PyVal}
    (hk : k ∈ ["transfer_ownership".toList, "null_ok".toList]) : ParamAnn num k v w ↔ BoolValue v w := by
  constructor
  · intro h
    cases h with
    | bool _ h => exact h
    | int hi _ =>
      exfalso
      simp only [List.mem_cons, List.not_mem_nil, or_false] at hk hi
      rcases hk with rfl | rfl <;> rcases hi with h | h <;> (revert h; decide)
    | default => exact absurd hk (by decide)
    | dirIn => exact absurd hk (by decide)
    | dirOut => exact absurd hk (by decide)
    | dirInout => exact absurd hk (by decide)
  · exact .bool hk

theorem paramAnn_int {num : Str → Option Int} {k : Str} {v : Option Str} {w : PyVal}
    (hk : k ∈ ["custodian".toList, "array_length".toList]) : ParamAnn num k v w ↔ IntValue num v w := by
  constructor
  · intro h
    cases h with
    | int _ h => exact h
    | bool hi _ =>
      exfalso
      simp only [List.mem_cons, List.not_mem_nil, or_false] at hk hi
      rcases hk with rfl | rfl <;> rcases hi with h | h <;> (revert h; decide)
    | default => exact absurd hk (by decide)
    | dirIn => exact absurd hk (by decide)
    | dirOut => exact absurd hk (by decide)
    | dirInout => exact absurd hk (by decide)
  · exact .int hk

theorem paramAnn_default {num : Str → Option Int} {k : Str} (hk : k = "default_value".toList) {v : Option Str} {w : PyVal} :
    ParamAnn num k v w ↔ w = strArg v := by
  constructor
  · intro h
    cases h with
    | int hi _ => subst hk; exact absurd hi (by decide)
    | bool hi _ => subst hk; exact absurd hi (by decide)
    | default => rfl
    | dirIn => exact absurd hk (by decide)
    | dirOut => exact absurd hk (by decide)
    | dirInout => exact absurd hk (by decide)
  · rintro rfl; subst hk; exact .default

theorem paramAnn_direction {num : Str → Option Int} {k : Str} (hk : k = "direction".toList) {v : Option Str} {w : PyVal} :
    ParamAnn num k v w ↔ ∃ s, v = some s ∧ ((Annot.lower s = "in".toList ∧ w = .int 1) ∨
      (Annot.lower s = "out".toList ∧ w = .int 2) ∨ (Annot.lower s = "inout".toList ∧ w = .int 3)) := by
  constructor
  · intro h
    cases h with
    | int hi _ => subst hk; exact absurd hi (by decide)
    | bool hi _ => subst hk; exact absurd hi (by decide)
    | default => exact absurd hk (by decide)
    | dirIn h => exact ⟨_, rfl, Or.inl ⟨h, rfl⟩⟩
    | dirOut h => exact ⟨_, rfl, Or.inr (Or.inl ⟨h, rfl⟩)⟩
    | dirInout h => exact ⟨_, rfl, Or.inr (Or.inr ⟨h, rfl⟩)⟩
  · rintro ⟨s, rfl, h⟩
    subst hk
    rcases h with ⟨h, rfl⟩ | ⟨h, rfl⟩ | ⟨h, rfl⟩
    · exact .dirIn h
    · exact .dirOut h
    · exact .dirInout h

/-- A direction the parser does not know. -/
def BadDirection (s : Str) : Prop := Annot.lower s ≠ "in".toList ∧ Annot.lower s ≠ "out".toList ∧ Annot.lower s ≠ "inout".toList

/-- What one annotation of a parameter does. -/
theorem paramStep_spec {num : Str → Option Int} {n : Str} {v : Option Str} {e : Effect} (h : paramStep num n v = .ok e) :
    (∀ w, (n, w) ∈ e.1 ↔ ParamAnn num n v w) ∧
    (∀ w, w ∈ e.2 ↔ (w = .annotation n ∧ n ∉ paramKnown) ∨
      ∃ s, w = .direction s ∧ n = "direction".toList ∧ v = some s ∧ BadDirection s) := by
  have quiet : ∀ {n : Str}, n ∈ paramKnown → n ≠ "direction".toList → ∀ w : Warn, w ∈ ([] : List Warn) ↔
      (w = .annotation n ∧ n ∉ paramKnown) ∨ ∃ s, w = .direction s ∧ n = "direction".toList ∧ v = some s ∧ BadDirection s := by
    intro n h1 h2 w
    simp only [List.not_mem_nil, false_iff, not_or]
    exact ⟨fun h => h.2 h1, fun ⟨s, _, h, _⟩ => h2 h⟩
  unfold paramStep at h
  split at h
  · rename_i hn
    subst hn
    obtain ⟨w', hw, rfl⟩ := assign_iff.mp h
    refine ⟨fun w => ?_, quiet (by decide) (by decide)⟩
    rw [paramAnn_bool (by decide), ← boolArg_iff, hw]
    simp [eq_comm]
  split at h
  · rename_i hn
    refine ⟨fun w => ?_, fun w => ?_⟩
    · rw [paramAnn_direction hn]
      unfold directionStep at h
      split at h
      · cases h
      rename_i s
      split at h
      · rename_i hs
        cases h
        rw [hn]
        constructor
        · intro h; cases List.mem_singleton.mp h; exact ⟨s, rfl, Or.inl ⟨hs, rfl⟩⟩
        · rintro ⟨s', h, h'⟩
          cases h
          rcases h' with ⟨_, rfl⟩ | ⟨h, _⟩ | ⟨h, _⟩
          · exact List.mem_singleton.mpr rfl
          · rw [hs] at h; exact absurd h (by decide)
          · rw [hs] at h; exact absurd h (by decide)
      split at h
      · rename_i hs
        cases h
        rw [hn]
        constructor
        · intro h; cases List.mem_singleton.mp h; exact ⟨s, rfl, Or.inr (Or.inl ⟨hs, rfl⟩)⟩
        · rintro ⟨s', h, h'⟩
          cases h
          rcases h' with ⟨h, _⟩ | ⟨_, rfl⟩ | ⟨h, _⟩
          · rw [hs] at h; exact absurd h (by decide)
          · exact List.mem_singleton.mpr rfl
          · rw [hs] at h; exact absurd h (by decide)
      split at h
      · rename_i hs
        cases h
        rw [hn]
        constructor
        · intro h; cases List.mem_singleton.mp h; exact ⟨s, rfl, Or.inr (Or.inr ⟨hs, rfl⟩)⟩
        · rintro ⟨s', h, h'⟩
          cases h
          rcases h' with ⟨h, _⟩ | ⟨h, _⟩ | ⟨_, rfl⟩
          · rw [hs] at h; exact absurd h (by decide)
          · rw [hs] at h; exact absurd h (by decide)
          · exact List.mem_singleton.mpr rfl
      · rename_i h1 h2 h3
        cases h
        constructor
        · intro h; cases h
        · rintro ⟨s', h, h'⟩
          cases h
          rcases h' with ⟨h, _⟩ | ⟨h, _⟩ | ⟨h, _⟩
          · exact absurd h h1
          · exact absurd h h2
          · exact absurd h h3
    · have hk : n ∈ paramKnown := by rw [hn]; decide
      have good : ∀ s, v = some s → (Annot.lower s = "in".toList ∨ Annot.lower s = "out".toList ∨ Annot.lower s = "inout".toList) →
          (w ∈ ([] : List Warn) ↔ (w = .annotation n ∧ n ∉ paramKnown) ∨
            ∃ s, w = .direction s ∧ n = "direction".toList ∧ v = some s ∧ BadDirection s) := by
        intro s hv hs
        simp only [List.not_mem_nil, false_iff, not_or]
        refine ⟨fun h => h.2 hk, ?_⟩
        rintro ⟨s', _, _, hv', hb⟩
        rw [hv] at hv'
        cases hv'
        rcases hs with h | h | h
        · exact hb.1 h
        · exact hb.2.1 h
        · exact hb.2.2 h
      unfold directionStep at h
      split at h
      · cases h
      rename_i s
      split at h
      · rename_i hs; cases h; exact good s rfl (Or.inl hs)
      split at h
      · rename_i hs; cases h; exact good s rfl (Or.inr (Or.inl hs))
      split at h
      · rename_i hs; cases h; exact good s rfl (Or.inr (Or.inr hs))
      · rename_i h1 h2 h3
        cases h
        constructor
        · intro h
          rw [List.mem_singleton.mp h]
          exact Or.inr ⟨s, rfl, hn, rfl, h1, h2, h3⟩
        · rintro (h | ⟨s', h, _, hv, _⟩)
          · exact absurd hk h.2
          · cases hv; rw [h]; exact List.mem_singleton.mpr rfl
  split at h
  · rename_i hn
    subst hn
    obtain ⟨w', hw, rfl⟩ := assign_iff.mp h
    refine ⟨fun w => ?_, quiet (by decide) (by decide)⟩
    rw [paramAnn_int (by decide), ← intArg_iff, hw]
    simp [eq_comm]
  split at h
  · rename_i hn
    subst hn
    obtain ⟨w', hw, rfl⟩ := assign_iff.mp h
    refine ⟨fun w => ?_, quiet (by decide) (by decide)⟩
    rw [paramAnn_int (by decide), ← intArg_iff, hw]
    simp [eq_comm]
  split at h
  · rename_i hn
    cases h
    refine ⟨fun w => ?_, quiet (by rw [hn]; decide) (by rw [hn]; decide)⟩
    rw [paramAnn_default hn]
    simp
  split at h
  · rename_i hn
    subst hn
    obtain ⟨w', hw, rfl⟩ := assign_iff.mp h
    refine ⟨fun w => ?_, quiet (by decide) (by decide)⟩
    rw [paramAnn_bool (by decide), ← boolArg_iff, hw]
    simp [eq_comm]
  · rename_i h1 h2 h3 h4 h5 h6
    cases h
    have hu : n ∉ paramKnown := by
      unfold paramKnown
      simp only [List.mem_cons, List.not_mem_nil, or_false, not_or]
      exact ⟨h1, h2, h3, h4, h5, h6⟩
    refine ⟨fun w => ?_, fun w => ?_⟩
    · simp only [List.not_mem_nil, false_iff]
      intro h
      apply hu
      cases h with
      | bool hk _ =>
        simp only [List.mem_cons, List.not_mem_nil, or_false] at hk
        rcases hk with rfl | rfl <;> decide
      | int hk _ =>
        simp only [List.mem_cons, List.not_mem_nil, or_false] at hk
        rcases hk with rfl | rfl <;> decide
      | default => decide
      | dirIn => decide
      | dirOut => decide
      | dirInout => decide
    · constructor
      · intro h; exact Or.inl ⟨List.mem_singleton.mp h, hu⟩
      · rintro (h | ⟨_, _, h, _⟩)
        · exact List.mem_singleton.mpr h.1
        · exact absurd h h2

/-- **C84** for parameters: the parameter gets exactly the keyword arguments its annotations stand for, and the default
value in the header if there is one; everything else is reported by name or value.  What is missing: a default value in
the annotations is dropped without a word if the header has one. -/
theorem C84_parameter_partial (num : Str → Option Int) (type name : Str) (anns : Anns) (default : Option Str)
    (hn : (anns.map (·.1)).Nodup) {r : Spec × List Warn} (h : lookupParameter num type name anns default = .ok r) :
    r.1.args = [type, name] ∧
    (∀ k w, (k = "default_value".toList → default = none ∨ default = some []) →
      (ODict.get r.1.kw k = some w ↔ ∃ v, (k, v) ∈ anns ∧ ParamAnn num k v w)) ∧
    (∀ c d, default = some (c :: d) → ODict.get r.1.kw "default_value".toList = some (.str (c :: d))) ∧
    (∀ w, w ∈ r.2 ↔ ∃ n v, (n, v) ∈ anns ∧ ((w = .annotation n ∧ n ∉ paramKnown) ∨
      ∃ s, w = .direction s ∧ n = "direction".toList ∧ v = some s ∧ BadDirection s)) := by
  obtain ⟨q, hq, rfl⟩ := map_ok h
  have main : ∀ k w, ODict.get q.1 k = some w ↔ ∃ v, (k, v) ∈ anns ∧ ParamAnn num k v w := by
    intro k w
    rw [loop_get_name (paramStep_keyed num) hq hn]
    constructor
    · rintro ⟨v, hv, e, he, hw⟩
      exact ⟨v, hv, ((paramStep_spec he).1 w).mp hw⟩
    · rintro ⟨v, hv, ha⟩
      obtain ⟨e, he⟩ := loop_step hq _ hv
      exact ⟨v, hv, e, he, ((paramStep_spec he).1 w).mpr ha⟩
  refine ⟨rfl, ?_, ?_, ?_⟩
  · intro k w hk
    show ODict.get (setDefaultValue q.1 default) k = some w ↔ _
    rw [← main]
    unfold setDefaultValue
    split
    · rw [Annot.get_set, if_neg]
      intro e
      rcases hk e.symm with h | h <;> cases h
    · exact Iff.rfl
  · rintro c d rfl
    show ODict.get (ODict.set q.1 _ _) _ = _
    rw [Annot.get_set, if_pos rfl]
  · intro w
    show w ∈ q.2 ↔ _
    rw [loop_warn hq]
    constructor
    · rintro (h | ⟨p, hp, e, he, hw⟩)
      · cases h
      · exact ⟨p.1, p.2, hp, ((paramStep_spec he).2 w).mp hw⟩
    · rintro ⟨n, v, hv, hw⟩
      obtain ⟨e, he⟩ := loop_step hq _ hv
      exact Or.inr ⟨_, hv, e, he, ((paramStep_spec he).2 w).mpr hw⟩

theorem C84_default_counterexample :
    ∃ r, lookupParameter (fun _ => none) "int".toList "x".toList [("default_value".toList, some "1".toList)] (some "2".toList) =
      .ok r ∧ ODict.get r.1.kw "default_value".toList = some (.str "2".toList) ∧ r.2 = [] :=
  ⟨_, rfl, by decide +kernel⟩

end Verif.Scan
