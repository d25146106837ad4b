import Verif.Basic
import Mathlib.Data.List.Sort
import Mathlib.Algebra.BigOperators.Group.List.Basic

/-!
# Registration order of the classes found in header files

`ModuleParser._scan_namespace_types` (castxmlparser.py:1041-1587), the part that decides which classes
are registered, in which order: the work list of lines 1131-1493.  Enumerations, containers and
typedefs do not influence it and are left out.

Classes are identified by a number, standing both for the declaration object and for its full name (the
code looks bases up by object, conversion targets by name; C++ allows one class per name).
-/
namespace Verif.Schedule
open Verif

/-- What the work list looks at in a class declaration. -/
structure Decl where
  id : Nat
  /-- `decl_string`, the sort key (line 1162) -/
  key : Str := []
  /-- the location filter accepts it, its name does not start with `__` and, if it is nested, it is public
  (lines 1131-1152) -/
  listed : Bool := true
  /-- annotated `ignore` (lines 1204-1207) -/
  ignored : Bool := false
  /-- no name (lines 1210-1218) -/
  anonymous : Bool := false
  /-- template instance of a type that is not accessible (lines 1315-1328) -/
  hidden : Bool := false
  /-- `cls.bases`, in order -/
  bases : List Nat := []
  /-- casting operators, in order: the class converted to, `none` if it is not a class -/
  casts : List (Option Nat) := []
  deriving DecidableEq, Repr

/-- A class with the classes declared inside it. -/
inductive Cls where
  | mk (d : Decl) (inner : List Cls)
  deriving Repr

def Cls.d : Cls → Decl
  | .mk d _ => d

def Cls.inner : Cls → List Cls
  | .mk _ i => i

/-- What scanning leaves behind. -/
structure St where
  /-- classes registered, in order (`_registered_classes`, `type_registry.ordered_classes`) -/
  reg : List Decl := []
  /-- anonymous structures with the class containing them -/
  anon : List (Nat × Nat) := []
  /-- `implicitly_converts_to` calls -/
  convs : List (Nat × Nat) := []
  /-- classes given up because of a base class -/
  dropped : List (Nat × Nat) := []
  deriving Repr, DecidableEq

def St.ids (st : St) : List Nat := st.reg.map (·.id)

/-- Sorting by `decl_string`, line 1162. -/
def sorted (l : List Cls) : List Cls :=
  l.insertionSort (fun a b => a.d.key ≤ b.d.key)

/-- The work list at the start: classes with the number of times they have been postponed (lines
1131-1162). -/
def start (l : List Cls) : List (Cls × Nat) := (sorted (l.filter (·.d.listed))).map (·, 0)

def pendingIds (q : List (Cls × Nat)) : List Nat := q.map (·.1.d.id)

/-- Outcome of looking at the bases, lines 1233-1256. -/
inductive Bases where
  | ok
  /-- neither registered nor waiting: the class is given up -/
  | undeclared (b : Nat)
  | waiting
  deriving DecidableEq, Repr

def checkBases (reg pending : List Nat) : List Nat → Bases
  | [] => .ok
  | b :: bs =>
    if b ∈ reg then checkBases reg pending bs
    else if b ∈ pending then .waiting else .undeclared b

/-- Does the class have to wait for the target of a casting operator?  Lines 1262-1282: the loop stops at
the first target not registered. -/
def castWaits (reg pending : List Nat) : List (Option Nat) → Bool
  | [] => false
  | none :: cs => castWaits reg pending cs
  | some t :: cs => if t ∈ reg then castWaits reg pending cs else decide (t ∈ pending)

/-- Casting operators to classes registered by then, lines 1468-1490. -/
def conversions (id : Nat) (reg : List Nat) (casts : List (Option Nat)) : List (Nat × Nat) :=
  casts.filterMap (fun c => match c with
    | some t => if t ∈ reg then some (id, t) else none
    | none => none)

/-- The loop, lines 1185-1493, with the recursive scan of nested classes (line 1464) and `postpone_class`
(lines 1165-1182).  `outer` is the class being scanned, if any.  The first argument bounds the number of
iterations; `none` is returned if it is too small (`C82_terminates`: it need not be). -/
def run : Nat → Option Nat → List (Cls × Nat) → St → Option (PyRes St)
  | _, _, [], st => some (.ok st)
  | 0, _, _ :: _, _ => none
  | f + 1, outer, (c, k) :: q, st =>
    if c.d.ignored then run f outer q st
    else if c.d.anonymous then
      run f outer q (match outer with
        | some o => { st with anon := st.anon ++ [(c.d.id, o)] }
        | none => st)
    else
      let postpone := if k + 1 ≥ 10 then some (.error .assertionError) else run f outer (q ++ [(c, k + 1)]) st
      match checkBases st.ids (pendingIds q) c.d.bases with
      | .undeclared b => run f outer q { st with dropped := st.dropped ++ [(c.d.id, b)] }
      | .waiting => postpone
      | .ok =>
        if castWaits st.ids (pendingIds q) c.d.casts then postpone
        else if c.d.hidden then run f outer q st
        else
          match run f (some c.d.id) (start c.inner) { st with reg := st.reg ++ [c.d] } with
          | some (.ok st2) =>
            run f outer q { st2 with convs := st2.convs ++ conversions c.d.id st2.ids c.d.casts }
          | r => r

/-- Namespaces one after the other (lines 1523-1581: nested namespaces come after the classes of the
namespace, in the order of the list given here). -/
def scan (fuel : Nat) : List (List Cls) → St → Option (PyRes St)
  | [], st => some (.ok st)
  | l :: ls, st =>
    match run fuel none (start l) st with
    | some (.ok st2) => scan fuel ls st2
    | r => r

/-! ## Termination -/

mutual
/-- Bound for the work caused by a class. -/
def Cls.weight : Cls → Nat
  | .mk _ inner => 1 + 10 * weights inner
def weights : List Cls → Nat
  | [] => 0
  | c :: cs => c.weight + weights cs
end

theorem weights_eq : ∀ l : List Cls, weights l = (l.map Cls.weight).sum
  | [] => by simp [weights]
  | c :: cs => by simp [weights, weights_eq cs]

theorem weight_eq (c : Cls) : c.weight = 1 + 10 * weights c.inner := by
  cases c with
  | mk d i => simp [Cls.weight, Cls.inner]

/-- Work left. -/
def work (q : List (Cls × Nat)) : Nat := (q.map (fun p => p.1.weight * (10 - p.2))).sum

theorem work_cons (c : Cls) (k : Nat) (q : List (Cls × Nat)) : work ((c, k) :: q) = c.weight * (10 - k) + work q := by
  simp [work]

theorem work_append (a b : List (Cls × Nat)) : work (a ++ b) = work a + work b := by
  simp [work]

theorem sum_filter_le (l : List Cls) (p : Cls → Bool) :
    ((l.filter p).map Cls.weight).sum ≤ (l.map Cls.weight).sum := by
  induction l with
  | nil => simp
  | cons c l ih =>
    by_cases h : p c
    · simp [h, ih]
    · simp [h]; omega

theorem start_perm (l : List Cls) : (start l).Perm ((l.filter (·.d.listed)).map (·, 0)) :=
  (List.perm_insertionSort _ _).map _

theorem work_start (l : List Cls) : work (start l) ≤ 10 * weights l := by
  have h : work (start l) = work ((l.filter (·.d.listed)).map (·, 0)) := by
    unfold work
    exact ((start_perm l).map _).sum_eq
  rw [h, weights_eq]
  have : ∀ l : List Cls, work (l.map (·, 0)) = 10 * (l.map Cls.weight).sum := by
    intro l
    induction l with
    | nil => rfl
    | cons c l ih => rw [List.map_cons, work_cons, ih]; simp; omega
  rw [this]
  exact Nat.mul_le_mul_left _ (sum_filter_le _ _)

theorem start_counts (l : List Cls) : ∀ p ∈ start l, p.2 = 0 := by
  intro p hp
  obtain ⟨c, -, rfl⟩ := List.mem_map.mp hp
  rfl

/-- The loop ends: enough iterations always suffice. -/
theorem run_terminates : ∀ (f : Nat) (outer : Option Nat) (q : List (Cls × Nat)) (st : St),
    (∀ p ∈ q, p.2 < 10) → work q ≤ f → run f outer q st ≠ none
  | f, outer, [], st, _, _ => by simp [run]
  | 0, outer, (c, k) :: q, st, hk, hw => by
    exfalso
    have h1 := hk _ List.mem_cons_self
    rw [work_cons, weight_eq] at hw
    have : 0 < (1 + 10 * weights c.inner) * (10 - k) := Nat.mul_pos (by omega) (by omega)
    omega
  | f + 1, outer, (c, k) :: q, st, hk, hw => by
    have h1 : k < 10 := hk _ List.mem_cons_self
    have h2 : ∀ p ∈ q, p.2 < 10 := fun p hp => hk p (List.mem_cons_of_mem _ hp)
    rw [work_cons, weight_eq] at hw
    have hpos : (1 + 10 * weights c.inner) ≤ (1 + 10 * weights c.inner) * (10 - k) :=
      Nat.le_mul_of_pos_right _ (by omega)
    have hq : work q ≤ f := by omega
    have hin : work (start c.inner) ≤ f := by
      have := work_start c.inner
      omega
    have hp : k + 1 < 10 → work (q ++ [(c, k + 1)]) ≤ f := by
      intro hk1
      rw [work_append, work_cons, weight_eq]
      have e : 10 - k = (10 - (k + 1)) + 1 := by omega
      rw [e, Nat.mul_add] at hw
      simp only [work, List.map_nil, List.sum_nil]
      simp only [work] at hw
      omega
    have hpost : (if k + 1 ≥ 10 then some (Except.error PyErr.assertionError)
        else run f outer (q ++ [(c, k + 1)]) st) ≠ none := by
      split
      · simp
      · refine run_terminates f _ _ _ ?_ (hp (by omega))
        intro p hp
        rcases List.mem_append.mp hp with hp | hp
        · exact h2 p hp
        · cases List.mem_singleton.mp hp
          show k + 1 < 10
          omega
    simp only [run]
    split
    · exact run_terminates f _ _ _ h2 hq
    split
    · exact run_terminates f _ _ _ h2 hq
    split
    · exact run_terminates f _ _ _ h2 hq
    · exact hpost
    split
    · exact hpost
    split
    · exact run_terminates f _ _ _ h2 hq
    split
    · exact run_terminates f _ _ _ h2 hq
    · exact run_terminates f _ _ _ (fun p hp => by rw [start_counts _ p hp]; omega) hin

/-- More iterations make no difference. -/
theorem run_mono : ∀ (f g : Nat) (outer : Option Nat) (q : List (Cls × Nat)) (st : St) (r : PyRes St),
    f ≤ g → run f outer q st = some r → run g outer q st = some r
  | f, g, outer, [], st, r, _, h => by simpa [run] using h
  | 0, _, _, _ :: _, _, _, _, h => by simp [run] at h
  | f + 1, 0, _, _ :: _, _, _, hfg, _ => by omega
  | f + 1, g + 1, outer, (c, k) :: q, st, r, hfg, h => by
    have hfg' : f ≤ g := by omega
    simp only [run] at h ⊢
    have hpost : (if k + 1 ≥ 10 then some (Except.error PyErr.assertionError)
        else run f outer (q ++ [(c, k + 1)]) st) = some r →
        (if k + 1 ≥ 10 then some (Except.error PyErr.assertionError)
        else run g outer (q ++ [(c, k + 1)]) st) = some r := by
      intro h
      split at h
      · rename_i hk; rw [if_pos hk]; exact h
      · rename_i hk; rw [if_neg hk]; exact run_mono f g _ _ _ _ hfg' h
    split at h
    · rename_i h0
      rw [if_pos h0]
      exact run_mono f g _ _ _ _ hfg' h
    rename_i h0
    rw [if_neg h0]
    split at h
    · rename_i h0
      rw [if_pos h0]
      exact run_mono f g _ _ _ _ hfg' h
    rename_i h0
    rw [if_neg h0]
    split at h
    · exact run_mono f g _ _ _ _ hfg' h
    · exact hpost h
    split at h
    · rename_i h0
      rw [if_pos h0]
      exact hpost h
    rename_i h0
    rw [if_neg h0]
    split at h
    · rename_i h0
      rw [if_pos h0]
      exact run_mono f g _ _ _ _ hfg' h
    rename_i h0
    rw [if_neg h0]
    split at h
    · rename_i st2 hi
      rw [run_mono f g _ _ _ _ hfg' hi]
      exact run_mono f g _ _ _ _ hfg' h
    · rename_i hi
      rw [run_mono f g _ _ _ _ hfg' h]
      cases r with
      | error e => rfl
      | ok s => exact absurd h (hi s)

end Verif.Schedule
