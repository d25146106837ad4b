import Verif.Basic

/-!
# Run-time type narrowing: `pybindgen::TypeMap`

Model of the C++ class that `CppClass._generate_typeid_map` style code writes into the generated
module (cppclass.py:1334-1418) and of its use when a C++ object is returned (cppclass.py:2699-2712).

C++ types are numbers; the base types of a type have smaller numbers (a C++ class is complete
when it is used as a base).  What `cxxabi.h` says of a type is `Rtti`: `root` for
`__class_type_info` (no base), `si b` for `__si_class_type_info` (one public non-virtual base `b`)
and `multi` for `__vmi_class_type_info` (anything else).  The name of a type identifies it.
-/
namespace Verif.TypeMap

abbrev Ty := Nat

/-- What the Itanium ABI records about the bases of a class. -/
inductive Rtti where
  | root
  | si (base : Ty)
  | multi
  deriving DecidableEq, Repr

/-- The run-time type information of a program: single bases come before the class. -/
structure Prog where
  rtti : Ty → Rtti
  wf : ∀ t b, rtti t = .si b → b < t

/-- `m_map`: type name to Python type; `none` stands both for an absent entry and for the null
entries `operator[]` leaves behind on a failed lookup (cppclass.py:1336, 1364, 1377: both read as
0 afterwards). -/
abbrev Map (W : Type) := Ty → Option W

/-- `register_wrapper` (cppclass.py:1342-1351): the entry is overwritten. -/
def register {W : Type} (m : Map W) (t : Ty) (w : W) : Map W :=
  fun x => if x = t then some w else m x

/-- A sequence of registrations on an empty map. -/
def registerAll {W : Type} (rs : List (Ty × W)) : Map W :=
  rs.foldl (fun m r => register m r.1 r.2) (fun _ => none)

/-- The loop of cppclass.py:1377-1382: `dynamic_cast` to `__si_class_type_info` succeeds for `si`
types only, so the walk stops at (and never looks up) a type that has no single base. -/
def walk {W : Type} (p : Prog) (m : Map W) (t : Ty) : Option W :=
  match h : p.rtti t with
  | .root => none
  | .multi => none
  | .si b => match m t with
    | some w => some w
    | none => walk p m b
termination_by t
decreasing_by exact p.wf _ _ h

/-- `lookup_wrapper` (cppclass.py:1357-1398), `gcc_rtti_abi_complete` and a gcc compiler. -/
def lookup {W : Type} (p : Prog) (m : Map W) (t : Ty) (fallback : W) : W :=
  match m t with
  | some w => w
  | none => (walk p m t).getD fallback

/-- `lookup_wrapper` for other compilers (cppclass.py:1394-1396) and with
`settings.gcc_rtti_abi_complete` off (cppclass.py:1405-1414). -/
def lookupExact {W : Type} (m : Map W) (t : Ty) (fallback : W) : W := (m t).getD fallback

/-! ### Specification -/

/-- `Chain p t s`: `s` is `t` itself or an ancestor of `t` reached through single bases only. -/
inductive Chain (p : Prog) : Ty → Ty → Prop
  | refl (t : Ty) : Chain p t t
  | step {t b s : Ty} : p.rtti t = .si b → Chain p b s → Chain p t s

/-- `Nearest p m t w`: walking up from `t`, the first type that has a wrapper has wrapper `w`. -/
inductive Nearest {W : Type} (p : Prog) (m : Map W) : Ty → W → Prop
  | here {t : Ty} {w : W} : m t = some w → Nearest p m t w
  | up {t b : Ty} {w : W} : m t = none → p.rtti t = .si b → Nearest p m b w → Nearest p m t w

/-- The last registration made for `t`, if any. -/
def lastFor {W : Type} (rs : List (Ty × W)) (t : Ty) : Option W :=
  (rs.reverse.find? (fun r => r.1 = t)).map Prod.snd

theorem foldl_register {W : Type} (rs : List (Ty × W)) (m : Map W) (t : Ty) :
    rs.foldl (fun m r => register m r.1 r.2) m t = (lastFor rs t <|> m t) := by
  induction rs generalizing m with
  | nil => simp [lastFor]
  | cons r rs ih =>
    rw [List.foldl_cons, ih]
    simp only [lastFor, List.reverse_cons, List.find?_append]
    cases h : List.find? (fun r => decide (r.1 = t)) rs.reverse with
    | some x => simp
    | none =>
      by_cases hr : r.1 = t
      · simp [hr, register]
      · simp [hr, register, Ne.symm hr]

/-- **C37.**  Whatever the registrations and their order, the map holds the last wrapper registered
for each type and nothing for the others. -/
theorem C37_registered {W : Type} (rs : List (Ty × W)) (t : Ty) :
    registerAll rs t = lastFor rs t := by
  unfold registerAll
  rw [foldl_register]
  cases lastFor rs t <;> rfl

example : registerAll [(1, 'a'), (2, 'b'), (1, 'c')] 1 = some 'c' := by decide

/-- Distinct types can be registered in any order. -/
theorem C37_order {W : Type} (rs rs' : List (Ty × W)) (hp : rs.Perm rs')
    (hn : (rs.map Prod.fst).Nodup) : registerAll rs = registerAll rs' := by
  have key : ∀ (l : List (Ty × W)), (l.map Prod.fst).Nodup → ∀ t w,
      lastFor l t = some w ↔ (t, w) ∈ l := by
    intro l hl t w
    have hr : (l.reverse.map Prod.fst).Nodup := by
      rw [List.map_reverse]; exact (List.reverse_perm _).nodup_iff.2 hl
    have gen : ∀ (l : List (Ty × W)), (l.map Prod.fst).Nodup →
        ((l.find? (fun r => r.1 = t)).map Prod.snd = some w ↔ (t, w) ∈ l) := by
      intro l
      induction l with
      | nil => simp
      | cons r l ih =>
        intro hl
        rw [List.map_cons, List.nodup_cons] at hl
        by_cases hrt : r.1 = t
        · simp only [List.find?_cons, hrt, decide_true, Option.map_some, Option.some.injEq,
            List.mem_cons]
          constructor
          · intro h; exact Or.inl (by rw [← h, ← hrt])
          · rintro (h | h)
            · rw [← h]
            · exact absurd (hrt ▸ List.mem_map.2 ⟨(t, w), h, rfl⟩) hl.1
        · simp only [List.find?_cons, hrt, decide_false, List.mem_cons]
          rw [ih hl.2]
          constructor
          · exact Or.inr
          · rintro (h | h)
            · exact absurd (by rw [← h]) hrt
            · exact h
    have := gen l.reverse hr
    simpa [lastFor] using this
  funext t
  rw [C37_registered, C37_registered]
  have hn' : (rs'.map Prod.fst).Nodup := (hp.map Prod.fst).nodup_iff.1 hn
  cases h : lastFor rs' t with
  | some w => exact (key rs hn t w).2 (hp.mem_iff.2 ((key rs' hn' t w).1 h))
  | none =>
    cases h2 : lastFor rs t with
    | none => rfl
    | some w =>
      have := (key rs' hn' t w).2 (hp.mem_iff.1 ((key rs hn t w).1 h2))
      rw [h] at this; cases this

example : registerAll [(1, 'a'), (2, 'b')] = registerAll [(2, 'b'), (1, 'a')] :=
  C37_order _ _ (List.Perm.swap _ _ _) (by decide)

theorem nearest_unique {W : Type} {p : Prog} {m : Map W} {t : Ty} {w w' : W}
    (h : Nearest p m t w) (h' : Nearest p m t w') : w = w' := by
  induction h with
  | here h =>
    cases h' with
    | here h2 => exact Option.some.inj (h.symm.trans h2)
    | up h2 _ _ => rw [h] at h2; cases h2
  | up h hb _ ih =>
    cases h' with
    | here h2 => rw [h] at h2; cases h2
    | up _ hb2 h3 => rw [hb] at hb2; cases hb2; exact ih h3

/-- What the loop finds: the nearest registered type among those that have a single base. -/
theorem walk_spec {W : Type} (p : Prog) (m : Map W) (t : Ty) :
    (∀ w, walk p m t = some w → Nearest p m t w) ∧
    (walk p m t = none → ∀ s, Chain p t s → m s ≠ none → ¬ ∃ b, p.rtti s = .si b) := by
  induction t using Nat.strongRecOn with
  | ind t ih =>
    rw [walk]
    split
    · next h =>
      refine ⟨by simp, fun _ s hs _ => ?_⟩
      cases hs with
      | refl => rw [h]; rintro ⟨b, hb⟩; cases hb
      | step h2 _ => rw [h] at h2; cases h2
    · next h =>
      refine ⟨by simp, fun _ s hs _ => ?_⟩
      cases hs with
      | refl => rw [h]; rintro ⟨b, hb⟩; cases hb
      | step h2 _ => rw [h] at h2; cases h2
    · next b h =>
      cases hm : m t with
      | some w0 =>
        refine ⟨fun w hw => ?_, by simp⟩
        simp only [Option.some.injEq] at hw
        exact .here (hw ▸ hm)
      | none =>
        have ⟨i1, i2⟩ := ih b (p.wf _ _ h)
        refine ⟨fun w hw => .up hm h (i1 w hw), fun hw s hs hms => ?_⟩
        cases hs with
        | refl => exact absurd hm hms
        | step h2 h3 => rw [h] at h2; cases h2; exact i2 hw s h3 hms

/-- **C37.**  The lookup returns the wrapper of the nearest registered class of the object's single
inheritance chain whenever that class is the object's own class or has a single base itself. -/
theorem C37_lookup_partial {W : Type} (p : Prog) (m : Map W) (t : Ty) (fb w : W)
    (h : Nearest p m t w)
    (hroot : ∀ s, Chain p t s → m s ≠ none → s = t ∨ ∃ b, p.rtti s = .si b) :
    lookup p m t fb = w := by
  unfold lookup
  cases hm : m t with
  | some w' => exact nearest_unique (.here hm) h
  | none =>
    have ⟨i1, i2⟩ := walk_spec p m t
    cases hw : walk p m t with
    | some w' => exact nearest_unique (i1 w' hw) h
    | none =>
      exfalso
      have : ∀ {t w}, Nearest p m t w → ∃ s, Chain p t s ∧ m s ≠ none := by
        intro t w hn
        induction hn with
        | here h => exact ⟨_, .refl _, by simp [h]⟩
        | up _ hb _ ih => obtain ⟨s, h1, h2⟩ := ih; exact ⟨s, .step hb h1, h2⟩
      obtain ⟨s, h1, h2⟩ := this h
      rcases hroot s h1 h2 with rfl | hb
      · exact h2 hm
      · exact i2 hw s h1 h2 hb

/-- **C37.**  When no class of the chain is registered the fallback is used. -/
theorem C37_fallback {W : Type} (p : Prog) (m : Map W) (t : Ty) (fb : W)
    (h : ∀ s, Chain p t s → m s = none) : lookup p m t fb = fb := by
  unfold lookup
  rw [h t (.refl t)]
  have ⟨i1, _⟩ := walk_spec p m t
  cases hw : walk p m t with
  | none => rfl
  | some w =>
    exfalso
    have : ∀ {t w}, Nearest p m t w → ∃ s, Chain p t s ∧ m s ≠ none := by
      intro t w hn
      induction hn with
      | here h => exact ⟨_, .refl _, by simp [h]⟩
      | up _ hb _ ih => obtain ⟨s, h1, h2⟩ := ih; exact ⟨s, .step hb h1, h2⟩
    obtain ⟨s, h1, h2⟩ := this (i1 w hw)
    exact h2 (h s h1)

/-- **C37.**  The result is the fallback or the wrapper of the nearest registered class: never
that of an unrelated or of a farther class. -/
theorem C37_sound {W : Type} (p : Prog) (m : Map W) (t : Ty) (fb : W) :
    lookup p m t fb = fb ∨ Nearest p m t (lookup p m t fb) := by
  unfold lookup
  cases hm : m t with
  | some w => exact Or.inr (.here hm)
  | none =>
    have ⟨i1, _⟩ := walk_spec p m t
    cases hw : walk p m t with
    | none => exact Or.inl rfl
    | some w => exact Or.inr (i1 w hw)

/-- **C37.**  As used by generated code: the fallback is the wrapper of the declared class of the
returned pointer (cppclass.py:2706-2708), which is registered, and the object's class descends
from it by single inheritance.  Then the result is the wrapper of the nearest registered class. -/
theorem C37_declared_type {W : Type} (p : Prog) (m : Map W) (t d : Ty) (fb : W)
    (hc : Chain p t d) (hd : m d = some fb) :
    Nearest p m t (lookup p m t fb) := by
  have ex : ∃ w, Nearest p m t w := by
    induction hc with
    | refl t => exact ⟨fb, .here hd⟩
    | @step t b s hb _ ih =>
      cases hm : m t with
      | some w => exact ⟨w, .here hm⟩
      | none => obtain ⟨w, hw⟩ := ih hd; exact ⟨w, .up hm hb hw⟩
  rcases C37_sound p m t fb with h | h
  · -- the fallback was returned: nothing nearer with a single base is registered
    rw [h]
    unfold lookup at h
    cases hm : m t with
    | some w => rw [hm] at h; simp only at h; exact h ▸ .here hm
    | none =>
      have ⟨i1, i2⟩ := walk_spec p m t
      cases hw : walk p m t with
      | some w => rw [hm, hw] at h; simp only [Option.getD_some] at h; exact h ▸ i1 w hw
      | none =>
        have i2 := i2 hw
        clear * - hc hd i2
        induction hc with
        | refl t => exact .here hd
        | @step t b s hb _ ih =>
          have hmt : m t = none := by
            cases hm : m t with
            | none => rfl
            | some w => exact absurd ⟨b, hb⟩ (i2 t (.refl t) (by simp [hm]))
          exact .up hmt hb (ih hd (fun s hs hms => i2 s (.step hb hs) hms))
  · exact h

/-- Four classes: 0 is a root, 1 and 2 descend from it in a line, 3 from 2. -/
def sample : Prog where
  rtti := fun t => match t with
    | 0 => .root
    | t + 1 => .si t
  wf := by
    intro t b h
    cases t with
    | zero => simp at h
    | succ t => cases h; exact Nat.lt_succ_self _

example : lookup sample (registerAll [(2, 'c'), (1, 'b')]) 3 'r' = 'c' :=
  C37_lookup_partial _ _ _ _ _ (.up (by decide) rfl (.here (by decide))) (by
    intro s hs hm
    cases s with
    | zero => exact absurd (by decide) hm
    | succ s => exact Or.inr ⟨s, rfl⟩)

/-- An unregistered subclass 1 of the registered root 0, returned as a pointer to 0. -/
example : Nearest sample (registerAll [(0, 'r'), (3, 'd')]) 1
    (lookup sample (registerAll [(0, 'r'), (3, 'd')]) 1 'r') :=
  C37_declared_type _ _ 1 0 'r' (.step rfl (.refl 0)) (by decide)

/-- **C37 is false as stated.**  A registered class without bases is never found by the walk: an
unregistered subclass of a registered root gets the fallback even if the fallback is another
wrapper. -/
theorem C37_root_counterexample :
    ∃ (p : Prog) (m : Map Char) (t : Ty) (fb w : Char),
      Nearest p m t w ∧ lookup p m t fb ≠ w := by
  refine ⟨sample, registerAll [(0, 'r')], 1, 'f', 'r', .up (by decide) rfl (.here (by decide)), ?_⟩
  unfold lookup
  rw [show registerAll [(0, 'r')] 1 = none by decide]
  simp only
  rw [walk]; simp only [sample]
  rw [show registerAll [(0, 'r')] 1 = none by decide]
  simp only
  rw [walk]
  decide

/-- **C37.**  Without the gcc ABI the exact class or the fallback is found. -/
theorem C37_exact {W : Type} (m : Map W) (t : Ty) (fb : W) :
    (∀ w, m t = some w → lookupExact m t fb = w) ∧ (m t = none → lookupExact m t fb = fb) := by
  unfold lookupExact
  constructor <;> intros <;> simp [*]

end Verif.TypeMap
