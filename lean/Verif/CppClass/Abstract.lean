import Verif.CppClass.Methods
import Verif.CppClass.Inherit

/-!
# C34: classes with unimplemented pure virtual methods
-/
namespace Verif.CppClass
open Verif

/-! ## The loops -/

/-- A declaration list implements `s`: the first virtual method of that signature is not pure. -/
private theorem childImplements_iff (m : Meth) (l : List Meth) : childImplements m l = true →
    ∃ x ∈ l, x.isCpp = true ∧ x.isVirtual = true ∧ x.sig = m.sig ∧ x.isPure = false := by
  induction l with
  | nil => simp [childImplements]
  | cons c cs ih =>
    intro h
    unfold childImplements at h
    split at h
    · obtain ⟨x, hx, r⟩ := ih h; exact ⟨x, List.mem_cons_of_mem _ hx, r⟩
    · split at h
      · obtain ⟨x, hx, r⟩ := ih h; exact ⟨x, List.mem_cons_of_mem _ hx, r⟩
      · split at h
        · obtain ⟨x, hx, r⟩ := ih h; exact ⟨x, List.mem_cons_of_mem _ hx, r⟩
        · rename_i h1 h2 h3
          refine ⟨c, by simp, ?_⟩
          simp at h1 h2 h3 h
          exact ⟨h1, h2, h3, h⟩

private theorem childImplements_of (m : Meth) (l : List Meth)
    (hu : ∀ x ∈ l, ∀ y ∈ l, x.isVirtual = true → y.isVirtual = true → x.isCpp = true → y.isCpp = true →
      x.sig = y.sig → x = y)
    {x : Meth} (hx : x ∈ l) (h1 : x.isCpp = true) (h2 : x.isVirtual = true) (h3 : x.sig = m.sig)
    (h4 : x.isPure = false) : childImplements m l = true := by
  induction l with
  | nil => cases hx
  | cons c cs ih =>
    have hu' : ∀ x ∈ cs, ∀ y ∈ cs, x.isVirtual = true → y.isVirtual = true → x.isCpp = true →
        y.isCpp = true → x.sig = y.sig → x = y :=
      fun a ha b hb => hu a (List.mem_cons_of_mem _ ha) b (List.mem_cons_of_mem _ hb)
    unfold childImplements
    by_cases hc : c.isCpp = true ∧ c.isVirtual = true ∧ c.sig = m.sig
    · have : c = x := hu c (by simp) x hx hc.2.1 h2 hc.1 h1 (by rw [hc.2.2, h3])
      subst this
      simp [h1, h2, h3, h4]
    · have hxc : x ∈ cs := by
        rcases List.mem_cons.1 hx with rfl | hx
        · exact absurd ⟨h1, h2, h3⟩ hc
        · exact hx
      have := ih hu' hxc
      split
      · exact this
      · split
        · exact this
        · split
          · exact this
          · rename_i a b d; simp at a b d; exact absurd ⟨a, b, d⟩ hc

private theorem implementedIn_iff (m : Meth) (l : List (List Meth)) :
    implementedIn m l = true ↔ ∃ ms ∈ l, childImplements m ms = true := by
  induction l with
  | nil => simp [implementedIn]
  | cons ms rest ih =>
    unfold implementedIn
    split
    · rename_i h; simp [h]
    · rename_i h; rw [ih]; simp [h]

private theorem abstractLoop_iff (l : List (List Meth)) :
    abstractLoop l = true ↔ ∃ pre ms post, l = pre ++ ms :: post ∧
      ∃ m ∈ ms, m.isCpp = true ∧ m.isPure = true ∧ implementedIn m post = false := by
  induction l with
  | nil => simp [abstractLoop]
  | cons ms rest ih =>
    simp only [abstractLoop, Bool.or_eq_true, List.any_eq_true, Bool.and_eq_true, Bool.not_eq_true']
    constructor
    · rintro (⟨m, hm, ⟨h1, h2⟩, h3⟩ | h)
      · exact ⟨[], ms, rest, rfl, m, hm, h1, h2, h3⟩
      · obtain ⟨pre, x, post, rfl, r⟩ := ih.1 h
        exact ⟨ms :: pre, x, post, rfl, r⟩
    · rintro ⟨pre, x, post, he, m, hm, h1, h2, h3⟩
      cases pre with
      | nil => simp at he; obtain ⟨rfl, rfl⟩ := he; exact .inl ⟨m, hm, ⟨h1, h2⟩, h3⟩
      | cons y ys =>
        simp at he
        exact .inr (ih.2 ⟨ys, x, post, he.2, m, hm, h1, h2, h3⟩)

/-- The MRO is read from the root down: the classes after `d` in the reversed list are those before
it in the MRO. -/
private theorem compute_iff (h : Hier) (σ : St) (c : Nat) :
    computeAbstract h σ c = true ↔ ∃ pre d post, h.mro c = pre ++ d :: post ∧
      ∃ m ∈ (σ d).declared, m.isCpp = true ∧ m.isPure = true ∧
        ∀ e ∈ pre, childImplements m (σ e).declared = false := by
  unfold computeAbstract
  rw [abstractLoop_iff]
  constructor
  · rintro ⟨pre, ms, post, he, m, hm, h1, h2, h3⟩
    have he' := congrArg List.reverse he
    rw [← List.map_reverse, List.reverse_reverse] at he'
    simp only [List.reverse_append, List.reverse_cons, List.append_assoc, List.singleton_append] at he'
    obtain ⟨l1, l2, hl, hl1, hl2⟩ := List.map_eq_append_iff.1 he'
    obtain ⟨d, l3, rfl, hd, hl3⟩ := List.map_eq_cons_iff.1 hl2
    refine ⟨l1, d, l3, hl, m, by rw [hd]; exact hm, h1, h2, fun e hee => ?_⟩
    by_contra hn
    have : implementedIn m post = true := by
      rw [implementedIn_iff]
      refine ⟨(σ e).declared, ?_, by simpa using hn⟩
      have : (σ e).declared ∈ post.reverse := by rw [← hl1]; exact List.mem_map_of_mem hee
      simpa using this
    rw [this] at h3; cases h3
  · rintro ⟨pre, d, post, he, m, hm, h1, h2, h3⟩
    refine ⟨post.reverse.map (fun d => (σ d).declared), (σ d).declared, pre.reverse.map (fun d => (σ d).declared),
      by rw [he]; simp, m, hm, h1, h2, ?_⟩
    by_contra hn
    simp only [Bool.not_eq_false] at hn
    obtain ⟨ms, hms, hc⟩ := (implementedIn_iff _ _).1 hn
    obtain ⟨e, hee, rfl⟩ := List.mem_map.1 hms
    rw [h3 e (by simpa using hee)] at hc
    cases hc

/-! ## Ancestors in single inheritance -/

theorem Ancestor.refl (h : Hier) (a : Nat) : Ancestor h a a := ⟨0, .refl a⟩

private theorem Path.trans {h : Hier} {a b : Nat} {n : Nat} (p : Path h n a b) :
    ∀ {m c}, Path h m b c → Path h (n + m) a c := by
  intro m c q
  induction q with
  | refl => exact p
  | step _ hc ih => exact .step (ih p) hc

theorem Ancestor.trans {h : Hier} {a b c : Nat} (p : Ancestor h b a) (q : Ancestor h c b) :
    Ancestor h c a := by
  obtain ⟨n, p⟩ := p
  obtain ⟨m, q⟩ := q
  exact ⟨n + m, p.trans q⟩

private theorem Path.le {h : Hier} {n a b : Nat} (p : Path h n a b) : b ≤ a := by
  induction p with
  | refl => exact Nat.le_refl _
  | step _ hc ih => have := h.acyclic _ _ hc; omega

theorem Ancestor.le {h : Hier} {a b : Nat} (p : Ancestor h b a) : b ≤ a := by
  obtain ⟨n, p⟩ := p; exact p.le

/-- In single inheritance the classes before `d` in the MRO of `c` are exactly the classes strictly
between: below `d`, and `c` or above it. -/
private theorem single_split (h : Hier) (hs : ∀ c, (h.bases c).length ≤ 1) (c : Nat) :
    ∀ pre d post, h.mro c = pre ++ d :: post →
      ∀ e, e ∈ pre ↔ (Ancestor h e c ∧ Ancestor h d e ∧ e ≠ d) := by
  induction c using Nat.strongRecOn with
  | ind c ih =>
    intro pre d post he e
    match hb : h.bases c, hs c with
    | [], _ =>
      rw [mro_nil hb] at he
      cases pre with
      | cons x xs => simp at he
      | nil =>
        simp at he
        obtain ⟨rfl, rfl⟩ := he
        simp only [List.not_mem_nil, false_iff, not_and, Decidable.not_not]
        intro h1 h2
        have := h1.le; have := h2.le; omega
    | [p], _ =>
      have hlt := h.acyclic c p (by rw [hb]; simp)
      rw [mro_single hb] at he
      cases pre with
      | nil =>
        simp at he
        obtain ⟨rfl, rfl⟩ := he
        simp only [List.not_mem_nil, false_iff, not_and, Decidable.not_not]
        intro h1 h2
        have := h1.le; have := h2.le; omega
      | cons x xs =>
        simp at he
        obtain ⟨rfl, he⟩ := he
        have := ih p hlt xs d post he e
        have hd : Ancestor h d p := (C33_mro_mem h p d).1 (by rw [he]; simp)
        have hpc : Ancestor h p c := ⟨1, .step (.refl c) (by rw [hb]; simp)⟩
        rw [List.mem_cons, this]
        constructor
        · rintro (rfl | ⟨h1, h2, h3⟩)
          · exact ⟨.refl h _, hpc.trans hd, by have := hd.le; omega⟩
          · exact ⟨hpc.trans h1, h2, h3⟩
        · rintro ⟨h1, h2, h3⟩
          have hm := (C33_mro_mem h c e).2 h1
          rw [mro_single hb] at hm
          rcases List.mem_cons.1 hm with rfl | hm
          · exact .inl rfl
          · exact .inr ⟨(C33_mro_mem h p e).1 hm, h2, h3⟩
    | x :: y :: l, hl => simp at hl

private theorem first_split {l : List Nat} (P : Nat → Prop) {d : Nat} (hd : d ∈ l) (hP : P d) :
    ∃ pre x post, l = pre ++ x :: post ∧ P x ∧ ∀ e ∈ pre, ¬ P e := by
  induction l with
  | nil => cases hd
  | cons y ys ih =>
    by_cases hy : P y
    · exact ⟨[], y, ys, rfl, hy, by simp⟩
    · have : d ∈ ys := by
        rcases List.mem_cons.1 hd with rfl | hd
        · exact absurd hP hy
        · exact hd
      obtain ⟨pre, x, post, rfl, h1, h2⟩ := ih this
      refine ⟨y :: pre, x, post, rfl, h1, ?_⟩
      intro e he
      rcases List.mem_cons.1 he with rfl | he
      · exact hy
      · exact h2 e he

/-- C34 (partial: single inheritance): with declarations C++ accepts, a class is reported to have
pure virtual methods exactly when it is abstract in C++: when some final overrider is pure. -/
theorem C34_single_inheritance_partial (h : Hier) (hs : ∀ c, (h.bases c).length ≤ 1) (σ : St)
    (hw : WellFormed σ) (c : Nat) : computeAbstract h σ c = true ↔ IsAbstract h σ c := by
  rw [compute_iff]
  constructor
  · rintro ⟨pre, d, post, he, m, hm, h1, h2, h3⟩
    have hdecl : Declares σ d m.sig := ⟨m, hm, h1, (hw d).1 m hm h2, rfl⟩
    obtain ⟨pre', x, post', he', hx, hpre'⟩ :=
      first_split (fun e => Declares σ e m.sig) (l := h.mro c) (d := d) (by rw [he]; simp) hdecl
    refine ⟨x, m.sig, (C33_mro_mem h c x).1 (by rw [he']; simp), ?_, ?_⟩
    · -- `x` is `d` or before it, so what it declares is pure
      obtain ⟨y, hy, hy1, hy2, hy3⟩ := hx
      by_cases hxp : x ∈ pre
      · have hni := h3 x hxp
        refine ⟨y, hy, hy1, ?_, hy3⟩
        by_contra hp
        simp only [Bool.not_eq_true] at hp
        rw [childImplements_of m _ (hw x).2 hy hy1 hy2 hy3 hp] at hni
        cases hni
      · have : x = d := by
          rw [he] at he'
          rcases List.append_eq_append_iff.1 he' with ⟨l, h4, h5⟩ | ⟨l, h4, h5⟩
          · cases l with
            | nil => simp at h5; exact h5.1.symm
            | cons z zs =>
              simp at h5
              exact absurd hdecl (hpre' d (by rw [h4, h5.1]; simp))
          · cases l with
            | nil => simp at h5; exact h5.1
            | cons z zs =>
              simp at h5
              exact absurd (by rw [h4, h5.1]; simp) hxp
        subst this
        exact ⟨m, hm, h1, h2, rfl⟩
    · intro e h4 h5 h6
      exact hpre' e ((single_split h hs c pre' x post' he' e).2 ⟨h4, h5, h6⟩)
  · rintro ⟨d, s, hd, ⟨m, hm, h1, h2, rfl⟩, hlast⟩
    obtain ⟨pre, post, he⟩ := List.append_of_mem ((C33_mro_mem h c d).2 hd)
    refine ⟨pre, d, post, he, m, hm, h1, h2, fun e hep => ?_⟩
    by_contra hn
    simp only [Bool.not_eq_false] at hn
    obtain ⟨x, hx, hx1, hx2, hx3, _⟩ := childImplements_iff _ _ hn
    obtain ⟨h4, h5, h6⟩ := (single_split h hs c pre d post he e).1 hep
    exact hlast e h4 h5 h6 ⟨x, hx, hx1, hx2, hx3⟩

/-- C34, any hierarchy: a pure virtual method that no class at or above `c` implements makes `c`
abstract; and a class reported as abstract has a pure virtual method. -/
theorem C34_unimplemented (h : Hier) (σ : St) (c : Nat) :
    (∀ d s, Ancestor h d c → DeclaresPure σ d s →
      (∀ e, Ancestor h e c → ∀ m ∈ (σ e).declared, m.isVirtual = true → m.sig = s → m.isPure = true) →
      computeAbstract h σ c = true) ∧
    (computeAbstract h σ c = true → ∃ d s, Ancestor h d c ∧ DeclaresPure σ d s) := by
  constructor
  · rintro d s hd ⟨m, hm, h1, h2, rfl⟩ hno
    obtain ⟨pre, post, he⟩ := List.append_of_mem ((C33_mro_mem h c d).2 hd)
    refine (compute_iff h σ c).2 ⟨pre, d, post, he, m, hm, h1, h2, fun e hep => ?_⟩
    by_contra hn
    simp only [Bool.not_eq_false] at hn
    obtain ⟨x, hx, hx1, hx2, hx3, hx4⟩ := childImplements_iff _ _ hn
    have := hno e ((C33_mro_mem h c e).1 (by rw [he]; simp [hep])) x hx hx2 hx3
    rw [hx4] at this; cases this
  · intro hc
    obtain ⟨pre, d, post, he, m, hm, h1, h2, _⟩ := (compute_iff h σ c).1 hc
    exact ⟨d, m.sig, (C33_mro_mem h c d).1 (by rw [he]; simp), m, hm, h1, h2, rfl⟩

/-! ## The cached answer -/

/-- Methods that matter for abstractness. -/
private def Relevant (m : Meth) : Bool := m.isVirtual || m.isPure

private theorem childImplements_filter (m : Meth) (l : List Meth) :
    childImplements m (l.filter Relevant) = childImplements m l := by
  induction l with
  | nil => rfl
  | cons c cs ih =>
    rw [List.filter_cons]
    split
    · unfold childImplements; simp only [ih]
    · rename_i hr
      simp [Relevant] at hr
      rw [ih, childImplements]
      simp [hr.1]

private theorem implementedIn_filter (m : Meth) (l : List (List Meth)) :
    implementedIn m (l.map (·.filter Relevant)) = implementedIn m l := by
  induction l with
  | nil => rfl
  | cons ms rest ih => simp only [List.map_cons, implementedIn, childImplements_filter, ih]

private theorem abstractLoop_filter (l : List (List Meth)) :
    abstractLoop (l.map (·.filter Relevant)) = abstractLoop l := by
  induction l with
  | nil => rfl
  | cons ms rest ih =>
    simp only [List.map_cons, abstractLoop, implementedIn_filter, ih]
    congr 1
    rw [List.any_filter]
    congr 1
    funext m
    cases h : m.isPure <;> simp [Relevant, h]

private theorem compute_congr (h : Hier) (σ τ : St) (c : Nat)
    (he : ∀ d, Ancestor h d c → (σ d).declared.filter Relevant = (τ d).declared.filter Relevant) :
    computeAbstract h σ c = computeAbstract h τ c := by
  unfold computeAbstract
  rw [← abstractLoop_filter, ← abstractLoop_filter ((h.mro c).reverse.map fun d => (τ d).declared)]
  congr 1
  rw [List.map_map, List.map_map]
  apply List.map_congr_left
  intro d hd
  exact he d ((C33_mro_mem h c d).1 (by simpa using hd))

/-- Two states that differ in helper classes only. -/
private def SameButHelper (σ τ : St) : Prop :=
  ∀ d, (σ d).declared = (τ d).declared ∧ (σ d).cache = (τ d).cache

private theorem getHelper_same (h : Hier) (σ : St) (c : Nat) : SameButHelper (getHelper h σ c).2 σ := by
  intro d
  unfold getHelper
  split
  · exact ⟨rfl, rfl⟩
  · split
    · exact ⟨rfl, rfl⟩
    · split
      · exact ⟨rfl, rfl⟩
      · split
        · exact ⟨rfl, rfl⟩
        · simp only [St.put]
          split
          · rename_i e; subst e; exact ⟨rfl, rfl⟩
          · exact ⟨rfl, rfl⟩

private theorem overloads_filter (d : List (Str × List Meth)) (n : Str) (m : Meth) (hm : Relevant m = false) :
    ((addToOverloads d n m).flatMap (·.2)).filter Relevant = (d.flatMap (·.2)).filter Relevant := by
  induction d with
  | nil => simp [addToOverloads, hm]
  | cons p rest ih =>
    obtain ⟨k, ms⟩ := p
    unfold addToOverloads
    split
    · simp [hm]
    · simp only [List.flatMap_cons, List.filter_append, ih]

private theorem add_tail (h : Hier) (σ : St) (c : Nat) (m : Meth) :
    SameButHelper (match getHelper h σ c with
      | (some H, σ3) => σ3.put c { σ3 c with helper := some (H.addVirtual m) }
      | (none, σ3) => σ3) σ := by
  intro d
  have hs := getHelper_same h σ c
  generalize getHelper h σ c = r at hs
  obtain ⟨o, σ3⟩ := r
  cases o with
  | none => exact hs d
  | some H =>
    simp only [St.put]
    split
    · rename_i e; subst e; exact hs d
    · exact hs d

/-- What one call does to cached answers and to the relevant declarations. -/
private theorem add_effect (h : Hier) (σ : St) (c : Nat) (m : Meth) (hp : m.isPure = true → m.isVirtual = true)
    (d : Nat) :
    ((addMethodObj h σ c m) d).cache = (if d = c ∧ m.isVirtual = true then none else (σ d).cache) ∧
    ((d ≠ c ∨ m.isVirtual = false) →
      ((addMethodObj h σ c m) d).declared.filter Relevant = (σ d).declared.filter Relevant) := by
  -- the state after recording the method
  let m' : Meth := { m with owner := c }
  let σ1 : St :=
    if m'.vis = .prot && !m'.isVirtual then (getHelper h σ c).2
    else if m'.vis = .pub then σ.put c { σ c with methods := addToOverloads (σ c).methods m'.sig.name m' }
    else σ.put c { σ c with nonpublic := (σ c).nonpublic ++ [m'] }
  have hσ1 : ∀ d, (σ1 d).cache = (σ d).cache ∧ ((d ≠ c ∨ m.isVirtual = false) →
      (σ1 d).declared.filter Relevant = (σ d).declared.filter Relevant) := by
    intro d
    have hrel : m.isVirtual = false → Relevant m' = false := by
      intro hv
      have : m.isPure = false := by
        cases hpp : m.isPure with
        | false => rfl
        | true => rw [hp hpp] at hv; cases hv
      simp [Relevant, m', hv, this]
    simp only [σ1]
    split
    · have := getHelper_same h σ c d
      exact ⟨this.2, fun _ => by rw [this.1]⟩
    · split
      · simp only [St.put]
        split
        · rename_i e; subst e
          refine ⟨rfl, fun hd => ?_⟩
          rcases hd with hd | hd
          · exact absurd rfl hd
          · simp only [ClsM.declared, ClsM.allMethods, List.filter_append, overloads_filter _ _ _ (hrel hd)]
        · exact ⟨rfl, fun _ => rfl⟩
      · simp only [St.put]
        split
        · rename_i e; subst e
          refine ⟨rfl, fun hd => ?_⟩
          rcases hd with hd | hd
          · exact absurd rfl hd
          · simp [ClsM.declared, ClsM.allMethods, List.filter_append, hrel hd]
        · exact ⟨rfl, fun _ => rfl⟩
  have e : addMethodObj h σ c m = if m'.isVirtual then
      (match getHelper h (σ1.put c { σ1 c with cache := none }) c with
      | (some H, σ3) => σ3.put c { σ3 c with helper := some (H.addVirtual m') }
      | (none, σ3) => σ3) else σ1 := rfl
  rw [e]
  rcases Bool.eq_false_or_eq_true m.isVirtual with hv | hv
  · rw [if_pos (show m'.isVirtual = true from hv)]
    have hs := add_tail h (σ1.put c { σ1 c with cache := none }) c m' d
    have hput : ((σ1.put c { σ1 c with cache := none }) d).cache = (if d = c then none else (σ d).cache) ∧
        ((σ1.put c { σ1 c with cache := none }) d).declared = (σ1 d).declared := by
      simp only [St.put]
      split
      · rename_i e; subst e; exact ⟨rfl, rfl⟩
      · exact ⟨(hσ1 d).1, rfl⟩
    refine ⟨?_, fun hd => ?_⟩
    · exact hs.2.trans (hput.1.trans (by simp [hv]))
    · exact (congrArg (List.filter Relevant) (hs.1.trans hput.2)).trans
        ((hσ1 d).2 hd)
  · rw [if_neg (show ¬ m'.isVirtual = true by show ¬ m.isVirtual = true; simp [hv])]
    have := hσ1 d
    exact ⟨by simpa [hv] using this.1, fun _ => this.2 (.inr hv)⟩

private theorem dummy_tail (h : Hier) (σ : St) (c : Nat) (m : Meth) :
    SameButHelper (match getHelper h σ c with
      | (some H, σ2) =>
        let H' := H.addVirtual m
        if H'.cannotBeConstructed then σ2.put c { σ2 c with helper := none, disabled := true }
        else σ2.put c { σ2 c with helper := some H' }
      | (none, σ2) => σ2) σ := by
  intro d
  have hs := getHelper_same h σ c
  generalize getHelper h σ c = r at hs
  obtain ⟨o, σ3⟩ := r
  cases o with
  | none => exact hs d
  | some H =>
    simp only
    split
    · simp only [St.put]
      split
      · rename_i e; subst e; exact hs d
      · exact hs d
    · simp only [St.put]
      split
      · rename_i e; subst e; exact hs d
      · exact hs d

private theorem dummy_effect (h : Hier) (σ : St) (c : Nat) (m : Meth) (d : Nat) :
    ((addDummy h σ c m) d).cache = (if d = c ∧ m.isVirtual = true then none else (σ d).cache) ∧
    ((d ≠ c ∨ m.isVirtual = false) →
      ((addDummy h σ c m) d).declared.filter Relevant = (σ d).declared.filter Relevant) := by
  rcases Bool.eq_false_or_eq_true m.isVirtual with hv | hv
  · unfold addDummy
    rw [if_pos hv]
    have hs := dummy_tail h (σ.put c { σ c with
      dummies := (σ c).dummies ++ [{ m with owner := c }], cache := none }) c { m with owner := c } d
    have hput : ((σ.put c { σ c with
        dummies := (σ c).dummies ++ [{ m with owner := c }], cache := none }) d).cache =
          (if d = c then none else (σ d).cache) ∧
        (d ≠ c → ((σ.put c { σ c with
          dummies := (σ c).dummies ++ [{ m with owner := c }], cache := none }) d).declared = (σ d).declared) := by
      simp only [St.put]
      split
      · rename_i e; subst e; exact ⟨rfl, fun hd => absurd rfl hd⟩
      · exact ⟨rfl, fun _ => rfl⟩
    refine ⟨?_, fun hd => ?_⟩
    · exact hs.2.trans (hput.1.trans (by simp [hv]))
    · exact congrArg (List.filter Relevant) (hs.1.trans (hput.2 (by simpa [hv] using hd)))
  · unfold addDummy
    rw [if_neg (by simp [hv])]
    simp [hv]

/-- The class and method of a call that declares a virtual method. -/
def MOp.declaresVirtual : MOp → Option Nat
  | .add c m | .addUnwrappable c m => if m.isVirtual then some c else none
  | _ => none

/-- A pure virtual method is declared virtual (`is_virtual` defaults to `is_pure_virtual`,
cppmethod.py:85-86). -/
def MOp.sane : MOp → Prop
  | .add _ m | .addUnwrappable _ m => m.isPure = true → m.isVirtual = true
  | _ => True

/-- The call does not read `have_pure_virtual_methods` of `c`. -/
def MOp.noQuery (c : Nat) : MOp → Prop
  | .query d => d ≠ c
  | _ => True

private theorem step_cache (h : Hier) (σ : St) (c : Nat) (op : MOp) (hs : op.sane) (hq : op.noQuery c)
    (hc : (σ c).cache = none) : ((mstep h σ op) c).cache = none := by
  cases op with
  | add d m =>
    rw [mstep, (add_effect h σ d _ (by exact hs) c).1]; split <;> simp [hc]
  | addFunction d s =>
    rw [mstep, (add_effect h σ d _ (by simp) c).1]; split <;> simp [hc]
  | addUnwrappable d m =>
    rw [mstep, (dummy_effect h σ d _ c).1]; split <;> simp [hc]
  | query d =>
    have hne : c ≠ d := fun e => hq e.symm
    simp only [mstep, queryAbstract]
    split
    · exact hc
    · simp only [St.put_ne _ _ hne]; exact hc
  | disable d b =>
    simp only [mstep, setDisabled, St.put]
    split
    · rename_i e; subst e; exact hc
    · exact hc

/-- The cached answer is up to date. -/
private def Fresh (h : Hier) (σ : St) (c : Nat) : Prop :=
  (σ c).cache = none ∨ (σ c).cache = some (computeAbstract h σ c)

private theorem step_fresh (h : Hier) (σ : St) (c : Nat) (op : MOp) (hs : op.sane)
    (ha : ∀ d, op.declaresVirtual = some d → Ancestor h d c → d = c)
    (hc : Fresh h σ c) : Fresh h (mstep h σ op) c := by
  cases op with
  | add d m =>
    have heff := add_effect h σ d { m with isDummy := false, isCpp := true } hs
    by_cases hv : m.isVirtual = true ∧ d = c
    · left
      rw [mstep, (heff c).1]
      simp [hv.1, hv.2]
    · have hcache : ((mstep h σ (.add d m)) c).cache = (σ c).cache := by
        rw [mstep, (heff c).1, if_neg]
        exact fun hh => hv ⟨hh.2, hh.1.symm⟩
      have hcomp : computeAbstract h (mstep h σ (.add d m)) c = computeAbstract h σ c := by
        apply compute_congr
        intro e he
        rw [mstep]
        apply (heff e).2
        by_cases hed : e = d
        · right
          subst hed
          cases hvv : m.isVirtual with
          | false => simp
          | true => exact absurd ⟨hvv, ha e (by simp [MOp.declaresVirtual, hvv]) he⟩ hv
        · exact .inl hed
      unfold Fresh
      rw [hcache, hcomp]; exact hc
  | addFunction d s =>
    have heff := add_effect h σ d { sig := s, owner := d, isCpp := false } (by simp)
    have hcache : ((mstep h σ (.addFunction d s)) c).cache = (σ c).cache := by
      rw [mstep, (heff c).1, if_neg (by simp)]
    have hcomp : computeAbstract h (mstep h σ (.addFunction d s)) c = computeAbstract h σ c := by
      apply compute_congr
      intro e he
      rw [mstep]
      exact (heff e).2 (.inr rfl)
    unfold Fresh
    rw [hcache, hcomp]; exact hc
  | addUnwrappable d m =>
    have heff := dummy_effect h σ d { m with isDummy := true, isCpp := true }
    by_cases hv : m.isVirtual = true ∧ d = c
    · left
      rw [mstep, (heff c).1]
      simp [hv.1, hv.2]
    · have hcache : ((mstep h σ (.addUnwrappable d m)) c).cache = (σ c).cache := by
        rw [mstep, (heff c).1, if_neg]
        exact fun hh => hv ⟨hh.2, hh.1.symm⟩
      have hcomp : computeAbstract h (mstep h σ (.addUnwrappable d m)) c = computeAbstract h σ c := by
        apply compute_congr
        intro e he
        rw [mstep]
        apply (heff e).2
        by_cases hed : e = d
        · right
          subst hed
          cases hvv : m.isVirtual with
          | false => simp
          | true => exact absurd ⟨hvv, ha e (by simp [MOp.declaresVirtual, hvv]) he⟩ hv
        · exact .inl hed
      unfold Fresh
      rw [hcache, hcomp]; exact hc
  | query d =>
    simp only [mstep, queryAbstract]
    split
    · exact hc
    · rename_i hn
      have hcomp : ∀ v, computeAbstract h (σ.put d { σ d with cache := v }) c = computeAbstract h σ c := by
        intro v
        apply compute_congr
        intro e he
        simp only [St.put]
        split
        · rename_i e'; subst e'; rfl
        · rfl
      unfold Fresh
      rw [hcomp]
      by_cases hdc : c = d
      · subst hdc; simp
      · simp only [St.put_ne _ _ hdc]; exact hc
  | disable d b =>
    have hcomp : computeAbstract h (mstep h σ (.disable d b)) c = computeAbstract h σ c := by
      apply compute_congr
      intro e he
      simp only [mstep, setDisabled, St.put]
      split
      · rename_i e'; subst e'; rfl
      · rfl
    have hcache : ((mstep h σ (.disable d b)) c).cache = (σ c).cache := by
      simp only [mstep, setDisabled, St.put]
      split
      · rename_i e'; subst e'; rfl
      · rfl
    unfold Fresh
    rw [hcache, hcomp]; exact hc

/-- C34 (partial: no virtual method is declared on a proper ancestor once the answer for the class
has been read): reading `have_pure_virtual_methods` gives the answer for the declarations as they
are now, whatever the history. -/
theorem C34_query_current_partial (h : Hier) (allow sing : Nat → Bool) (c : Nat) (h1 h2 : List MOp)
    (hs : ∀ op ∈ h1 ++ h2, op.sane) (hq : ∀ op ∈ h1, op.noQuery c)
    (ha : ∀ op ∈ h2, ∀ d, op.declaresVirtual = some d → Ancestor h d c → d = c) :
    (queryAbstract h (mrun h (fresh allow sing) (h1 ++ h2)) c).1 =
      computeAbstract h (mrun h (fresh allow sing) (h1 ++ h2)) c := by
  have r1 : ∀ (l : List MOp) (σ : St), (∀ op ∈ l, op.sane ∧ op.noQuery c) → (σ c).cache = none →
      ((mrun h σ l) c).cache = none := by
    intro l
    induction l with
    | nil => intro σ _ hc; exact hc
    | cons op ops ih =>
      intro σ hl hc
      exact ih (mstep h σ op) (fun o ho => hl o (List.mem_cons_of_mem _ ho))
        (step_cache h σ c op (hl op (by simp)).1 (hl op (by simp)).2 hc)
  have r2 : ∀ (l : List MOp) (σ : St), (∀ op ∈ l, op.sane ∧
      ∀ d, op.declaresVirtual = some d → Ancestor h d c → d = c) → Fresh h σ c → Fresh h (mrun h σ l) c := by
    intro l
    induction l with
    | nil => intro σ _ hc; exact hc
    | cons op ops ih =>
      intro σ hl hc
      exact ih (mstep h σ op) (fun o ho => hl o (List.mem_cons_of_mem _ ho))
        (step_fresh h σ c op (hl op (by simp)).1 (hl op (by simp)).2 hc)
  have f : Fresh h (mrun h (fresh allow sing) (h1 ++ h2)) c := by
    have : mrun h (fresh allow sing) (h1 ++ h2) = mrun h (mrun h (fresh allow sing) h1) h2 := by
      simp [mrun, List.foldl_append]
    rw [this]
    apply r2
    · intro op ho; exact ⟨hs op (by simp [ho]), ha op ho⟩
    · left
      apply r1
      · intro op ho; exact ⟨hs op (by simp [ho]), hq op ho⟩
      · rfl
  unfold queryAbstract
  rcases f with f | f
  · rw [f]
  · rw [f]

/-! ## Examples and counterexamples -/

/-- A hierarchy given by its list of base lists; entries that are not older classes are dropped. -/
def hierOf (l : List (List Nat)) : Hier where
  bases c := (l.getD c []).filter (· < c)
  acyclic c b h := by simpa using (List.mem_filter.1 h).2

def sigF : Sig := ⟨['f'], [], false⟩

/-- `virtual void f() = 0;` -/
def pureF : Meth := { sig := sigF, owner := 0, isVirtual := true, isPure := true }

/-- `virtual void f();` -/
def implF : Meth := { sig := sigF, owner := 0, isVirtual := true }

/-- `0 <- 1 <- 2`: 0 declares `f` pure, 2 implements it. -/
example : let h := hierOf [[], [0], [1]]
    let σ := mrun h (fresh (fun _ => true) (fun _ => false)) [.add 0 pureF, .add 2 implF]
    (∀ c, c < 3 → (h.bases c).length ≤ 1) ∧ computeAbstract h σ 0 = true ∧
      computeAbstract h σ 1 = true ∧ computeAbstract h σ 2 = false := by
  have m0 : (hierOf [[], [0], [1]]).mro 0 = [0] := mro_nil (by decide)
  have m1 : (hierOf [[], [0], [1]]).mro 1 = [1, 0] := by rw [mro_single (p := 0) (by decide), m0]
  have m2 : (hierOf [[], [0], [1]]).mro 2 = [2, 1, 0] := by rw [mro_single (p := 1) (by decide), m1]
  refine ⟨by decide, ?_, ?_, ?_⟩ <;>
  · simp [computeAbstract, mrun, mstep, addMethodObj, getHelper, m0, m1, m2]
    decide

/-- A history that meets the hypotheses of `C34_query_current_partial`, reading class 1 twice. -/
example : let h := hierOf [[], [0]]
    (∀ op ∈ [MOp.add 0 pureF] ++ [.query 1, .add 1 implF, .query 1], op.sane) ∧
    (∀ op ∈ [MOp.add 0 pureF], op.noQuery 1) ∧
    (∀ op ∈ [MOp.query 1, .add 1 implF, .query 1], ∀ d, op.declaresVirtual = some d → Ancestor h d 1 → d = 1) := by
  refine ⟨by simp [MOp.sane, pureF, implF], by simp [MOp.noQuery], ?_⟩
  intro op ho d hd _
  simp at ho
  rcases ho with rfl | rfl | rfl <;> simp [MOp.declaresVirtual, implF] at hd
  exact hd.symm

/-- `X(P, Q)`, `P : A`: classes A=0, P=1, Q=2, X=3. -/
def sibling : Hier := hierOf [[], [0], [], [1, 2]]

def siblingState : St :=
  mrun sibling (fresh (fun _ => false) (fun _ => false)) [.add 0 pureF, .add 2 implF]

private theorem sibling_mro : sibling.mro 3 = [3, 1, 2, 0] := by
  simp [Hier.mro, Hier.mroLoop, Hier.fresh, sibling, hierOf]

/-- C34 fails with several bases: a method of an unrelated base `Q` that happens to have the
signature of `A`'s pure virtual method counts as its implementation, so the abstract class `X` is
reported as concrete. -/
theorem C34_sibling_counterexample : WellFormed siblingState ∧ IsAbstract sibling siblingState 3 ∧
    computeAbstract sibling siblingState 3 = false := by
  have d0 : (siblingState 0).declared = [{ pureF with owner := 0 }] := by
    simp [siblingState, mrun, mstep, addMethodObj, getHelper, pureF, implF, St.put, fresh,
      ClsM.declared, ClsM.allMethods, addToOverloads]
  have d2 : (siblingState 2).declared = [{ implF with owner := 2 }] := by
    simp [siblingState, mrun, mstep, addMethodObj, getHelper, pureF, implF, St.put, fresh,
      ClsM.declared, ClsM.allMethods, addToOverloads]
  have dn : ∀ d, d ≠ 0 → d ≠ 2 → (siblingState d).declared = [] := by
    intro d h0 h2
    simp [siblingState, mrun, mstep, addMethodObj, getHelper, pureF, implF, St.put, fresh, h0, h2,
      ClsM.declared, ClsM.allMethods]
  refine ⟨?_, ⟨0, sigF, ?_, ⟨{ pureF with owner := 0 }, by rw [d0]; simp, rfl, rfl, rfl⟩, ?_⟩, ?_⟩
  · intro d
    by_cases h0 : d = 0
    · subst h0; rw [d0]; simp [pureF]
    · by_cases h2 : d = 2
      · subst h2; rw [d2]; simp [implF]
      · rw [dn d h0 h2]; simp
  · exact (C33_mro_mem _ _ _).1 (by rw [sibling_mro]; simp)
  · intro e he h0 hne hd
    obtain ⟨m, hm, _⟩ := hd
    by_cases h2 : e = 2
    · subst h2
      have := (C33_mro_mem sibling 2 0).2 h0
      rw [mro_nil (h := sibling) (by decide)] at this
      simp at this
    · rw [dn e hne h2] at hm; cases hm
  · simp only [computeAbstract, sibling_mro, List.reverse_cons, List.reverse_nil, List.nil_append,
      List.cons_append, List.map_cons, List.map_nil, d0, d2, dn 1 (by decide) (by decide),
      dn 3 (by decide) (by decide)]
    decide

/-- C34: an answer that was read once goes stale when a base gets a pure virtual method later. -/
theorem C34_stale_counterexample :
    let h := hierOf [[], [0]]
    let σ := mrun h (fresh (fun _ => false) (fun _ => false)) [.query 1, .add 0 pureF]
    (queryAbstract h σ 1).1 = false ∧ computeAbstract h σ 1 = true := by
  have m1 : (hierOf [[], [0]]).mro 1 = [1, 0] := by
    rw [mro_single (p := 0) (by decide), mro_nil (by decide)]
  have m0 : (hierOf [[], [0]]).mro 0 = [0] := mro_nil (by decide)
  constructor <;>
  · simp [queryAbstract, computeAbstract, mrun, mstep, addMethodObj, getHelper, m0, m1, fresh, St.put]
    try decide

end Verif.CppClass
