import Verif.CppClass.Classes

/-!
# C35, C37 (root), C52, C53, C54: what a class inherits from its bases
-/
namespace Verif.CppClass
open Verif

/-! ## Queries -/

/-- `_get_all_helper_class_hooks`, cppclass.py:1050-1059. -/
def allHooks (w : World) (h : Acyclic w) (c : Nat) : List Nat :=
  ((w.hier h).mro c).foldl (fun l cls => (w.cls cls).hooks ++ l) []

/-- `get_instance_creation_function`, cppclass.py:1080-1086; after the loop `cls` is the last class of
the MRO. -/
def instanceCreator (w : World) (h : Acyclic w) (c : Nat) : Creator :=
  match ((w.hier h).mro c).findSome? (fun d => (w.cls d).creator) with
  | some f => .user f
  | none =>
    match ((w.hier h).mro c).getLast?.bind (fun d => (w.cls d).policy) with
    | some p => p.creator
    | none => .dflt

/-- `get_post_instance_creation_function`, cppclass.py:1088-1092. -/
def postInstanceCreator (w : World) (h : Acyclic w) (c : Nat) : Option Nat :=
  ((w.hier h).mro c).findSome? (fun d => (w.cls d).postCreator)

/-- The `while` loop of `get_type_narrowing_root`, cppclass.py:1302-1306; `parent` is the first
base (cppclass.py:683, 685). -/
def narrowingLoop (w : World) (h : Acyclic w) (root : Nat) : Nat :=
  match hb : (w.cls root).bases with
  | [] => root
  | p :: _ => if (w.cls p).narrowing then narrowingLoop w h p else root
termination_by root
decreasing_by exact h root p (by rw [hb]; simp)

/-- `get_type_narrowing_root`, cppclass.py:1296-1306. -/
def narrowingRoot (w : World) (h : Acyclic w) (c : Nat) : Option Nat :=
  if (w.cls c).narrowing then some (narrowingLoop w h c) else none

/-! ## C35: memory policies -/

private theorem inheritPolicy_ok {w : World} {g : Option Policy} {bs : List Nat} {r : Option Policy}
    (h : inheritPolicy w g bs = .ok r) :
    r = (bs.findSome? fun b => (w.cls b).policy).or g ∧
    ((bs.findSome? fun b => (w.cls b).policy) ≠ none → g = none) := by
  induction bs with
  | nil => cases h; simp
  | cons b bs ih =>
    unfold inheritPolicy at h
    rw [List.findSome?_cons]
    split at h
    · rename_i p hp
      split at h
      · rename_i hg; cases h; simp [hp, hg]
      · cases h
    · rename_i hp; rw [hp]; exact ih h

private theorem newClass_ok {s : Settings} {w : World} {a : CtorArgs} {x : Cls}
    (h : newClass s w a = .ok x) :
    legacyPolicy a = .ok x.declared ∧ inheritPolicy w x.declared x.bases = .ok x.policy ∧
    x.narrowing = inheritNarrowing s w x.bases a.narrowing ∧
    inheritSubclassing s w x.bases a.allowSubclassing a.destructor = .ok x.allowSubclassing ∧
    x.hooks = [] ∧ x.creator = none ∧ x.postCreator = none ∧ x.helperDisabled = false := by
  have hb' := newClass_bases h
  unfold newClass at h
  simp only [bind, Except.bind] at h
  cases hb : basesOf a.parent with
  | error e => simp [hb] at h
  | ok bs =>
    simp only [hb] at h
    cases hl : legacyPolicy a with
    | error e => simp [hl] at h
    | ok g =>
      simp only [hl] at h
      cases hp : inheritPolicy w g bs with
      | error e => simp [hp] at h
      | ok p =>
        simp only [hp] at h
        cases hs : inheritSubclassing s w bs a.allowSubclassing a.destructor with
        | error e => simp [hs] at h
        | ok v => simp only [hs] at h; cases h; simp_all

/-- C35: creating a class.  Its policy is the policy of the first base that has one; if no base has
one it is the policy given to the class itself. -/
theorem C35_created (s : Settings) (w : World) (a : CtorArgs) (x : Cls)
    (h : newClass s w a = .ok x) :
    (∀ p, (x.bases.findSome? fun b => (w.cls b).policy) = some p → x.policy = some p) ∧
    ((∀ b ∈ x.bases, (w.cls b).policy = none) → .ok x.policy = legacyPolicy a) := by
  obtain ⟨hl, hp, _⟩ := newClass_ok h
  obtain ⟨h1, _⟩ := inheritPolicy_ok hp
  refine ⟨fun p hf => by rw [h1, hf]; rfl, fun hn => ?_⟩
  rw [hl, h1, List.findSome?_eq_none_iff.2 hn]
  rfl

/-- C35: a class can not be given a policy of its own when a base already has one: the constructor
fails and no class is made. -/
theorem C35_no_override (s : Settings) (w : World) (a : CtorArgs) (bs : List Nat) (g : Policy)
    (hb : basesOf a.parent = .ok bs) (hg : legacyPolicy a = .ok (some g))
    (hp : ∃ b ∈ bs, (w.cls b).policy ≠ none) :
    newClass s w a = .error .assertionError := by
  have : inheritPolicy w (some g) bs = .error .assertionError := by
    clear hb
    induction bs with
    | nil => obtain ⟨b, hb, _⟩ := hp; simp at hb
    | cons b bs ih =>
      unfold inheritPolicy
      split
      · simp
      · rename_i hn
        apply ih
        obtain ⟨c, hc, hcn⟩ := hp
        rcases List.mem_cons.1 hc with rfl | hc
        · exact absurd hn hcn
        · exact ⟨c, hc, hcn⟩
  simp [newClass, hb, hg, this, bind, Except.bind]

/-- What every reachable collection satisfies. -/
structure PolicyInv (w : World) : Prop where
  policy : ∀ c, (w.cls c).policy =
    ((w.cls c).bases.findSome? fun b => (w.cls b).policy).or (w.cls c).declared
  declared : ∀ c, ((w.cls c).bases.findSome? fun b => (w.cls b).policy) ≠ none → (w.cls c).declared = none

private theorem findSome_congr {w w' : World} {l : List Nat}
    (h : ∀ b ∈ l, (w'.cls b).policy = (w.cls b).policy) :
    (l.findSome? fun b => (w'.cls b).policy) = (l.findSome? fun b => (w.cls b).policy) := by
  induction l with
  | nil => rfl
  | cons x xs ih =>
    rw [List.findSome?_cons, List.findSome?_cons, h x (by simp), ih (fun b hb => h b (by simp [hb]))]

private theorem inv_set {w : World} (hw : PolicyInv w) {d : Nat} {x : Cls} (hd : d < w.length)
    (h1 : x.bases = (w.cls d).bases) (h2 : x.policy = (w.cls d).policy)
    (h3 : x.declared = (w.cls d).declared) : PolicyInv (w.set d x) := by
  have hb : ∀ c, (World.cls (w.set d x) c).bases = (w.cls c).bases := by
    intro c; rw [cls_set hd]; split
    · rename_i e; subst e; exact h1
    · rfl
  have hp : ∀ c, (World.cls (w.set d x) c).policy = (w.cls c).policy := by
    intro c; rw [cls_set hd]; split
    · rename_i e; subst e; exact h2
    · rfl
  have hdd : ∀ c, (World.cls (w.set d x) c).declared = (w.cls c).declared := by
    intro c; rw [cls_set hd]; split
    · rename_i e; subst e; exact h3
    · rfl
  constructor
  · intro c
    rw [hp, hb, hdd, findSome_congr (fun b _ => hp b)]
    exact hw.policy c
  · intro c
    rw [hb, hdd, findSome_congr (fun b _ => hp b)]
    exact hw.declared c

theorem policyInv_of_reachable {s : Settings} {w : World} (h : Reachable s w) : PolicyInv w := by
  induction h with
  | start => constructor <;> intro c <;> simp [World.cls]
  | @step w op hr hm ih =>
    cases op with
    | new a =>
      simp only [step]
      split
      · rename_i x hx
        have hac := acyclic_of_reachable hr
        have hxb : ∀ b ∈ x.bases, b < w.length := fun b hb =>
          hm b (mem_mentions_of_bases (newClass_bases hx) b hb)
        obtain ⟨_, hp, _⟩ := newClass_ok hx
        obtain ⟨h1, h2⟩ := inheritPolicy_ok hp
        have hf : ∀ l : List Nat, (∀ b ∈ l, b < w.length) →
            (l.findSome? fun b => (World.cls (w ++ [x]) b).policy) =
            (l.findSome? fun b => (w.cls b).policy) := fun l hl =>
          findSome_congr (fun b hb => by rw [cls_append_lt (hl b hb)])
        constructor
        · intro c
          rcases Nat.lt_trichotomy c w.length with hc | hc | hc
          · rw [cls_append_lt hc, hf _ (fun b hb => Nat.lt_trans (hac c b hb) hc)]
            exact ih.policy c
          · subst hc; rw [cls_append_eq, hf _ hxb]; exact h1
          · rw [cls_ge (by simp; omega)]; simp
        · intro c
          rcases Nat.lt_trichotomy c w.length with hc | hc | hc
          · rw [cls_append_lt hc, hf _ (fun b hb => Nat.lt_trans (hac c b hb) hc)]
            exact ih.declared c
          · subst hc; rw [cls_append_eq, hf _ hxb]; exact h2
          · rw [cls_ge (by simp; omega)]; simp
      · exact ih
    | addHook d f => exact inv_set ih (hm d (by simp [Op.mentions])) rfl rfl rfl
    | setCreator d f => exact inv_set ih (hm d (by simp [Op.mentions])) rfl rfl rfl
    | setPostCreator d f => exact inv_set ih (hm d (by simp [Op.mentions])) rfl rfl rfl
    | setHelperDisabled d f => exact inv_set ih (hm d (by simp [Op.mentions])) rfl rfl rfl

private theorem ancestor_trans {h : Hier} {a b c : Nat} (hab : Ancestor h a b) (hb : b ∈ h.bases c) :
    Ancestor h a c := by
  obtain ⟨n, hp⟩ := hab
  refine ⟨n + 1, ?_⟩
  induction hp with
  | refl x => exact .step (.refl c) hb
  | step _ hx ih => exact .step (ih hb) hx

/-- C35: in every reachable collection the policy of a class was declared by the class itself or by
one ancestor `r`, and nothing above `r` has a policy; so every policy has a well-defined root. -/
theorem C35_policy_root (s : Settings) (w : World) (hr : Reachable s w) (c : Nat) (p : Policy)
    (hp : (w.cls c).policy = some p) :
    ∃ r, Ancestor (w.hier (acyclic_of_reachable hr)) r c ∧ (w.cls r).declared = some p ∧
      ∀ b ∈ (w.cls r).bases, (w.cls b).policy = none := by
  have inv := policyInv_of_reachable hr
  induction c using Nat.strongRecOn with
  | ind c ih =>
    have h1 := inv.policy c
    cases hf : (w.cls c).bases.findSome? fun b => (w.cls b).policy with
    | none =>
      rw [hf] at h1
      simp only [Option.none_or] at h1
      exact ⟨c, ⟨0, .refl c⟩, by rw [← h1, hp], List.findSome?_eq_none_iff.1 hf⟩
    | some q =>
      rw [hf] at h1
      simp only [Option.some_or] at h1
      rw [hp] at h1
      cases h1
      obtain ⟨b, hb, hbp⟩ := List.exists_of_findSome?_eq_some hf
      obtain ⟨r, ha, hd, hn⟩ := ih b (acyclic_of_reachable hr c b hb) hbp
      exact ⟨r, ancestor_trans ha hb, hd, hn⟩

/-- C35: a class has a policy exactly when it or an ancestor was given one. -/
theorem C35_has_policy_iff (s : Settings) (w : World) (hr : Reachable s w) (c : Nat) :
    (w.cls c).policy ≠ none ↔
    ∃ r, Ancestor (w.hier (acyclic_of_reachable hr)) r c ∧ (w.cls r).declared ≠ none := by
  constructor
  · intro h
    cases hp : (w.cls c).policy with
    | none => exact absurd hp h
    | some p =>
      obtain ⟨r, ha, hd, _⟩ := C35_policy_root s w hr c p hp
      exact ⟨r, ha, by simp [hd]⟩
  · rintro ⟨r, ⟨n, hn⟩, hd⟩
    have inv := policyInv_of_reachable hr
    have key : ∀ x, (w.cls x).policy ≠ none → ∀ n y, Path (w.hier (acyclic_of_reachable hr)) n y x →
        (w.cls y).policy ≠ none := by
      intro x hx n
      induction n generalizing x with
      | zero => intro y hy; cases hy; exact hx
      | succ n ih =>
        intro y hy
        cases hy with
        | step h1 h2 =>
          rename_i b
          refine ih b ?_ y h1
          have := inv.policy b
          rw [this]
          intro hc
          rw [Option.or_eq_none_iff] at hc
          exact hx (List.findSome?_eq_none_iff.1 hc.1 x h2)
    refine key r ?_ n c hn
    have := inv.policy r
    intro hc
    rw [hc] at this
    exact hd (Option.or_eq_none_iff.1 this.symm).2

/-- C35 (partial: single inheritance): all descendants of a class with a policy have that policy. -/
theorem C35_descendants_share_partial (s : Settings) (w : World) (hr : Reachable s w)
    (hs : ∀ c, (w.cls c).bases.length ≤ 1) (c r : Nat) (p : Policy)
    (ha : Ancestor (w.hier (acyclic_of_reachable hr)) r c) (hp : (w.cls r).policy = some p) :
    (w.cls c).policy = some p := by
  obtain ⟨n, hn⟩ := ha
  have inv := policyInv_of_reachable hr
  induction n generalizing r with
  | zero => cases hn; exact hp
  | succ n ih =>
    cases hn with
    | step h1 h2 =>
      rename_i b
      refine ih b ?_ h1
      rw [inv.policy b]
      have hl := hs b
      have h2' : r ∈ (w.cls b).bases := h2
      match hbb : (w.cls b).bases, hl, h2' with
      | [], _, h2' => simp at h2'
      | [x], _, h2' => simp at h2'; subst h2'; simp [hp]
      | x :: y :: l, hl, _ => simp at hl

/-- Two roots with different policies and a class with both as bases. -/
def twoPolicies : World :=
  step {} (step {} (step {} [] (.new { memoryPolicy := some (.freeFunction ['f']) }))
    (.new { memoryPolicy := some (.refFunctions ['i'] ['d']) })) (.new { parent := .many [0, 1] })

theorem twoPolicies_reachable : Reachable {} twoPolicies :=
  .step (.step (.step .start (by simp [Op.mentions])) (by simp [Op.mentions]))
    (by intro c hc; simp [Op.mentions] at hc; rcases hc with rfl | rfl <;> decide)

/-- C35 fails for multiple inheritance: the policy of a second base is dropped silently, so an
object is not freed the way that base says. -/
theorem C35_second_policy_dropped_counterexample :
    Reachable {} twoPolicies ∧ (twoPolicies.cls 2).bases = [0, 1] ∧
    (twoPolicies.cls 1).policy = some (.refFunctions ['i'] ['d']) ∧
    (twoPolicies.cls 2).policy = some (.freeFunction ['f']) :=
  ⟨twoPolicies_reachable, by decide, by decide, by decide⟩

example : ∃ w, ∃ hr : Reachable {} w, (∀ c, (w.cls c).bases.length ≤ 1) ∧
    Ancestor (w.hier (acyclic_of_reachable hr)) 0 1 ∧
    (w.cls 0).policy = some (.freeFunction ['f']) := by
  refine ⟨step {} (step {} [] (.new { memoryPolicy := some (.freeFunction ['f']) })) (.new { parent := .one 0 }),
    .step (.step .start (by simp [Op.mentions])) (by simp [Op.mentions]; decide), ?_, ?_, by decide⟩
  · intro c
    match c with
    | 0 => decide
    | 1 => decide
    | n + 2 => rw [cls_ge (by change 2 ≤ n + 2; omega)]; simp
  · exact ⟨1, .step (.refl 1) (by decide)⟩

example : newClass {} twoPolicies { parent := .one 0, memoryPolicy := some (.custom 1) } =
    .error .assertionError :=
  C35_no_override _ _ _ [0] (.custom 1) rfl rfl ⟨0, by simp, by decide⟩

/-! ## C37: the type narrowing root -/

/-- One step to the first base, when that base has narrowing switched on. -/
def NarrowStep (w : World) (x y : Nat) : Prop :=
  (w.cls x).bases.head? = some y ∧ (w.cls y).narrowing = true

private theorem narrowingLoop_spec (w : World) (h : Acyclic w) (c : Nat) :
    Relation.ReflTransGen (NarrowStep w) c (narrowingLoop w h c) ∧
    ∀ y, ¬ NarrowStep w (narrowingLoop w h c) y := by
  induction c using Nat.strongRecOn with
  | ind c ih =>
    rw [narrowingLoop]
    split
    · rename_i hb
      exact ⟨.refl, fun y hy => by simp [NarrowStep, hb] at hy⟩
    · rename_i p ps hb
      split
      · rename_i hn
        obtain ⟨h1, h2⟩ := ih p (h c p (by rw [hb]; simp))
        exact ⟨.head ⟨by rw [hb]; rfl, hn⟩ h1, h2⟩
      · rename_i hn
        exact ⟨.refl, fun y hy => by
          simp only [NarrowStep, hb, List.head?_cons, Option.some.injEq] at hy
          obtain ⟨rfl, hy⟩ := hy; exact hn hy⟩

private theorem narrow_of_reach {w : World} {c r : Nat} (hc : (w.cls c).narrowing = true)
    (h : Relation.ReflTransGen (NarrowStep w) c r) : (w.cls r).narrowing = true := by
  cases h with
  | refl => exact hc
  | tail _ h => exact h.2

private theorem narrowingLoop_fix (w : World) (h : Acyclic w) (r : Nat)
    (hr : ∀ y, ¬ NarrowStep w r y) : narrowingLoop w h r = r := by
  rw [narrowingLoop]
  split
  · rfl
  · rename_i p ps hb
    split
    · rename_i hn; exact absurd ⟨by rw [hb]; rfl, hn⟩ (hr p)
    · rfl

/-- C37: the narrowing root of a class exists exactly when narrowing is on for the class; it is
reached through first bases that all have narrowing on, no further step is possible from it, and it
is its own root, so the typeid map all these classes register with exists. -/
theorem C37_narrowing_root (w : World) (h : Acyclic w) (c : Nat) :
    ((w.cls c).narrowing = false → narrowingRoot w h c = none) ∧
    ((w.cls c).narrowing = true → ∃ r, narrowingRoot w h c = some r ∧
      Relation.ReflTransGen (NarrowStep w) c r ∧ (w.cls r).narrowing = true ∧
      (∀ y, ¬ NarrowStep w r y) ∧ narrowingRoot w h r = some r) := by
  constructor
  · intro hf; simp [narrowingRoot, hf]
  · intro ht
    obtain ⟨h1, h2⟩ := narrowingLoop_spec w h c
    refine ⟨narrowingLoop w h c, by simp [narrowingRoot, ht], h1, narrow_of_reach ht h1, h2, ?_⟩
    simp [narrowingRoot, narrow_of_reach ht h1, narrowingLoop_fix w h _ h2]

/-- C37: classes that share a narrowing chain share the root, hence the typeid map. -/
theorem C37_same_map (w : World) (h : Acyclic w) (c d : Nat) (hd : (w.cls c).narrowing = true)
    (hcd : Relation.ReflTransGen (NarrowStep w) c d) :
    narrowingRoot w h c = narrowingRoot w h d := by
  have hl : narrowingLoop w h c = narrowingLoop w h d := by
    induction hcd using Relation.ReflTransGen.head_induction_on with
    | refl => rfl
    | @head a b hab _ ih =>
      rw [narrowingLoop]
      split
      · rename_i hb; simp [NarrowStep, hb] at hab
      · rename_i p ps hb
        have : p = b := by have := hab.1; rw [hb] at this; simpa using this
        subst this
        rw [if_pos hab.2]
        exact ih hab.2
  simp [narrowingRoot, hd, narrow_of_reach hd hcd, hl]

/-- Three classes in a line, narrowing on from the second. -/
def narrowWorld : World :=
  step {} (step {} (step {} [] (.new {})) (.new { parent := .one 0, narrowing := some true }))
    (.new { parent := .one 1 })

example : (narrowWorld.cls 2).narrowing = true ∧ NarrowStep narrowWorld 2 1 ∧ ¬ NarrowStep narrowWorld 1 0 :=
  ⟨by decide, ⟨by decide, by decide⟩, fun h => by have := h.2; revert this; decide⟩

/-! ## C52: permission to subclass -/

/-- C52: subclassing can not be switched off below a class that allows it. -/
theorem C52_cannot_disable (s : Settings) (w : World) (a : CtorArgs) (bs : List Nat)
    (hb : basesOf a.parent = .ok bs) (hf : a.allowSubclassing = some false)
    (hp : ∃ b ∈ bs, (w.cls b).allowSubclassing = true) :
    ∃ e, newClass s w a = .error e := by
  cases hn : newClass s w a with
  | error e => exact ⟨e, rfl⟩
  | ok x =>
    exfalso
    obtain ⟨_, _, _, hs, _⟩ := newClass_ok hn
    have : x.bases = bs := by have := newClass_bases hn; rw [hb] at this; cases this; rfl
    rw [this] at hs
    have ha : (bs.any fun b => (w.cls b).allowSubclassing) = true := by simpa using hp
    simp [inheritSubclassing, hf, ha, bind, Except.bind] at hs

/-- C52 (partial: the flag is given explicitly, or the base that allows subclassing is the first):
a class derived from one that can be subclassed can be subclassed, unless its destructor is
private. -/
theorem C52_inherited_partial (s : Settings) (w : World) (a : CtorArgs) (x : Cls)
    (h : newClass s w a = .ok x) (hd : a.destructor ≠ .priv) (b : Nat) (hb : b ∈ x.bases)
    (hp : (w.cls b).allowSubclassing = true)
    (hx : a.allowSubclassing ≠ none ∨ x.bases.head? = some b) : x.allowSubclassing = true := by
  obtain ⟨_, _, _, hs, _⟩ := newClass_ok h
  have ha : (x.bases.any fun b => (w.cls b).allowSubclassing) = true := by
    simpa using ⟨b, hb, hp⟩
  unfold inheritSubclassing at hs
  cases hg : a.allowSubclassing with
  | none =>
    rcases hx with hx | hx
    · exact absurd hg hx
    · cases hbb : x.bases with
      | nil => rw [hbb] at hx; simp at hx
      | cons y ys =>
        rw [hbb] at hx
        simp only [List.head?_cons, Option.some.injEq] at hx
        subst hx
        simp [hg, hbb, hd, hp, bind, Except.bind] at hs
        exact hs
  | some v =>
    cases v with
    | false => simp [hg, ha, bind, Except.bind] at hs
    | true => simp [hg, hd, bind, Except.bind] at hs; exact hs

/-- C52 fails for a second base: with the default setting only the first base counts. -/
theorem C52_second_base_counterexample : ∃ w, Reachable {} w ∧ (w.cls 2).bases = [0, 1] ∧
    (w.cls 1).allowSubclassing = true ∧ (w.cls 2).allowSubclassing = false :=
  ⟨step {} (step {} (step {} [] (.new {})) (.new { allowSubclassing := some true })) (.new { parent := .many [0, 1] }),
   .step (.step (.step .start (by simp [Op.mentions])) (by simp [Op.mentions]))
    (by intro c hc; simp [Op.mentions] at hc; rcases hc with rfl | rfl <;> decide),
   by decide, by decide, by decide⟩

example : ∃ x, newClass {} [⟨[], none, false, true, false, none, [], none, none, false⟩] { parent := .one 0 } = .ok x ∧
    x.bases.head? = some 0 ∧ x.allowSubclassing = true := ⟨_, rfl, by decide, by decide⟩

/-! ## C53: helper class hooks -/

private theorem foldl_hooks (g : Nat → List Nat) (l : List Nat) (acc : List Nat) :
    l.foldl (fun a c => g c ++ a) acc = l.reverse.flatMap g ++ acc := by
  induction l generalizing acc with
  | nil => rfl
  | cons x xs ih => simp [ih, List.flatMap_append, List.append_assoc]

private theorem allHooks_eq (w : World) (h : Acyclic w) (c : Nat) :
    allHooks w h c = ((w.hier h).mro c).reverse.flatMap (fun d => (w.cls d).hooks) := by
  rw [allHooks, foldl_hooks, List.append_nil]

/-- C53: the hooks that run for a class are exactly the hooks registered on it and on its
ancestors; its own hooks come last, in registration order. -/
theorem C53_hooks (w : World) (h : Acyclic w) (c : Nat) :
    (∀ f, f ∈ allHooks w h c ↔ ∃ d, Ancestor (w.hier h) d c ∧ f ∈ (w.cls d).hooks) ∧
    ∃ before, allHooks w h c = before ++ (w.cls c).hooks := by
  rw [allHooks_eq]
  constructor
  · intro f
    simp [C33_mro_mem]
  · obtain ⟨hh, _⟩ := C33_mro_order (w.hier h) c
    cases hm : (w.hier h).mro c with
    | nil => rw [hm] at hh; simp at hh
    | cons x xs =>
      rw [hm] at hh
      simp at hh
      subst hh
      exact ⟨xs.reverse.flatMap (fun d => (w.cls d).hooks), by rw [List.reverse_cons, List.flatMap_append]; simp⟩

private theorem mroLoop_congr (h : Hier) (m : Nat) (q v v' : List Nat) (hq : ∀ x ∈ q, x ≤ m)
    (hv : ∀ x, x ≤ m → (x ∈ v ↔ x ∈ v')) : h.mroLoop q v = h.mroLoop q v' := by
  fun_induction Hier.mroLoop h q v generalizing v' with
  | case1 v => rw [Hier.mroLoop]
  | case2 c q v ih =>
    rw [Hier.mroLoop]
    have hv2 : ∀ x, x ≤ m → (x ∈ c :: v ↔ x ∈ c :: v') := by
      intro x hx; simp [hv x hx]
    have hf : h.fresh c (c :: v) = h.fresh c (c :: v') := by
      unfold Hier.fresh
      apply List.filter_congr
      intro b hb
      have hlt := h.acyclic c b hb
      have := hv2 b (by have := hq c (by simp); omega)
      simp only [List.contains_eq_mem]
      rw [decide_eq_decide.2 this]
    rw [ih (c :: v') ?_ hv2, hf]
    intro x hx
    rcases List.mem_append.1 hx with hx | hx
    · exact hq x (by simp [hx])
    · have hb := h.acyclic c x (List.mem_filter.1 hx).1
      have := hq c (by simp)
      omega

theorem mro_nil {h : Hier} {c : Nat} (hb : h.bases c = []) : h.mro c = [c] := by
  simp [Hier.mro, Hier.mroLoop, Hier.fresh, hb]

theorem mro_single {h : Hier} {c p : Nat} (hb : h.bases c = [p]) : h.mro c = c :: h.mro p := by
  have hlt := h.acyclic c p (by rw [hb]; simp)
  have hne : p ≠ c := by omega
  rw [Hier.mro, Hier.mroLoop]
  simp only [Hier.fresh, hb, List.nil_append]
  have : [p].filter (fun b => ![c].contains b) = [p] := by simp [hne]
  rw [this, Hier.mro]
  congr 1
  apply mroLoop_congr h p
  · simp
  · intro x hx; simp; omega

/-- C53 (partial: single inheritance): every hook runs once per registration, the hooks of the
parent and everything above it before the hooks of the class. -/
theorem C53_hooks_once_partial (w : World) (h : Acyclic w) (c : Nat) :
    ((w.cls c).bases = [] → allHooks w h c = (w.cls c).hooks) ∧
    (∀ p, (w.cls c).bases = [p] → allHooks w h c = allHooks w h p ++ (w.cls c).hooks) := by
  constructor
  · intro hb
    rw [allHooks_eq, mro_nil (h := w.hier h) hb]
    simp
  · intro p hb
    rw [allHooks_eq, allHooks_eq, mro_single (h := w.hier h) hb]
    simp [List.flatMap_append]

/-- A diamond whose root has one hook. -/
def hookDiamond : World :=
  [ { bases := [], policy := none, narrowing := false, allowSubclassing := true, isSingleton := false,
      declared := none, hooks := [7] },
    { bases := [0], policy := none, narrowing := false, allowSubclassing := true, isSingleton := false, declared := none },
    { bases := [0], policy := none, narrowing := false, allowSubclassing := true, isSingleton := false, declared := none },
    { bases := [1, 2], policy := none, narrowing := false, allowSubclassing := true, isSingleton := false, declared := none } ]

theorem hookDiamond_reachable : Reachable { allowSubclassing := true } hookDiamond := by
  have h : hookDiamond = step { allowSubclassing := true } (step { allowSubclassing := true }
      (step { allowSubclassing := true } (step { allowSubclassing := true } (step { allowSubclassing := true } []
        (.new {})) (.new { parent := .one 0 })) (.new { parent := .one 0 })) (.new { parent := .many [1, 2] }))
      (.addHook 0 7) := by decide
  rw [h]
  refine .step (.step (.step (.step (.step .start ?_) ?_) ?_) ?_) ?_ <;> simp only [Op.mentions] <;> decide

/-- C53 fails with a diamond: a hook of the shared ancestor runs twice on the helper class. -/
theorem C53_hook_twice_counterexample : Reachable { allowSubclassing := true } hookDiamond ∧
    ∀ h : Acyclic hookDiamond, allHooks hookDiamond h 3 = [7, 7] := by
  refine ⟨hookDiamond_reachable, fun h => ?_⟩
  rw [allHooks_eq]
  have : (World.hier hookDiamond h).mro 3 = [3, 1, 2, 0, 0] := by
    simp [Hier.mro, Hier.mroLoop, Hier.fresh, World.hier, hookDiamond, World.cls]
  rw [this]
  decide

/-! ## C54: instance creation functions -/

private theorem findSome_split {g : Nat → Option Nat} {l : List Nat} {f : Nat}
    (h : l.findSome? g = some f) : ∃ pre d post, l = pre ++ d :: post ∧ g d = some f ∧ ∀ x ∈ pre, g x = none := by
  induction l with
  | nil => simp at h
  | cons x xs ih =>
    rw [List.findSome?_cons] at h
    split at h
    · rename_i y hy; exact ⟨[], x, xs, rfl, by rw [hy, ← h], by simp⟩
    · rename_i hy
      obtain ⟨pre, d, post, rfl, hd, hpre⟩ := ih h
      exact ⟨x :: pre, d, post, rfl, hd, by
        intro z hz; rcases List.mem_cons.1 hz with rfl | hz; exact hy; exact hpre z hz⟩

private theorem nearest_of_find (w : World) (h : Acyclic w) (c f : Nat) (g : Nat → Option Nat)
    (hf : ((w.hier h).mro c).findSome? g = some f) :
    ∃ d, Ancestor (w.hier h) d c ∧ g d = some f ∧ ∀ x, Nearer (w.hier h) c x d → g x = none := by
  obtain ⟨pre, d, post, he, hd, hpre⟩ := findSome_split hf
  have hda : Ancestor (w.hier h) d c := (C33_mro_mem _ _ _).1 (by rw [he]; simp)
  refine ⟨d, hda, hd, fun x hx => ?_⟩
  have hlt := (C33_mro_order (w.hier h) c).2 x d hda hx
  have hd' : ((w.hier h).mro c).idxOf d ≤ pre.length := by
    rw [he]
    rcases Nat.lt_or_ge pre.length ((pre ++ d :: post).idxOf d) with hl | hl
    · exfalso
      have := List.not_of_lt_findIdx (p := (· == d)) (xs := pre ++ d :: post) (i := pre.length) hl
      simp at this
    · exact hl
  apply hpre
  have hx' : (pre ++ d :: post).idxOf x < pre.length := by rw [← he]; omega
  by_contra hn
  rw [List.idxOf_append_of_notMem hn] at hx'
  omega

/-- C54: a creation function that was set is used by the class and its descendants: the one used is
set on some ancestor (or the class itself) and no nearer class has one; the same holds for the
post-creation function, and it is none exactly when no class above has one. -/
theorem C54_nearest (w : World) (h : Acyclic w) (c f : Nat) :
    (instanceCreator w h c = .user f →
      ∃ d, Ancestor (w.hier h) d c ∧ (w.cls d).creator = some f ∧
        ∀ x, Nearer (w.hier h) c x d → (w.cls x).creator = none) ∧
    (postInstanceCreator w h c = some f →
      ∃ d, Ancestor (w.hier h) d c ∧ (w.cls d).postCreator = some f ∧
        ∀ x, Nearer (w.hier h) c x d → (w.cls x).postCreator = none) ∧
    (postInstanceCreator w h c = none ↔ ∀ d, Ancestor (w.hier h) d c → (w.cls d).postCreator = none) := by
  refine ⟨fun he => ?_, nearest_of_find w h c f _, ?_⟩
  · unfold instanceCreator at he
    split at he
    · rename_i g hg; cases he; exact nearest_of_find w h c f _ hg
    · split at he
      · rename_i p _; cases p <;> cases he
      · cases he
  · simp [postInstanceCreator, List.findSome?_eq_none_iff, C33_mro_mem]

/-- C54: the class's own creation function wins. -/
theorem C54_own (w : World) (h : Acyclic w) (c f : Nat) (hf : (w.cls c).creator = some f) :
    instanceCreator w h c = .user f := by
  obtain ⟨hh, _⟩ := C33_mro_order (w.hier h) c
  cases hm : (w.hier h).mro c with
  | nil => rw [hm] at hh; simp at hh
  | cons x xs =>
    rw [hm] at hh
    simp at hh
    subst hh
    simp [instanceCreator, hm, hf]

/-- C54 (partial: single inheritance with the policy declared at the root, no creation function
set): the memory policy's creation function is used. -/
theorem C54_policy_partial (s : Settings) (w : World) (hr : Reachable s w)
    (hs : ∀ c, (w.cls c).bases.length ≤ 1) (c r : Nat) (p : Policy)
    (hno : ∀ d, Ancestor (w.hier (acyclic_of_reachable hr)) d c → (w.cls d).creator = none)
    (ha : Ancestor (w.hier (acyclic_of_reachable hr)) r c) (hroot : (w.cls r).bases = [])
    (hp : (w.cls r).policy = some p) :
    (w.cls c).policy = some p ∧ instanceCreator w (acyclic_of_reachable hr) c = p.creator := by
  refine ⟨C35_descendants_share_partial s w hr hs c r p ha hp, ?_⟩
  have h := acyclic_of_reachable hr
  have hlast : ∀ c, Ancestor (w.hier h) r c → ((w.hier h).mro c).getLast? = some r := by
    intro c
    induction c using Nat.strongRecOn with
    | ind c ih =>
      intro ha
      match hb : (w.cls c).bases, hs c with
      | [], _ =>
        rw [mro_nil (h := w.hier h) hb]
        have := (C33_mro_mem _ _ _).2 ha
        rw [mro_nil (h := w.hier h) hb] at this
        simp at this; simp [this]
      | [q], _ =>
        rw [mro_single (h := w.hier h) hb]
        have hm := (C33_mro_mem _ _ _).2 ha
        rw [mro_single (h := w.hier h) hb] at hm
        rcases List.mem_cons.1 hm with rfl | hm
        · rw [hroot] at hb; cases hb
        · have := ih q (h c q (by rw [hb]; simp)) ((C33_mro_mem _ _ _).1 hm)
          rw [List.getLast?_cons, this]; rfl
      | x :: y :: l, hl => simp at hl
  unfold instanceCreator
  have hn : (((w.hier h).mro c).findSome? fun d => (w.cls d).creator) = none := by
    rw [List.findSome?_eq_none_iff]
    intro d hd
    exact hno d ((C33_mro_mem _ _ _).1 hd)
  rw [hn, hlast c ha]
  simp [hp]

/-- C54 fails when the policy is declared below the root: the policy's own creation function (that of
a smart pointer policy, say) is ignored. -/
theorem C54_policy_ignored_counterexample : ∃ w, ∃ hr : Reachable {} w,
    (w.cls 1).policy = some (.custom 5) ∧ instanceCreator w (acyclic_of_reachable hr) 1 = .dflt := by
  refine ⟨step {} (step {} [] (.new {})) (.new { parent := .one 0, memoryPolicy := some (.custom 5) }),
    .step (.step .start (by simp [Op.mentions])) (by simp [Op.mentions]; decide), by decide, ?_⟩
  have h := acyclic_of_reachable (s := {}) (.step (.step .start (by simp [Op.mentions])) (by simp [Op.mentions]; decide) :
    Reachable {} (step {} (step {} [] (.new {})) (.new { parent := .one 0, memoryPolicy := some (.custom 5) })))
  unfold instanceCreator
  rw [mro_single (h := World.hier _ h) (p := 0) (rfl), mro_nil (h := World.hier _ h) (rfl)]
  decide

example : instanceCreator twoPolicies (acyclic_of_reachable twoPolicies_reachable) 0 = Policy.creator (.freeFunction ['f']) := by
  unfold instanceCreator
  rw [mro_nil (h := World.hier _ _) (by decide)]
  decide

/-! ## Histories of calls -/

/-- Collection after a history. -/
def runOps (s : Settings) (ops : List Op) : World := ops.foldl (step s) []

/-- A history that only uses classes that exist. -/
def ValidOps (s : Settings) : World → List Op → Prop
  | _, [] => True
  | w, op :: ops => (∀ c ∈ op.mentions, c < w.length) ∧ ValidOps s (step s w op) ops

instance validOpsDecidable (s : Settings) : ∀ (w : World) (ops : List Op), Decidable (ValidOps s w ops)
  | _, [] => isTrue trivial
  | w, op :: ops =>
    have := validOpsDecidable s (step s w op) ops
    inferInstanceAs (Decidable ((∀ c ∈ op.mentions, c < w.length) ∧ ValidOps s (step s w op) ops))

/-- Hooks added to class `c`, in order. -/
def hooksAdded (c : Nat) : List Op → List Nat
  | [] => []
  | .addHook d f :: ops => if d = c then f :: hooksAdded c ops else hooksAdded c ops
  | _ :: ops => hooksAdded c ops

/-- The instance creation function set last on class `c`. -/
def creatorSet (c : Nat) : List Op → Option Nat
  | [] => none
  | .setCreator d f :: ops => if d = c then (creatorSet c ops).or (some f) else creatorSet c ops
  | _ :: ops => creatorSet c ops

/-- The post instance creation function set last on class `c`. -/
def postCreatorSet (c : Nat) : List Op → Option Nat
  | [] => none
  | .setPostCreator d f :: ops => if d = c then (postCreatorSet c ops).or (some f) else postCreatorSet c ops
  | _ :: ops => postCreatorSet c ops

private theorem history_key (s : Settings) (c : Nat) (ops : List Op) (w : World) (hv : ValidOps s w ops) :
    ((ops.foldl (step s) w).cls c).hooks = (w.cls c).hooks ++ hooksAdded c ops ∧
    ((ops.foldl (step s) w).cls c).creator = (creatorSet c ops).or (w.cls c).creator ∧
    ((ops.foldl (step s) w).cls c).postCreator = (postCreatorSet c ops).or (w.cls c).postCreator := by
  induction ops generalizing w with
  | nil => simp [hooksAdded, creatorSet, postCreatorSet]
  | cons op ops ih =>
    obtain ⟨h1, h2, h3⟩ := ih (step s w op) hv.2
    rw [List.foldl_cons, h1, h2, h3]
    have hm := hv.1
    cases op with
    | new a =>
      simp only [step, hooksAdded, creatorSet, postCreatorSet]
      split
      · next x hx =>
        obtain ⟨_, _, _, _, e1, e2, e3, _⟩ := newClass_ok hx
        rcases Nat.lt_trichotomy c w.length with hc | hc | hc
        · rw [cls_append_lt hc]; exact ⟨rfl, rfl, rfl⟩
        · subst hc
          rw [cls_append_eq, cls_ge (Nat.le_refl _), e1, e2, e3]; exact ⟨rfl, rfl, rfl⟩
        · rw [cls_ge (w := w) (by omega), cls_ge (by simp; omega)]; exact ⟨rfl, rfl, rfl⟩
      · exact ⟨rfl, rfl, rfl⟩
    | addHook d f =>
      simp only [step, hooksAdded, creatorSet, postCreatorSet]
      rw [cls_set (hm d (by simp [Op.mentions]))]
      by_cases hd : d = c
      · subst hd; simp
      · simp [hd]
    | setCreator d f =>
      simp only [step, hooksAdded, creatorSet, postCreatorSet]
      rw [cls_set (hm d (by simp [Op.mentions]))]
      by_cases hd : d = c
      · subst hd; cases creatorSet d ops <;> simp
      · simp [hd]
    | setPostCreator d f =>
      simp only [step, hooksAdded, creatorSet, postCreatorSet]
      rw [cls_set (hm d (by simp [Op.mentions]))]
      by_cases hd : d = c
      · subst hd; cases postCreatorSet d ops <;> simp
      · simp [hd]
    | setHelperDisabled d f =>
      simp only [step, hooksAdded, creatorSet, postCreatorSet]
      rw [cls_set (hm d (by simp [Op.mentions]))]
      by_cases hd : d = c
      · subst hd; simp
      · simp [hd]

/-- C53: the hooks of a class are those added to it, in the order of the calls. -/
theorem C53_own_hooks (s : Settings) (ops : List Op) (hv : ValidOps s [] ops) (c : Nat) :
    ((runOps s ops).cls c).hooks = hooksAdded c ops := by
  have := (history_key s c ops [] hv).1
  simpa [runOps, World.cls] using this

/-- C54: the functions a class itself has are those set last. -/
theorem C54_last_set (s : Settings) (ops : List Op) (hv : ValidOps s [] ops) (c : Nat) :
    ((runOps s ops).cls c).creator = creatorSet c ops ∧ ((runOps s ops).cls c).postCreator = postCreatorSet c ops := by
  have := (history_key s c ops [] hv).2
  simpa [runOps, World.cls] using this

example : ValidOps {} [] [.new {}, .addHook 0 5, .new { parent := .one 0 }, .setCreator 1 3, .addHook 0 6, .setCreator 1 4] ∧
    hooksAdded 0 [.new {}, .addHook 0 5, .new { parent := .one 0 }, .setCreator 1 3, .addHook 0 6, .setCreator 1 4] = [5, 6] ∧
    creatorSet 1 [.new {}, .addHook 0 5, .new { parent := .one 0 }, .setCreator 1 3, .addHook 0 6, .setCreator 1 4] = some 4 := by
  decide

/-! ## Arguments of the constructor -/

/-- C35: the deprecated arguments mean the corresponding memory policy. -/
theorem C35_deprecated_arguments (s : Settings) (w : World) (a : CtorArgs)
    (h0 : a.freeFunction = [] ∧ a.increfMethod = [] ∧ a.increfFunction = [] ∧ a.memoryPolicy = none)
    (f i d : Str) (p : Option Str) (hf : f ≠ []) (hi : i ≠ []) :
    newClass s w { a with freeFunction := f } = newClass s w { a with memoryPolicy := some (.freeFunction f) } ∧
    newClass s w { a with increfMethod := i, decrefMethod := d, peekrefMethod := p } =
      newClass s w { a with memoryPolicy := some (.refMethods i d p) } ∧
    newClass s w { a with increfFunction := i, decrefFunction := d } =
      newClass s w { a with memoryPolicy := some (.refFunctions i d) } := by
  obtain ⟨h1, h2, h3, h4⟩ := h0
  refine ⟨?_, ?_, ?_⟩ <;> simp [newClass, legacyPolicy, h1, h2, h3, h4, hf, hi]

/-- C35: giving both a policy and a deprecated argument is refused. -/
theorem C35_both_refused (s : Settings) (w : World) (a : CtorArgs) (bs : List Nat) (hb : basesOf a.parent = .ok bs)
    (p : Policy) (hp : a.memoryPolicy = some p)
    (h : a.freeFunction ≠ [] ∨ a.increfMethod ≠ [] ∨ a.increfFunction ≠ []) :
    newClass s w a = .error .assertionError := by
  have : legacyPolicy a = .error .assertionError := by
    unfold legacyPolicy
    by_cases h1 : a.freeFunction = [] <;> by_cases h2 : a.increfMethod = [] <;> by_cases h3 : a.increfFunction = [] <;>
      simp_all
  simp [newClass, hb, this, bind, Except.bind]

/-- C37: a class narrows types if told so; if told nothing, if its first base does; without
bases, if the module-wide setting says so. -/
theorem C37_narrowing_inherited (s : Settings) (w : World) (a : CtorArgs) (x : Cls)
    (h : newClass s w a = .ok x) :
    (∀ v, a.narrowing = some v → x.narrowing = v) ∧
    (a.narrowing = none → ∀ b, x.bases.head? = some b → x.narrowing = (w.cls b).narrowing) ∧
    (a.narrowing = none → x.bases = [] → x.narrowing = s.narrowing) := by
  obtain ⟨_, _, hn, _⟩ := newClass_ok h
  refine ⟨fun v hv => by rw [hn, hv]; rfl, fun hv b hb => ?_, fun hv hb => by rw [hn, hv, hb]; rfl⟩
  cases hbs : x.bases with
  | nil => rw [hbs] at hb; cases hb
  | cons p ps => rw [hbs] at hb; cases hb; rw [hn, hv, hbs]; rfl

/-- C52: a class whose destructor is private can not be subclassed from Python; otherwise what the
user says holds, and by default what the first base or the module-wide setting says. -/
theorem C52_defaults (s : Settings) (w : World) (a : CtorArgs) (x : Cls) (h : newClass s w a = .ok x) :
    (a.destructor = .priv → x.allowSubclassing = false) ∧
    (a.destructor ≠ .priv → ∀ v, a.allowSubclassing = some v → x.allowSubclassing = v) ∧
    (a.destructor ≠ .priv → a.allowSubclassing = none → ∀ b, x.bases.head? = some b →
      x.allowSubclassing = (w.cls b).allowSubclassing) ∧
    (a.destructor ≠ .priv → a.allowSubclassing = none → x.bases = [] → x.allowSubclassing = s.allowSubclassing) := by
  obtain ⟨_, _, _, hs, _⟩ := newClass_ok h
  refine ⟨fun hd => ?_, fun hd v hv => ?_, fun hd hv b hb => ?_, fun hd hv hb => ?_⟩
  · unfold inheritSubclassing at hs
    simp only [hd, if_true, bind, Except.bind] at hs
    split at hs
    · split at hs <;> exact (Except.ok.inj hs).symm
    · split at hs
      · cases hs
      · exact (Except.ok.inj hs).symm
  · unfold inheritSubclassing at hs
    rw [hv] at hs
    simp only [bind, Except.bind, if_neg hd] at hs
    split at hs
    · cases hs
    · exact (Except.ok.inj hs).symm
  · cases hbs : x.bases with
    | nil => rw [hbs] at hb; cases hb
    | cons p ps =>
      rw [hbs] at hb; cases hb
      unfold inheritSubclassing at hs
      rw [hv, hbs] at hs
      simp only [bind, Except.bind, if_neg hd] at hs
      exact (Except.ok.inj hs).symm
  · unfold inheritSubclassing at hs
    rw [hv, hb] at hs
    simp only [bind, Except.bind, if_neg hd] at hs
    exact (Except.ok.inj hs).symm

example : ∃ x, newClass {} [⟨[], none, true, true, false, none, [], none, none, false⟩]
    { parent := .one 0, destructor := .priv } = .ok x ∧ x.allowSubclassing = false ∧ x.narrowing = true :=
  ⟨_, rfl, by decide, by decide⟩

end Verif.CppClass
