import Verif.CppClass.Abstract

/-!
# C55: the helper class overrides every virtual method once
-/
namespace Verif.CppClass
open Verif

/-! ## `add_virtual_method` over a list -/

private theorem addVirtual_vm (H : Helper) (m : Meth) (hd : m.isDummy = false) :
    (H.addVirtual m).virtualMethods =
      if H.virtualMethods.any (fun e => e.sig = m.sig) then H.virtualMethods else H.virtualMethods ++ [m] := by
  unfold Helper.addVirtual
  split
  · rfl
  · simp [hd]

private theorem addVirtual_dummy (H : Helper) (m : Meth) (hd : m.isDummy = true) :
    (H.addVirtual m).virtualMethods = H.virtualMethods := by
  unfold Helper.addVirtual
  split
  · rfl
  · split <;> rfl

private theorem addVirtual_nodup (H : Helper) (m : Meth) (hn : (H.virtualMethods.map (·.sig)).Nodup) :
    ((H.addVirtual m).virtualMethods.map (·.sig)).Nodup := by
  cases hd : m.isDummy with
  | true => rw [addVirtual_dummy H m hd]; exact hn
  | false =>
    rw [addVirtual_vm H m hd]
    split
    · exact hn
    · rename_i h
      simp only [List.any_eq_true, decide_eq_true_eq, not_exists, not_and] at h
      rw [List.map_append, List.nodup_append]
      refine ⟨hn, by simp, ?_⟩
      intro a ha b hb
      obtain ⟨e, he, rfl⟩ := List.mem_map.1 ha
      simp at hb
      subst hb
      exact h e he

private theorem addVirtual_sig (H : Helper) (m : Meth) (hd : m.isDummy = false) :
    m.sig ∈ (H.addVirtual m).virtualMethods.map (·.sig) := by
  rw [addVirtual_vm H m hd]
  split
  · rename_i h
    simp only [List.any_eq_true, decide_eq_true_eq] at h
    obtain ⟨e, he, hs⟩ := h
    rw [← hs]; exact List.mem_map_of_mem he
  · simp

private theorem addVirtual_mono (H : Helper) (m e : Meth) (he : e ∈ H.virtualMethods) :
    e ∈ (H.addVirtual m).virtualMethods := by
  cases hd : m.isDummy with
  | true => rw [addVirtual_dummy H m hd]; exact he
  | false =>
    rw [addVirtual_vm H m hd]
    split
    · exact he
    · simp [he]

private theorem addVirtual_mem (H : Helper) (m e : Meth) (he : e ∈ (H.addVirtual m).virtualMethods) :
    e ∈ H.virtualMethods ∨ (e = m ∧ m.isDummy = false ∧ ∀ x ∈ H.virtualMethods, x.sig ≠ m.sig) := by
  cases hd : m.isDummy with
  | true => rw [addVirtual_dummy H m hd] at he; exact .inl he
  | false =>
    rw [addVirtual_vm H m hd] at he
    split at he
    · exact .inl he
    · rename_i h
      simp only [List.any_eq_true, decide_eq_true_eq, not_exists, not_and] at h
      rcases List.mem_append.1 he with he | he
      · exact .inl he
      · simp at he; exact .inr ⟨he, rfl, h⟩

private theorem fold_nodup (l : List Meth) (H : Helper) (hn : (H.virtualMethods.map (·.sig)).Nodup) :
    ((l.foldl Helper.addVirtual H).virtualMethods.map (·.sig)).Nodup := by
  induction l generalizing H with
  | nil => exact hn
  | cons m ms ih => exact ih _ (addVirtual_nodup H m hn)

private theorem fold_mono (l : List Meth) (H : Helper) (e : Meth) (he : e ∈ H.virtualMethods) :
    e ∈ (l.foldl Helper.addVirtual H).virtualMethods := by
  induction l generalizing H with
  | nil => exact he
  | cons m ms ih => exact ih _ (addVirtual_mono H m e he)

private theorem fold_sig (l : List Meth) (H : Helper) (hl : ∀ m ∈ l, m.isDummy = false) :
    ∀ m ∈ l, m.sig ∈ (l.foldl Helper.addVirtual H).virtualMethods.map (·.sig) := by
  induction l generalizing H with
  | nil => simp
  | cons x xs ih =>
    intro m hm
    rcases List.mem_cons.1 hm with rfl | hm
    · obtain ⟨e, he, hs⟩ := List.mem_map.1 (addVirtual_sig H m (hl m (by simp)))
      exact List.mem_map.2 ⟨e, fold_mono xs _ e he, hs⟩
    · exact ih _ (fun m hm => hl m (List.mem_cons_of_mem _ hm)) m hm

private theorem fold_mem (l : List Meth) (H : Helper) (e : Meth)
    (he : e ∈ (l.foldl Helper.addVirtual H).virtualMethods) :
    e ∈ H.virtualMethods ∨ ∃ l1 l2, l = l1 ++ e :: l2 ∧ (∀ x ∈ H.virtualMethods, x.sig ≠ e.sig) ∧
      ∀ x ∈ l1, x.isDummy = false → x.sig ≠ e.sig := by
  induction l generalizing H with
  | nil => exact .inl he
  | cons m ms ih =>
    rcases ih _ he with h | ⟨l1, l2, rfl, h1, h2⟩
    · rcases addVirtual_mem H m e h with h | ⟨rfl, hd, h⟩
      · exact .inl h
      · exact .inr ⟨[], ms, rfl, h, by simp⟩
    · refine .inr ⟨m :: l1, l2, rfl, fun x hx => h1 x (addVirtual_mono H m x hx), ?_⟩
      intro x hx hd
      rcases List.mem_cons.1 hx with rfl | hx
      · obtain ⟨y, hy, hs⟩ := List.mem_map.1 (addVirtual_sig H x hd)
        rw [← hs]; exact h1 y hy
      · exact h2 x hx hd

/-! ## Invariants of histories -/

/-- Attributes that `get_helper_class` leaves alone. -/
private def SameMethods (σ τ : St) : Prop :=
  ∀ d, (σ d).allMethods = (τ d).allMethods ∧ (σ d).disabled = (τ d).disabled ∧
    (σ d).allowSubclassing = (τ d).allowSubclassing ∧ (σ d).isSingleton = (τ d).isSingleton

private theorem getHelper_methods (h : Hier) (σ : St) (c : Nat) : SameMethods (getHelper h σ c).2 σ := by
  intro d
  unfold getHelper
  split
  · exact ⟨rfl, rfl, rfl, rfl⟩
  · split
    · exact ⟨rfl, rfl, rfl, rfl⟩
    · split
      · exact ⟨rfl, rfl, rfl, rfl⟩
      · split
        · exact ⟨rfl, rfl, rfl, rfl⟩
        · simp only [St.put]
          split
          · rename_i e; subst e; exact ⟨rfl, rfl, rfl, rfl⟩
          · exact ⟨rfl, rfl, rfl, rfl⟩

/-- `get_helper_class` returns what it stores, an old helper or an empty one. -/
private theorem getHelper_helper (h : Hier) (σ : St) (c : Nat) :
    (∀ d, d ≠ c → ((getHelper h σ c).2 d).helper = (σ d).helper) ∧
    (((getHelper h σ c).2 c).helper = (σ c).helper ∨
      ((σ c).helper = none ∧ ((getHelper h σ c).2 c).helper = some {})) ∧
    (∀ H, (getHelper h σ c).1 = some H → ((getHelper h σ c).2 c).helper = some H ∧
      ((σ c).helper = some H ∨ ((σ c).helper = none ∧ H = {})) ∧ (σ c).allowSubclassing = true) ∧
    ((getHelper h σ c).1 = none → (getHelper h σ c).2 = σ) := by
  unfold getHelper
  split
  · simp
  · split
    · simp
    · rename_i ha
      simp only [Bool.not_eq_true', Bool.not_eq_false] at ha
      split
      · rename_i H hH; simp [hH, ha]
      · rename_i hH
        split
        · simp
        · refine ⟨fun d hd => by simp [St.put_ne _ _ hd], .inr ⟨hH, by simp⟩, ?_, by simp⟩
          intro H he
          simp at he
          subst he
          simp [ha, hH]

private theorem getHelper_some (h : Hier) (σ : St) (c : Nat)
    (hd : ∀ d, Ancestor h d c → (σ d).disabled = false) (ha : (σ c).allowSubclassing = true)
    (hs : (σ c).isSingleton = false) : ∃ H, (getHelper h σ c).1 = some H := by
  unfold getHelper
  rw [if_neg, if_neg (by simp [ha])]
  · split
    · exact ⟨_, rfl⟩
    · rw [if_neg (by simp [hs])]; exact ⟨_, rfl⟩
  · simp only [List.any_eq_true, not_exists, not_and, Bool.not_eq_true]
    exact fun d hm => hd d ((C33_mro_mem h c d).1 hm)

private theorem mem_addToOverloads (d : List (Str × List Meth)) (n : Str) (m x : Meth) :
    x ∈ (addToOverloads d n m).flatMap (·.2) ↔ x ∈ d.flatMap (·.2) ∨ x = m := by
  induction d with
  | nil => simp [addToOverloads]
  | cons p rest ih =>
    obtain ⟨k, ms⟩ := p
    unfold addToOverloads
    split
    · simp only [List.flatMap_cons, List.mem_append, List.mem_singleton]; tauto
    · simp only [List.flatMap_cons, List.mem_append, ih]; tauto

/-- What holds of the methods and the helper class of every class after every history. -/
structure HInv (σ : St) : Prop where
  methods : ∀ c, ∀ m ∈ (σ c).allMethods, m.owner = c ∧ m.isDummy = false ∧ (m.isVirtual = true → m.isCpp = true)
  nodup : ∀ c H, (σ c).helper = some H → (H.virtualMethods.map (·.sig)).Nodup
  own : ∀ c H, (σ c).helper = some H → ∀ m ∈ H.virtualMethods, m ∈ (σ c).allMethods ∧ m.isVirtual = true
  allowed : ∀ c H, (σ c).helper = some H → (σ c).allowSubclassing = true

/-- The state after the method was recorded (first half of `_add_method_obj`). -/
private theorem addMethodObj_eq (h : Hier) (σ : St) (c : Nat) (m : Meth) :
    ∃ σ1 : St, (∀ d, (σ1 d).disabled = (σ d).disabled ∧ (σ1 d).allowSubclassing = (σ d).allowSubclassing ∧
        (σ1 d).isSingleton = (σ d).isSingleton) ∧
      (∀ d, d ≠ c → (σ1 d).helper = (σ d).helper) ∧
      ((σ1 c).helper = (σ c).helper ∨ ((σ c).helper = none ∧ (σ c).allowSubclassing = true ∧ (σ1 c).helper = some {})) ∧
      (∀ d x, x ∈ (σ1 d).allMethods ↔ (x ∈ (σ d).allMethods ∨
        (d = c ∧ x = { m with owner := c } ∧ ¬ (m.vis = .prot ∧ m.isVirtual = false)))) ∧
      addMethodObj h σ c m = if m.isVirtual then
        (match getHelper h (σ1.put c { σ1 c with cache := none }) c with
        | (some H, σ3) => σ3.put c { σ3 c with helper := some (H.addVirtual { m with owner := c }) }
        | (none, σ3) => σ3) else σ1 := by
  refine ⟨if m.vis = .prot && !m.isVirtual then (getHelper h σ c).2
    else if m.vis = .pub then σ.put c { σ c with methods := addToOverloads (σ c).methods m.sig.name { m with owner := c } }
    else σ.put c { σ c with nonpublic := (σ c).nonpublic ++ [{ m with owner := c }] }, ?_, ?_, ?_, ?_, rfl⟩
  · intro d
    split
    · have := getHelper_methods h σ c d; exact ⟨this.2.1, this.2.2.1, this.2.2.2⟩
    · split
      · simp only [St.put]; split
        · rename_i e; subst e; exact ⟨rfl, rfl, rfl⟩
        · exact ⟨rfl, rfl, rfl⟩
      · simp only [St.put]; split
        · rename_i e; subst e; exact ⟨rfl, rfl, rfl⟩
        · exact ⟨rfl, rfl, rfl⟩
  · intro d hd
    split
    · exact (getHelper_helper h σ c).1 d hd
    · split <;> simp [St.put_ne _ _ hd]
  · split
    · rcases (getHelper_helper h σ c).2.1 with h1 | ⟨h1, h2⟩
      · exact .inl h1
      · refine .inr ⟨h1, ?_, h2⟩
        cases hr : (getHelper h σ c).1 with
        | none => rw [(getHelper_helper h σ c).2.2.2 hr] at h2; rw [h1] at h2; cases h2
        | some H => exact ((getHelper_helper h σ c).2.2.1 H hr).2.2
    · split <;> simp
  · intro d x
    split
    · rename_i hp
      simp only [Bool.and_eq_true, decide_eq_true_eq, Bool.not_eq_true'] at hp
      rw [(getHelper_methods h σ c d).1]
      simp [hp]
    · rename_i hp
      simp only [Bool.and_eq_true, decide_eq_true_eq, Bool.not_eq_true'] at hp
      split
      · simp only [St.put]
        split
        · rename_i e; subst e
          simp only [ClsM.allMethods, List.mem_append, mem_addToOverloads]
          simp only [hp, not_false_eq_true, and_true, true_and]
          tauto
        · rename_i e; simp [e]
      · simp only [St.put]
        split
        · rename_i e; subst e
          simp only [ClsM.allMethods, List.mem_append, List.mem_singleton]
          simp only [hp, not_false_eq_true, and_true, true_and]
          tauto
        · rename_i e; simp [e]

private theorem step_singleton (h : Hier) (σ : St) (op : MOp) (c : Nat) :
    ((mstep h σ op) c).isSingleton = (σ c).isSingleton := by
  have tail : ∀ (τ : St) (d : Nat) (f : Helper → ClsM → ClsM), (∀ H x, (f H x).isSingleton = x.isSingleton) →
      ((match getHelper h τ d with
        | (some H, σ3) => σ3.put d (f H (σ3 d))
        | (none, σ3) => σ3) c).isSingleton = (τ c).isSingleton := by
    intro τ d f hf
    have := (getHelper_methods h τ d c).2.2.2
    generalize getHelper h τ d = r at this
    obtain ⟨o, s⟩ := r
    cases o with
    | none => exact this
    | some H =>
      simp only [St.put]
      split
      · rename_i e; subst e; rw [hf]; exact this
      · exact this
  have hadd : ∀ d m, ((addMethodObj h σ d m) c).isSingleton = (σ c).isSingleton := by
    intro d m
    obtain ⟨σ1, ha, _, _, _, he⟩ := addMethodObj_eq h σ d m
    rw [he]
    split
    · refine (tail _ d (fun H x => { x with helper := some (H.addVirtual { m with owner := d }) }) (fun _ _ => rfl)).trans ?_
      simp only [St.put]
      split
      · rename_i e; subst e; exact (ha c).2.2
      · exact (ha c).2.2
    · exact (ha c).2.2
  cases op with
  | add d m => exact hadd _ _
  | addFunction d s => exact hadd _ _
  | addUnwrappable d m =>
    simp only [mstep, addDummy]
    split
    · have := tail (σ.put d { σ d with dummies := (σ d).dummies ++ [{ m with isDummy := true, isCpp := true, owner := d }], cache := none }) d
        (fun H x => if (H.addVirtual { m with isDummy := true, isCpp := true, owner := d }).cannotBeConstructed then
          { x with helper := none, disabled := true } else
          { x with helper := some (H.addVirtual { m with isDummy := true, isCpp := true, owner := d }) })
        (fun H x => by split <;> rfl)
      have e2 : ((σ.put d { σ d with dummies := (σ d).dummies ++ [{ m with isDummy := true, isCpp := true, owner := d }], cache := none }) c).isSingleton = (σ c).isSingleton := by
        simp only [St.put]
        split
        · rename_i e; subst e; rfl
        · rfl
      rw [e2] at this
      rw [← this]
      generalize getHelper h _ d = r
      obtain ⟨o, s⟩ := r
      cases o with
      | none => rfl
      | some H => simp only; split <;> rfl
    · rfl
  | query d =>
    simp only [mstep, queryAbstract]
    split
    · rfl
    · simp only [St.put]
      split
      · rename_i e; subst e; rfl
      · rfl
  | disable d b =>
    simp only [mstep, setDisabled, St.put]
    split
    · rename_i e; subst e; rfl
    · rfl

/-- The call does not enable a helper class again. -/
def MOp.noEnable : MOp → Prop
  | .disable _ b => b = true
  | _ => True

/-- Own virtual methods are in the helper class unless helper classes are disabled. -/
private def Complete (h : Hier) (σ : St) (c : Nat) : Prop :=
  (∀ d, Ancestor h d c → (σ d).disabled = false) → (σ c).allowSubclassing = true → (σ c).isSingleton = false →
    ∀ m ∈ (σ c).allMethods, m.isVirtual = true →
      ∃ H, (σ c).helper = some H ∧ m.sig ∈ H.virtualMethods.map (·.sig)

/-- One step of `_add_method_obj` or `add_method` on the helper class, after the method was recorded. -/
private theorem tail_inv (h : Hier) (σ1 : St) (c : Nat) (m : Meth) (hv : m.isVirtual = true)
    (hm : m.isDummy = false → m ∈ (σ1 c).allMethods) (hi : HInv σ1) :
    let τ := (match getHelper h σ1 c with
      | (some H, σ3) => σ3.put c { σ3 c with helper := some (H.addVirtual m) }
      | (none, σ3) => σ3)
    HInv τ ∧ (∀ d, (τ d).allMethods = (σ1 d).allMethods ∧ (τ d).disabled = (σ1 d).disabled ∧
      (τ d).allowSubclassing = (σ1 d).allowSubclassing ∧ (τ d).isSingleton = (σ1 d).isSingleton) ∧
    (∀ d, d ≠ c → (τ d).helper = (σ1 d).helper) ∧
    (∀ H, (σ1 c).helper = some H → ∃ H', (τ c).helper = some H' ∧ ∀ x ∈ H.virtualMethods, x ∈ H'.virtualMethods) ∧
    ((∀ d, Ancestor h d c → (σ1 d).disabled = false) → (σ1 c).allowSubclassing = true →
      (σ1 c).isSingleton = false → m.isDummy = false →
      ∃ H, (τ c).helper = some H ∧ m.sig ∈ H.virtualMethods.map (·.sig)) := by
  intro τ
  have hg := getHelper_helper h σ1 c
  have hsame := getHelper_methods h σ1 c
  cases hr : (getHelper h σ1 c).1 with
  | none =>
    have e : τ = σ1 := by
      have h2 := hg.2.2.2 hr
      simp only [τ]
      generalize getHelper h σ1 c = r at hr h2
      obtain ⟨o, s⟩ := r
      simp at hr h2; subst hr; exact h2
    rw [e]
    refine ⟨hi, fun d => ⟨rfl, rfl, rfl, rfl⟩, fun _ _ => rfl, fun H hH => ⟨H, hH, fun _ hx => hx⟩, ?_⟩
    intro h1 h2 h3
    obtain ⟨H, hH⟩ := getHelper_some h σ1 c h1 h2 h3
    rw [hr] at hH; cases hH
  | some H =>
    have e : τ = ((getHelper h σ1 c).2).put c { (getHelper h σ1 c).2 c with helper := some (H.addVirtual m) } := by
      simp only [τ]
      generalize getHelper h σ1 c = r at hr
      obtain ⟨o, s⟩ := r
      simp at hr; subst hr; rfl
    have hmeth : ∀ d, (τ d).allMethods = (σ1 d).allMethods ∧ (τ d).disabled = (σ1 d).disabled ∧
        (τ d).allowSubclassing = (σ1 d).allowSubclassing ∧ (τ d).isSingleton = (σ1 d).isSingleton := by
      intro d
      rw [e]
      simp only [St.put]
      split
      · rename_i e; subst e; exact hsame d
      · exact hsame d
    have hne : ∀ d, d ≠ c → (τ d).helper = (σ1 d).helper := by
      intro d hd; rw [e, St.put_ne _ _ hd]; exact hg.1 d hd
    have hc : (τ c).helper = some (H.addVirtual m) := by rw [e]; simp
    obtain ⟨h1, h2, h3⟩ := hg.2.2.1 H hr
    have hHn : (H.virtualMethods.map (·.sig)).Nodup ∧
        ∀ x ∈ H.virtualMethods, x ∈ (σ1 c).allMethods ∧ x.isVirtual = true := by
      rcases h2 with h2 | ⟨_, rfl⟩
      · exact ⟨hi.nodup c H h2, hi.own c H h2⟩
      · simp
    refine ⟨⟨?_, ?_, ?_, ?_⟩, hmeth, hne, ?_, ?_⟩
    · intro d x hx
      rw [(hmeth d).1] at hx
      exact hi.methods d x hx
    · intro d G hG
      by_cases hd : d = c
      · subst hd; rw [hc] at hG; cases hG; exact addVirtual_nodup _ _ hHn.1
      · rw [hne d hd] at hG; exact hi.nodup d G hG
    · intro d G hG x hx
      rw [(hmeth d).1]
      by_cases hd : d = c
      · subst hd; rw [hc] at hG; cases hG
        rcases addVirtual_mem H m x hx with hx | ⟨rfl, hx, _⟩
        · exact hHn.2 x hx
        · exact ⟨hm hx, hv⟩
      · rw [hne d hd] at hG; exact hi.own d G hG x hx
    · intro d G hG
      rw [(hmeth d).2.2.1]
      by_cases hd : d = c
      · subst hd; exact h3
      · rw [hne d hd] at hG; exact hi.allowed d G hG
    · intro G hG
      rcases h2 with h2 | ⟨h2, _⟩
      · rw [h2] at hG; cases hG
        exact ⟨_, hc, fun x hx => addVirtual_mono H m x hx⟩
      · rw [h2] at hG; cases hG
    · intro _ _ _ hd
      exact ⟨_, hc, addVirtual_sig H m hd⟩

private theorem add_inv (h : Hier) (σ : St) (c : Nat) (m : Meth) (hd : m.isDummy = false)
    (hcpp : m.isVirtual = true → m.isCpp = true) (hi : HInv σ) :
    HInv (addMethodObj h σ c m) ∧
    (∀ d, ((addMethodObj h σ c m) d).disabled = (σ d).disabled) ∧
    ∀ e, Complete h σ e → Complete h (addMethodObj h σ c m) e := by
  obtain ⟨σ1, ha, hh, hhc, hmem, he⟩ := addMethodObj_eq h σ c m
  have hi1 : HInv σ1 := by
    refine ⟨?_, ?_, ?_, ?_⟩
    · intro d x hx
      rcases (hmem d x).1 hx with hx | ⟨rfl, rfl, _⟩
      · exact hi.methods d x hx
      · exact ⟨rfl, hd, hcpp⟩
    · intro d H hH
      by_cases hdc : d = c
      · subst hdc
        rcases hhc with h1 | ⟨_, _, h2⟩
        · rw [h1] at hH; exact hi.nodup d H hH
        · rw [h2] at hH; cases hH; simp
      · rw [hh d hdc] at hH; exact hi.nodup d H hH
    · intro d H hH x hx
      by_cases hdc : d = c
      · subst hdc
        rcases hhc with h1 | ⟨_, _, h2⟩
        · rw [h1] at hH
          have := hi.own d H hH x hx
          exact ⟨(hmem d x).2 (.inl this.1), this.2⟩
        · rw [h2] at hH; cases hH; simp at hx
      · rw [hh d hdc] at hH
        have := hi.own d H hH x hx
        exact ⟨(hmem d x).2 (.inl this.1), this.2⟩
    · intro d H hH
      rw [(ha d).2.1]
      by_cases hdc : d = c
      · subst hdc
        rcases hhc with h1 | ⟨_, h2, _⟩
        · rw [h1] at hH; exact hi.allowed d H hH
        · exact h2
      · rw [hh d hdc] at hH; exact hi.allowed d H hH
  -- completeness of the old methods in `σ1`
  have hc1 : ∀ e, Complete h σ e → (∀ d, Ancestor h d e → (σ1 d).disabled = false) →
      (σ1 e).allowSubclassing = true → (σ1 e).isSingleton = false →
      ∀ x ∈ (σ e).allMethods, x.isVirtual = true → ∃ H, (σ1 e).helper = some H ∧ x.sig ∈ H.virtualMethods.map (·.sig) := by
    intro e hce h1 h2 h3 x hx hxv
    obtain ⟨H, hH, hs⟩ := hce (fun d hd => by rw [← (ha d).1]; exact h1 d hd) (by rw [← (ha e).2.1]; exact h2)
      (by rw [← (ha e).2.2]; exact h3) x hx hxv
    refine ⟨H, ?_, hs⟩
    by_cases hec : e = c
    · subst hec
      rcases hhc with h4 | ⟨h4, _, _⟩
      · rw [h4]; exact hH
      · rw [h4] at hH; cases hH
    · rw [hh e hec]; exact hH
  rw [he]
  rcases Bool.eq_false_or_eq_true m.isVirtual with hv | hv
  · rw [if_pos hv]
    -- clearing the cache changes nothing here
    let σ2 : St := σ1.put c { σ1 c with cache := none }
    have h2same : ∀ d, (σ2 d).allMethods = (σ1 d).allMethods ∧ (σ2 d).disabled = (σ1 d).disabled ∧
        (σ2 d).allowSubclassing = (σ1 d).allowSubclassing ∧ (σ2 d).isSingleton = (σ1 d).isSingleton ∧
        (σ2 d).helper = (σ1 d).helper := by
      intro d
      simp only [σ2, St.put]
      split
      · rename_i e; subst e; exact ⟨rfl, rfl, rfl, rfl, rfl⟩
      · exact ⟨rfl, rfl, rfl, rfl, rfl⟩
    have hi2 : HInv σ2 := by
      refine ⟨?_, ?_, ?_, ?_⟩
      · intro d x hx; rw [(h2same d).1] at hx; exact hi1.methods d x hx
      · intro d H hH; rw [(h2same d).2.2.2.2] at hH; exact hi1.nodup d H hH
      · intro d H hH; rw [(h2same d).2.2.2.2] at hH; rw [(h2same d).1]; exact hi1.own d H hH
      · intro d H hH; rw [(h2same d).2.2.2.2] at hH; rw [(h2same d).2.2.1]; exact hi1.allowed d H hH
    have hmm : ({ m with owner := c } : Meth) ∈ (σ2 c).allMethods := by
      rw [(h2same c).1]
      exact (hmem c _).2 (.inr ⟨rfl, rfl, by simp [hv]⟩)
    obtain ⟨t1, t2, t3, t4, t5⟩ := tail_inv h σ2 c { m with owner := c } hv (fun _ => hmm) hi2
    refine ⟨t1, fun d => ?_, fun e hce h1 h2 h3 x hx hxv => ?_⟩
    · exact (t2 d).2.1.trans ((h2same d).2.1.trans (ha d).1)
    · have d1 : ∀ d, Ancestor h d e → (σ1 d).disabled = false := fun d hd =>
        (((t2 d).2.1.trans (h2same d).2.1).symm).trans (h1 d hd)
      have d2 : (σ1 e).allowSubclassing = true := (((t2 e).2.2.1.trans (h2same e).2.2.1).symm).trans h2
      have d3 : (σ1 e).isSingleton = false := (((t2 e).2.2.2.trans (h2same e).2.2.2.1).symm).trans h3
      have hx1 : x ∈ (σ1 e).allMethods := by
        have := (t2 e).1.trans (h2same e).1
        exact this ▸ hx
      rcases (hmem e x).1 hx1 with hx2 | ⟨rfl, rfl, _⟩
      · obtain ⟨H, hH, hs⟩ := hc1 e hce d1 d2 d3 x hx2 hxv
        by_cases hec : e = c
        · subst hec
          obtain ⟨H', hH', hmono⟩ := t4 H ((h2same e).2.2.2.2.trans hH)
          refine ⟨H', hH', ?_⟩
          obtain ⟨y, hy, hys⟩ := List.mem_map.1 hs
          exact List.mem_map.2 ⟨y, hmono y hy, hys⟩
        · exact ⟨H, (t3 e hec).trans ((h2same e).2.2.2.2.trans hH), hs⟩
      · exact t5 (fun d hd => (h2same d).2.1.trans (d1 d hd)) ((h2same e).2.2.1.trans d2)
          ((h2same e).2.2.2.1.trans d3) hd
  · rw [if_neg (by simp [hv])]
    refine ⟨hi1, fun d => (ha d).1, fun e hce h1 h2 h3 x hx hxv => ?_⟩
    rcases (hmem e x).1 hx with hx | ⟨rfl, rfl, _⟩
    · exact hc1 e hce h1 h2 h3 x hx hxv
    · simp [hv] at hxv

private theorem dummy_inv (h : Hier) (σ : St) (c : Nat) (m : Meth) (hd : m.isDummy = true) (hi : HInv σ) :
    HInv (addDummy h σ c m) ∧
    (∀ d, (σ d).disabled = true → ((addDummy h σ c m) d).disabled = true) ∧
    ∀ e, Complete h σ e → Complete h (addDummy h σ c m) e := by
  rcases Bool.eq_false_or_eq_true m.isVirtual with hv | hv
  swap
  · unfold addDummy
    rw [if_neg (by simp [hv])]
    exact ⟨hi, fun _ hx => hx, fun _ hx => hx⟩
  unfold addDummy
  rw [if_pos hv]
  let σ1 : St := σ.put c { σ c with dummies := (σ c).dummies ++ [{ m with owner := c }], cache := none }
  have h1same : ∀ d, (σ1 d).allMethods = (σ d).allMethods ∧ (σ1 d).disabled = (σ d).disabled ∧
      (σ1 d).allowSubclassing = (σ d).allowSubclassing ∧ (σ1 d).isSingleton = (σ d).isSingleton ∧
      (σ1 d).helper = (σ d).helper := by
    intro d
    simp only [σ1, St.put]
    split
    · rename_i e; subst e; exact ⟨rfl, rfl, rfl, rfl, rfl⟩
    · exact ⟨rfl, rfl, rfl, rfl, rfl⟩
  have hi1 : HInv σ1 := by
    refine ⟨?_, ?_, ?_, ?_⟩
    · intro d x hx; rw [(h1same d).1] at hx; exact hi.methods d x hx
    · intro d H hH; rw [(h1same d).2.2.2.2] at hH; exact hi.nodup d H hH
    · intro d H hH; rw [(h1same d).2.2.2.2] at hH; rw [(h1same d).1]; exact hi.own d H hH
    · intro d H hH; rw [(h1same d).2.2.2.2] at hH; rw [(h1same d).2.2.1]; exact hi.allowed d H hH
  have hcompl : ∀ e, Complete h σ e → Complete h σ1 e := by
    intro e hce h1 h2 h3 x hx hxv
    obtain ⟨H, hH, hs⟩ := hce (fun d hd => by rw [← (h1same d).2.1]; exact h1 d hd)
      (by rw [← (h1same e).2.2.1]; exact h2) (by rw [← (h1same e).2.2.2.1]; exact h3) x
      (by rw [← (h1same e).1]; exact hx) hxv
    exact ⟨H, by rw [(h1same e).2.2.2.2]; exact hH, hs⟩
  -- without the final test this is the same as for a method that can be wrapped
  obtain ⟨t1, t2, t3, t4, _⟩ := tail_inv h σ1 c { m with owner := c } hv (fun hn => by simp [hd] at hn) hi1
  have hcomplτ : ∀ e, Complete h σ e → ∀ τ : St, (∀ d, (τ d).allMethods = (σ1 d).allMethods ∧
      (τ d).disabled = (σ1 d).disabled ∧ (τ d).allowSubclassing = (σ1 d).allowSubclassing ∧
      (τ d).isSingleton = (σ1 d).isSingleton) → (∀ d, d ≠ c → (τ d).helper = (σ1 d).helper) →
      (∀ H, (σ1 c).helper = some H → ∃ H', (τ c).helper = some H' ∧ ∀ x ∈ H.virtualMethods, x ∈ H'.virtualMethods) →
      Complete h τ e := by
    intro e hce τ a1 a2 a3 h1 h2 h3 x hx hxv
    obtain ⟨H, hH, hs⟩ := hcompl e hce (fun d hd => by rw [← (a1 d).2.1]; exact h1 d hd)
      (by rw [← (a1 e).2.2.1]; exact h2) (by rw [← (a1 e).2.2.2]; exact h3) x
      (by rw [← (a1 e).1]; exact hx) hxv
    by_cases hec : e = c
    · subst hec
      obtain ⟨H', hH', hmono⟩ := a3 H hH
      obtain ⟨y, hy, hys⟩ := List.mem_map.1 hs
      exact ⟨H', hH', List.mem_map.2 ⟨y, hmono y hy, hys⟩⟩
    · exact ⟨H, by rw [a2 e hec]; exact hH, hs⟩
  have hgoal : ∀ τ, τ = (match getHelper h σ1 c with
      | (some H, σ3) => σ3.put c { σ3 c with helper := some (H.addVirtual { m with owner := c }) }
      | (none, σ3) => σ3) →
      HInv τ ∧ (∀ d, (σ d).disabled = true → (τ d).disabled = true) ∧
        ∀ e, Complete h σ e → Complete h τ e := by
    intro τ hτ
    subst hτ
    exact ⟨t1, fun d hx => (t2 d).2.1.trans ((h1same d).2.1.trans hx), fun e hce => hcomplτ e hce _ t2 t3 t4⟩
  show HInv (match getHelper h σ1 c with
    | (some H, σ2) =>
      if (H.addVirtual { m with owner := c }).cannotBeConstructed then
        σ2.put c { σ2 c with helper := none, disabled := true }
      else σ2.put c { σ2 c with helper := some (H.addVirtual { m with owner := c }) }
    | (none, σ2) => σ2) ∧ (∀ d, (σ d).disabled = true → ((match getHelper h σ1 c with
    | (some H, σ2) =>
      if (H.addVirtual { m with owner := c }).cannotBeConstructed then
        σ2.put c { σ2 c with helper := none, disabled := true }
      else σ2.put c { σ2 c with helper := some (H.addVirtual { m with owner := c }) }
    | (none, σ2) => σ2) d).disabled = true) ∧ ∀ e, Complete h σ e → Complete h (match getHelper h σ1 c with
    | (some H, σ2) =>
      if (H.addVirtual { m with owner := c }).cannotBeConstructed then
        σ2.put c { σ2 c with helper := none, disabled := true }
      else σ2.put c { σ2 c with helper := some (H.addVirtual { m with owner := c }) }
    | (none, σ2) => σ2) e
  have hsame := getHelper_methods h σ1 c
  have hhelp := getHelper_helper h σ1 c
  generalize getHelper h σ1 c = r at hgoal hsame hhelp
  obtain ⟨o, σ3⟩ := r
  cases o with
  | none => exact hgoal _ rfl
  | some H =>
    simp only at hgoal ⊢
    split
    · -- the helper class is dropped and disabled
      simp only at hsame hhelp
      refine ⟨⟨?_, ?_, ?_, ?_⟩, ?_, ?_⟩
      · intro d x hx
        have : ((σ3.put c { σ3 c with helper := none, disabled := true }) d).allMethods = (σ1 d).allMethods := by
          simp only [St.put]
          split
          · rename_i e; subst e; exact (hsame d).1
          · exact (hsame d).1
        rw [this] at hx
        exact hi1.methods d x hx
      · intro d G hG
        by_cases hdc : d = c
        · subst hdc; simp at hG
        · rw [St.put_ne _ _ hdc, hhelp.1 d hdc] at hG; exact hi1.nodup d G hG
      · intro d G hG
        by_cases hdc : d = c
        · subst hdc; simp at hG
        · rw [St.put_ne _ _ hdc] at hG ⊢
          rw [hhelp.1 d hdc] at hG
          rw [(hsame d).1]; exact hi1.own d G hG
      · intro d G hG
        by_cases hdc : d = c
        · subst hdc; simp at hG
        · rw [St.put_ne _ _ hdc] at hG ⊢
          rw [hhelp.1 d hdc] at hG
          rw [(hsame d).2.2.1]; exact hi1.allowed d G hG
      · intro d hx
        by_cases hdc : d = c
        · subst hdc; simp
        · rw [St.put_ne _ _ hdc, (hsame d).2.1, (h1same d).2.1]; exact hx
      · intro e hce h1 h2 h3 x hx hxv
        by_cases hec : Ancestor h c e
        · have := h1 c hec; simp at this
        · have hne : e ≠ c := fun hh => hec (hh ▸ Ancestor.refl h e)
          rw [St.put_ne _ _ hne] at h2 h3 hx ⊢
          rw [hhelp.1 e hne]
          apply hcompl e hce
          · intro d hd
            have hdc : d ≠ c := fun hh => hec (hh ▸ hd)
            have := h1 d hd
            rw [St.put_ne _ _ hdc, (hsame d).2.1] at this; exact this
          · rw [← (hsame e).2.2.1]; exact h2
          · rw [← (hsame e).2.2.2]; exact h3
          · rw [← (hsame e).1]; exact hx
          · exact hxv
    · exact hgoal _ rfl

private theorem step_inv (h : Hier) (σ : St) (op : MOp) (hi : HInv σ) : HInv (mstep h σ op) ∧
    (op.noEnable → ∀ e, Complete h σ e → Complete h (mstep h σ op) e) := by
  cases op with
  | add c m =>
    obtain ⟨h1, _, h3⟩ := add_inv h σ c { m with isDummy := false, isCpp := true } rfl (fun _ => rfl) hi
    exact ⟨h1, fun _ => h3⟩
  | addFunction c s =>
    obtain ⟨h1, _, h3⟩ := add_inv h σ c { sig := s, owner := c, isCpp := false } rfl (by simp) hi
    exact ⟨h1, fun _ => h3⟩
  | addUnwrappable c m =>
    obtain ⟨h1, _, h3⟩ := dummy_inv h σ c { m with isDummy := true, isCpp := true } rfl hi
    exact ⟨h1, fun _ => h3⟩
  | query c =>
    have hs : ∀ d, ((mstep h σ (.query c)) d).allMethods = (σ d).allMethods ∧
        ((mstep h σ (.query c)) d).disabled = (σ d).disabled ∧
        ((mstep h σ (.query c)) d).allowSubclassing = (σ d).allowSubclassing ∧
        ((mstep h σ (.query c)) d).isSingleton = (σ d).isSingleton ∧
        ((mstep h σ (.query c)) d).helper = (σ d).helper := by
      intro d
      simp only [mstep, queryAbstract]
      split
      · exact ⟨rfl, rfl, rfl, rfl, rfl⟩
      · simp only [St.put]
        split
        · rename_i e; subst e; exact ⟨rfl, rfl, rfl, rfl, rfl⟩
        · exact ⟨rfl, rfl, rfl, rfl, rfl⟩
    refine ⟨⟨?_, ?_, ?_, ?_⟩, ?_⟩
    · intro d x hx; rw [(hs d).1] at hx; exact hi.methods d x hx
    · intro d H hH; rw [(hs d).2.2.2.2] at hH; exact hi.nodup d H hH
    · intro d H hH; rw [(hs d).2.2.2.2] at hH; rw [(hs d).1]; exact hi.own d H hH
    · intro d H hH; rw [(hs d).2.2.2.2] at hH; rw [(hs d).2.2.1]; exact hi.allowed d H hH
    · intro _ e hce h1 h2 h3 x hx hxv
      obtain ⟨H, hH, hh⟩ := hce (fun d hd => by rw [← (hs d).2.1]; exact h1 d hd)
        (by rw [← (hs e).2.2.1]; exact h2) (by rw [← (hs e).2.2.2.1]; exact h3) x
        (by rw [← (hs e).1]; exact hx) hxv
      exact ⟨H, by rw [(hs e).2.2.2.2]; exact hH, hh⟩
  | disable c b =>
    have hs : ∀ d, ((mstep h σ (.disable c b)) d).allMethods = (σ d).allMethods ∧
        ((mstep h σ (.disable c b)) d).allowSubclassing = (σ d).allowSubclassing ∧
        ((mstep h σ (.disable c b)) d).isSingleton = (σ d).isSingleton ∧
        (((mstep h σ (.disable c b)) d).helper = (σ d).helper ∨ ((mstep h σ (.disable c b)) d).helper = none) ∧
        (d ≠ c → (mstep h σ (.disable c b)) d = σ d) ∧ (d = c → ((mstep h σ (.disable c b)) d).disabled = b) := by
      intro d
      simp only [mstep, setDisabled, St.put]
      split
      · rename_i e; subst e
        refine ⟨rfl, rfl, rfl, ?_, fun hn => absurd rfl hn, fun _ => rfl⟩
        cases b <;> simp
      · rename_i e; exact ⟨rfl, rfl, rfl, .inl rfl, fun _ => rfl, fun hn => absurd hn e⟩
    have hsome : ∀ d H, ((mstep h σ (.disable c b)) d).helper = some H → (σ d).helper = some H := by
      intro d H hH
      rcases (hs d).2.2.2.1 with h1 | h1
      · rw [← h1]; exact hH
      · rw [h1] at hH; cases hH
    refine ⟨⟨?_, ?_, ?_, ?_⟩, ?_⟩
    · intro d x hx; rw [(hs d).1] at hx; exact hi.methods d x hx
    · intro d H hH; exact hi.nodup d H (hsome d H hH)
    · intro d H hH; rw [(hs d).1]; exact hi.own d H (hsome d H hH)
    · intro d H hH; rw [(hs d).2.1]; exact hi.allowed d H (hsome d H hH)
    · intro hb e hce h1 h2 h3 x hx hxv
      have hb' : b = true := hb
      subst hb'
      by_cases hec : Ancestor h c e
      · have := h1 c hec; rw [(hs c).2.2.2.2.2 rfl] at this; cases this
      · have hne : e ≠ c := fun hh => hec (hh ▸ Ancestor.refl h e)
        rw [(hs e).2.2.2.2.1 hne] at h2 h3 hx ⊢
        apply hce _ h2 h3 x hx hxv
        intro d hd
        have hdc : d ≠ c := fun hh => hec (hh ▸ hd)
        have := h1 d hd
        rw [(hs d).2.2.2.2.1 hdc] at this; exact this

private theorem fresh_inv (h : Hier) (allow sing : Nat → Bool) : HInv (fresh allow sing) ∧
    ∀ e, Complete h (fresh allow sing) e := by
  refine ⟨⟨?_, ?_, ?_, ?_⟩, ?_⟩ <;> simp [fresh, ClsM.allMethods, Complete]

/-- Every history establishes the invariant. -/
theorem hinv_run (h : Hier) (allow sing : Nat → Bool) (ops : List MOp) :
    HInv (mrun h (fresh allow sing) ops) := by
  have : ∀ (l : List MOp) σ, HInv σ → HInv (mrun h σ l) := by
    intro l
    induction l with
    | nil => intro σ hi; exact hi
    | cons op l ih => intro σ hi; exact ih _ (step_inv h σ op hi).1
  exact this ops _ (fresh_inv h allow sing).1

private theorem complete_run (h : Hier) (allow sing : Nat → Bool) (ops : List MOp)
    (hn : ∀ op ∈ ops, op.noEnable) (e : Nat) : Complete h (mrun h (fresh allow sing) ops) e := by
  have : ∀ (l : List MOp) σ, (∀ op ∈ l, op.noEnable) → HInv σ → Complete h σ e → Complete h (mrun h σ l) e := by
    intro l
    induction l with
    | nil => intro σ _ _ hc; exact hc
    | cons op l ih =>
      intro σ hl hi hc
      have := step_inv h σ op hi
      exact ih _ (fun o ho => hl o (List.mem_cons_of_mem _ ho)) this.1 (this.2 (hl op (by simp)) e hc)
  exact this ops _ hn (fresh_inv h allow sing).1 ((fresh_inv h allow sing).2 e)

/-! ## The theorems -/

private theorem filter_flatMap_split (g : Nat → List Meth) (p : Meth → Bool) (l : List Nat)
    (l1 l2 : List Meth) (m : Meth) (he : (l.flatMap g).filter p = l1 ++ m :: l2) :
    ∃ p1 d p2, l = p1 ++ d :: p2 ∧ m ∈ g d ∧ p m = true ∧ ∀ x ∈ p1, ∀ e ∈ g x, p e = true → e ∈ l1 := by
  induction l generalizing l1 with
  | nil => simp at he
  | cons t ts ih =>
    rw [List.flatMap_cons, List.filter_append] at he
    rcases List.append_eq_append_iff.1 he with ⟨a, h1, h2⟩ | ⟨a, h1, h2⟩
    · obtain ⟨p1, d, p2, rfl, h3, h4, h5⟩ := ih a h2
      refine ⟨t :: p1, d, p2, rfl, h3, h4, ?_⟩
      intro x hx e hee hpe
      rw [h1]
      rcases List.mem_cons.1 hx with rfl | hx
      · exact List.mem_append_left _ (List.mem_filter.2 ⟨hee, hpe⟩)
      · exact List.mem_append_right _ (h5 x hx e hee hpe)
    · cases a with
      | nil =>
        simp at h2
        obtain ⟨p1, d, p2, rfl, h3, h4, h5⟩ := ih [] h2.symm
        refine ⟨t :: p1, d, p2, rfl, h3, h4, ?_⟩
        intro x hx e hee hpe
        rcases List.mem_cons.1 hx with rfl | hx
        · simp at h1; rw [← h1]; exact List.mem_filter.2 ⟨hee, hpe⟩
        · exact absurd (h5 x hx e hee hpe) (by simp)
      | cons y ys =>
        simp at h2
        have hm : m ∈ (g t).filter p := by rw [h1, h2.1]; simp
        exact ⟨[], t, ts, rfl, (List.mem_filter.1 hm).1, (List.mem_filter.1 hm).2, by simp⟩

/-- C55: after any history, the helper class of a class, once the inherited virtual methods have
been added, has one override per signature, and every override is for a virtual method declared by
the class or an ancestor. -/
theorem C55_overrides (h : Hier) (allow sing : Nat → Bool) (ops : List MOp) (c : Nat) (H : Helper)
    (hH : (mrun h (fresh allow sing) ops c).helper = some H) :
    let σ := mrun h (fresh allow sing) ops
    let H' := inheritVirtuals h σ c H
    (H'.virtualMethods.map (·.sig)).Nodup ∧
    ∀ m ∈ H'.virtualMethods, Ancestor h m.owner c ∧ m ∈ (σ m.owner).allMethods ∧ m.isVirtual = true := by
  intro σ H'
  have hi := hinv_run h allow sing ops
  refine ⟨fold_nodup _ _ (hi.nodup c H hH), fun m hm => ?_⟩
  rcases fold_mem _ _ _ hm with hm | ⟨l1, l2, he, _, _⟩
  · obtain ⟨h1, h2⟩ := hi.own c H hH m hm
    obtain ⟨h3, _, _⟩ := hi.methods c m h1
    rw [h3]
    exact ⟨Ancestor.refl h c, h1, h2⟩
  · obtain ⟨p1, d, p2, h1, h2, h3, _⟩ := filter_flatMap_split _ _ _ _ _ _ he
    obtain ⟨h4, _, _⟩ := hi.methods d m h2
    rw [h4]
    refine ⟨(C33_mro_mem h c d).1 (List.mem_of_mem_tail (by rw [h1]; simp)), h2, h3⟩

/-- C55 (partial: helper classes are never enabled again and no ancestor is disabled): every virtual
method that the class or an ancestor declares, and that can be wrapped, is overridden, and the one
kept for a signature is the one of the nearest class. -/
theorem C55_complete_partial (h : Hier) (allow sing : Nat → Bool) (ops : List MOp) (c : Nat) (H : Helper)
    (hn : ∀ op ∈ ops, op.noEnable) (hs : sing c = false)
    (hd : ∀ d, Ancestor h d c → (mrun h (fresh allow sing) ops d).disabled = false)
    (hH : (mrun h (fresh allow sing) ops c).helper = some H) :
    let σ := mrun h (fresh allow sing) ops
    let H' := inheritVirtuals h σ c H
    (∀ d, Ancestor h d c → ∀ m ∈ (σ d).allMethods, m.isVirtual = true →
      m.sig ∈ H'.virtualMethods.map (·.sig)) ∧
    (∀ m ∈ H'.virtualMethods, ∀ x, Nearer h c x m.owner →
      ∀ m' ∈ (σ x).allMethods, m'.isVirtual = true → m'.sig ≠ m.sig) := by
  intro σ H'
  have hi := hinv_run h allow sing ops
  have hsing : ∀ (l : List MOp) (τ : St), (τ c).isSingleton = false → (mrun h τ l c).isSingleton = false := by
    intro l
    induction l with
    | nil => intro τ ht; exact ht
    | cons op l ih =>
      intro τ ht
      apply ih
      exact (step_singleton h τ op c).trans ht
  have hown : ∀ m ∈ (σ c).allMethods, m.isVirtual = true → m.sig ∈ H.virtualMethods.map (·.sig) := by
    intro m hm hv
    obtain ⟨G, hG, hg⟩ := complete_run h allow sing ops hn c hd (hi.allowed c H hH) (hsing ops _ hs) m hm hv
    rw [hH] at hG; cases hG; exact hg
  obtain ⟨hhead, hord⟩ := C33_mro_order h c
  obtain ⟨tl, hmro⟩ : ∃ tl, h.mro c = c :: tl := by
    cases hm : h.mro c with
    | nil => rw [hm] at hhead; simp at hhead
    | cons y ys => rw [hm] at hhead; simp at hhead; subst hhead; exact ⟨ys, rfl⟩
  constructor
  · intro d hda m hm hv
    have hdm := (C33_mro_mem h c d).2 hda
    rw [hmro] at hdm
    rcases List.mem_cons.1 hdm with rfl | hdm
    · obtain ⟨e, he, hes⟩ := List.mem_map.1 (hown m hm hv)
      exact List.mem_map.2 ⟨e, fold_mono _ _ e he, hes⟩
    · apply fold_sig
      · intro x hx
        obtain ⟨y, _, hxy⟩ := List.mem_flatMap.1 (List.mem_filter.1 hx).1
        exact (hi.methods y x hxy).2.1
      · exact List.mem_filter.2 ⟨List.mem_flatMap.2 ⟨d, by rw [hmro]; exact hdm, hm⟩, hv⟩
  · intro m hm x hx m' hm' hv'
    rcases fold_mem _ _ _ hm with hm | ⟨l1, l2, he, h1, h2⟩
    · have := (hi.methods c m (hi.own c H hH m hm).1).1
      rw [this] at hx
      obtain ⟨n, _, hno⟩ := hx
      exact absurd (Path.refl c) (hno 0 (Nat.zero_le _))
    · obtain ⟨p1, d, p2, hsp, hmd, hmv, h3⟩ := filter_flatMap_split _ _ _ _ _ _ he
      have hdo := (hi.methods d m hmd).1
      rw [hdo] at hx
      have hda : Ancestor h d c := (C33_mro_mem h c d).1 (List.mem_of_mem_tail (by rw [hsp]; simp))
      have hlt := hord x d hda hx
      by_cases hxc : x = c
      · subst hxc
        obtain ⟨e, hee, hes⟩ := List.mem_map.1 (hown m' hm' hv')
        rw [← hes]; exact h1 e hee
      · have hxp : x ∈ p1 := by
          rw [hmro] at hlt hsp
          simp only [List.tail_cons] at hsp
          subst hsp
          have hdle : (c :: (p1 ++ d :: p2)).idxOf d ≤ p1.length + 1 := by
            rcases Nat.lt_or_ge (p1.length + 1) ((c :: (p1 ++ d :: p2)).idxOf d) with hl | hl
            · exfalso
              have := List.not_of_lt_findIdx (p := (· == d)) (xs := c :: (p1 ++ d :: p2)) (i := p1.length + 1) hl
              simp at this
            · exact hl
          by_contra hnx
          have hcx : c ≠ x := fun hh => hxc hh.symm
          rw [List.idxOf_cons_ne _ hcx, List.idxOf_append_of_notMem hnx] at hlt
          omega
        exact h2 m' (h3 x hxp m' hm' hv') (hi.methods x m' hm').2.1

/-- C55: when a pure virtual method that cannot be wrapped is declared on a class that has a helper
class not overriding it, neither that class nor any descendant gets a helper class from then on. -/
theorem C55_unwrappable (h : Hier) (σ : St) (c : Nat) (m : Meth) (H : Helper)
    (hv : m.isVirtual = true) (hp : m.isPure = true) (hH : (getHelper h σ c).1 = some H)
    (hno : ∀ x ∈ H.virtualMethods, x.sig ≠ m.sig) (e : Nat) (he : Ancestor h c e) :
    (getHelper h (mstep h σ (.addUnwrappable c m)) e).1 = none := by
  have hdis : ((mstep h σ (.addUnwrappable c m)) c).disabled = true := by
    simp only [mstep, addDummy, hv, if_true]
    have hg : ∀ (τ : St), (∀ d, (τ d).disabled = (σ d).disabled) →
        (∀ d, (τ d).allowSubclassing = (σ d).allowSubclassing) → (∀ d, (τ d).isSingleton = (σ d).isSingleton) →
        (∀ d, (τ d).helper = (σ d).helper) → (getHelper h τ c).1 = some H := by
      intro τ h1 h2 h3 h4
      rw [← hH]
      unfold getHelper
      simp only [h1, h2, h3, h4]
      split
      · rfl
      · split
        · rfl
        · split
          · rfl
          · split <;> rfl
    have := hg (σ.put c { σ c with dummies := (σ c).dummies ++ [{ m with isDummy := true, isCpp := true, owner := c, isVirtual := true }], cache := none })
      (by intro d; simp only [St.put]; split <;> simp_all) (by intro d; simp only [St.put]; split <;> simp_all)
      (by intro d; simp only [St.put]; split <;> simp_all) (by intro d; simp only [St.put]; split <;> simp_all)
    generalize getHelper h _ c = r at this ⊢
    obtain ⟨o, s⟩ := r
    simp only at this
    subst this
    have hc : (H.addVirtual { m with isDummy := true, isCpp := true, owner := c, isVirtual := true }).cannotBeConstructed = true := by
      unfold Helper.addVirtual
      rw [if_neg]
      · simp [hp]
      · simp only [List.any_eq_true, decide_eq_true_eq, not_exists, not_and]
        exact hno
    simp [hc]
  unfold getHelper
  rw [if_pos]
  rw [List.any_eq_true]
  exact ⟨c, (C33_mro_mem h e c).2 he, hdis⟩

/-! ## Examples and counterexamples -/

def sigG : Sig := ⟨['g'], [], false⟩

/-- `virtual void g();` -/
def implG : Meth := { sig := sigG, owner := 0, isVirtual := true }

private theorem chain2_mro : (hierOf [[], [0]]).mro 0 = [0] ∧ (hierOf [[], [0]]).mro 1 = [1, 0] := by
  refine ⟨mro_nil (by decide), ?_⟩
  rw [mro_single (p := 0) (by decide), mro_nil (by decide)]

/-- A base with `f`, a derived class with `g` and its own `f`: `f` is taken from the derived class. -/
example : let h := hierOf [[], [0]]
    let σ := mrun h (fresh (fun _ => true) (fun _ => false)) [.add 0 pureF, .add 1 implG, .add 1 implF]
    ∃ H, (σ 1).helper = some H ∧ (σ 0).disabled = false ∧ (σ 1).disabled = false ∧
      (inheritVirtuals h σ 1 H).virtualMethods.map (fun m => (m.sig, m.owner)) = [(sigG, 1), (sigF, 1)] := by
  obtain ⟨m0, m1⟩ := chain2_mro
  simp [mrun, mstep, addMethodObj, getHelper, m0, m1, fresh, St.put, pureF, implG, implF, addToOverloads,
    Helper.addVirtual, inheritVirtuals, ClsM.allMethods, sigF, sigG]

/-- C55 fails for pure virtual methods of a base that could not be wrapped when the base has no helper
class of its own: the derived class keeps its helper class although it does not override the method,
so the generated class is still abstract and cannot be instantiated. -/
theorem C55_base_unwrappable_counterexample :
    let h := hierOf [[], [0]]
    let σ := mrun h (fresh (fun c => c = 1) (fun _ => false)) [.addUnwrappable 0 pureF, .add 1 implG]
    IsAbstract h σ 1 ∧ ∃ H, (σ 1).helper = some H ∧ (getHelper h σ 1).1 = some H ∧
      (inheritVirtuals h σ 1 H).cannotBeConstructed = false ∧
      sigF ∉ (inheritVirtuals h σ 1 H).virtualMethods.map (·.sig) := by
  obtain ⟨m0, m1⟩ := chain2_mro
  intro h σ
  have hd0 : (σ 0).declared = [{ pureF with isDummy := true }] := by
    simp [σ, h, mrun, mstep, addMethodObj, addDummy, getHelper, m0, m1, fresh, St.put, pureF, implG, addToOverloads,
      Helper.addVirtual, ClsM.allMethods, ClsM.declared, sigF, sigG]
  have hd1 : (σ 1).declared = [{ implG with owner := 1 }] := by
    simp [σ, h, mrun, mstep, addMethodObj, addDummy, getHelper, m0, m1, fresh, St.put, pureF, implG, addToOverloads,
      Helper.addVirtual, ClsM.allMethods, ClsM.declared, sigF, sigG]
  refine ⟨⟨0, sigF, (C33_mro_mem _ _ _).1 (by rw [m1]; simp), ⟨_, by rw [hd0]; simp; rfl, rfl, rfl, rfl⟩, ?_⟩, ?_⟩
  · intro e he _ hne hdec
    have := (C33_mro_mem _ _ _).2 he
    rw [m1] at this
    simp at this
    rcases this with rfl | rfl
    · obtain ⟨m, hm, _, _, hs⟩ := hdec
      rw [hd1] at hm
      simp at hm
      subst hm
      simp [implG, sigF, sigG] at hs
    · exact hne rfl
  · simp [σ, h, mrun, mstep, addMethodObj, addDummy, getHelper, m0, m1, fresh, St.put, pureF, implG, addToOverloads,
      Helper.addVirtual, inheritVirtuals, ClsM.allMethods, sigF, sigG]

/-- C55 fails when helper classes are disabled and enabled again: the virtual methods declared
before are not overridden any more. -/
theorem C55_reenabled_counterexample :
    let h := hierOf []
    let σ := mrun h (fresh (fun _ => true) (fun _ => false))
      [.add 0 implF, .disable 0 true, .disable 0 false, .add 0 implG]
    ∃ H, (σ 0).helper = some H ∧ (∃ m ∈ (σ 0).allMethods, m.isVirtual = true ∧ m.sig = sigF) ∧
      sigF ∉ (inheritVirtuals h σ 0 H).virtualMethods.map (·.sig) := by
  have m0 : (hierOf []).mro 0 = [0] := mro_nil (by decide)
  simp [mrun, mstep, addMethodObj, setDisabled, getHelper, m0, fresh, St.put, implF, implG, addToOverloads,
    Helper.addVirtual, inheritVirtuals, ClsM.allMethods, sigF, sigG]

/-- C55: which classes have a helper class.  Asking for it gives one exactly when subclassing is
allowed, the helper class of no class of the hierarchy is disabled, and the class is not a singleton
or already has one (which a history of calls never gives to a singleton or to a class that can not
be subclassed). -/
theorem C55_has_helper (h : Hier) (allow sing : Nat → Bool) (ops : List MOp) (c : Nat) :
    (getHelper h (mrun h (fresh allow sing) ops) c).1 ≠ none ↔
      (allow c = true ∧ sing c = false ∧ ∀ d, Ancestor h d c → (mrun h (fresh allow sing) ops d).disabled = false) := by
  have hkey : ∀ (ops : List MOp) (σ : St), (∀ d, (σ d).allowSubclassing = allow d ∧ (σ d).isSingleton = sing d) →
      (∀ d, sing d = true → (σ d).helper = none) →
      (∀ d, (mrun h σ ops d).allowSubclassing = allow d ∧ (mrun h σ ops d).isSingleton = sing d) ∧
      (∀ d, sing d = true → (mrun h σ ops d).helper = none) := by
    have hget : ∀ (σ : St) (c : Nat), (∀ d, (σ d).allowSubclassing = allow d ∧ (σ d).isSingleton = sing d) →
        (∀ d, sing d = true → (σ d).helper = none) →
        (∀ d, ((getHelper h σ c).2 d).allowSubclassing = allow d ∧ ((getHelper h σ c).2 d).isSingleton = sing d) ∧
        (∀ d, sing d = true → ((getHelper h σ c).2 d).helper = none) ∧
        (sing c = true → (getHelper h σ c).1 = none) := by
      intro σ c h1 h2
      unfold getHelper
      split
      · exact ⟨h1, h2, fun _ => rfl⟩
      · split
        · exact ⟨h1, h2, fun _ => rfl⟩
        · split
          · next H hH => exact ⟨h1, h2, fun hs => absurd hH (by rw [h2 c hs]; simp)⟩
          · split
            · exact ⟨h1, h2, fun _ => rfl⟩
            · next hs =>
              rw [(h1 c).2] at hs
              refine ⟨fun d => ?_, fun d hd => ?_, fun hc => absurd hc hs⟩
              · by_cases hdc : d = c
                · subst hdc; simp [St.put, h1 d]
                · simp [St.put, hdc, h1 d]
              · have hdc : d ≠ c := fun e => hs (e ▸ hd)
                simp [St.put, hdc, h2 d hd]
    have hput : ∀ (σ : St) (c : Nat) (x : ClsM), (∀ d, (σ d).allowSubclassing = allow d ∧ (σ d).isSingleton = sing d) →
        (∀ d, sing d = true → (σ d).helper = none) → x.allowSubclassing = (σ c).allowSubclassing →
        x.isSingleton = (σ c).isSingleton → (sing c = true → x.helper = none) →
        (∀ d, ((σ.put c x) d).allowSubclassing = allow d ∧ ((σ.put c x) d).isSingleton = sing d) ∧
        (∀ d, sing d = true → ((σ.put c x) d).helper = none) := by
      intro σ c x h1 h2 h3 h4 h5
      refine ⟨fun d => ?_, fun d hd => ?_⟩
      · by_cases hdc : d = c
        · subst hdc; simp [St.put, h3, h4, h1 d]
        · simp [St.put, hdc, h1 d]
      · by_cases hdc : d = c
        · subst hdc; simp [St.put, h5 hd]
        · simp [St.put, hdc, h2 d hd]
    have hadd : ∀ (σ : St) (c : Nat) (m : Meth), (∀ d, (σ d).allowSubclassing = allow d ∧ (σ d).isSingleton = sing d) →
        (∀ d, sing d = true → (σ d).helper = none) →
        (∀ d, (addMethodObj h σ c m d).allowSubclassing = allow d ∧ (addMethodObj h σ c m d).isSingleton = sing d) ∧
        (∀ d, sing d = true → (addMethodObj h σ c m d).helper = none) := by
      intro σ c m h1 h2
      obtain ⟨σ1, hσ1⟩ : ∃ σ1, σ1 = (if m.vis = .prot && !m.isVirtual then (getHelper h σ c).2
        else if m.vis = .pub then σ.put c { σ c with methods := addToOverloads (σ c).methods m.sig.name { m with owner := c } }
        else σ.put c { σ c with nonpublic := (σ c).nonpublic ++ [{ m with owner := c }] }) := ⟨_, rfl⟩
      have e1 : (∀ d, (σ1 d).allowSubclassing = allow d ∧ (σ1 d).isSingleton = sing d) ∧
          (∀ d, sing d = true → (σ1 d).helper = none) := by
        subst hσ1
        split
        · have := hget σ c h1 h2; exact ⟨this.1, this.2.1⟩
        · split
          · exact hput _ _ _ h1 h2 rfl rfl (fun hs => h2 c hs)
          · exact hput _ _ _ h1 h2 rfl rfl (fun hs => h2 c hs)
      have e : addMethodObj h σ c m = if m.isVirtual then
          (match getHelper h (σ1.put c { σ1 c with cache := none }) c with
          | (some H, σ3) => σ3.put c { σ3 c with helper := some (H.addVirtual { m with owner := c }) }
          | (none, σ3) => σ3) else σ1 := by subst hσ1; rfl
      rw [e]
      split
      · have h3 := hput σ1 c { σ1 c with cache := none } e1.1 e1.2 rfl rfl (fun hs => e1.2 c hs)
        have h4 := hget _ c h3.1 h3.2
        split
        · next H σ3 he =>
          rw [he] at h4
          exact hput _ _ _ h4.1 h4.2.1 rfl rfl (fun hs => by have := h4.2.2 hs; cases this)
        · next σ3 he => rw [he] at h4; exact ⟨h4.1, h4.2.1⟩
      · exact e1
    intro ops
    induction ops with
    | nil => intro σ h1 h2; exact ⟨h1, h2⟩
    | cons op ops ih =>
      intro σ h1 h2
      have : (∀ d, (mstep h σ op d).allowSubclassing = allow d ∧ (mstep h σ op d).isSingleton = sing d) ∧
          (∀ d, sing d = true → (mstep h σ op d).helper = none) := by
        cases op with
        | query c =>
          simp only [mstep, queryAbstract]
          split
          · exact ⟨h1, h2⟩
          · exact hput _ _ _ h1 h2 rfl rfl (fun hs => h2 c hs)
        | disable c b =>
          simp only [mstep, setDisabled]
          refine hput _ _ _ h1 h2 rfl rfl (fun hs => ?_)
          simp only
          split
          · rfl
          · exact h2 c hs
        | add c m => exact hadd _ _ _ h1 h2
        | addFunction c sg => exact hadd _ _ _ h1 h2
        | addUnwrappable c m =>
          simp only [mstep, addDummy]
          split
          · have h3 := hput σ c { σ c with dummies := (σ c).dummies ++ [{ m with owner := c, isDummy := true, isCpp := true }], cache := none }
              h1 h2 rfl rfl (fun hs => h2 c hs)
            have h4 := hget _ c h3.1 h3.2
            generalize hg : getHelper h (σ.put c _) c = r at h4
            obtain ⟨r1, σ2⟩ := r
            cases r1 with
            | some H =>
              have hns : sing c = true → False := fun hs => by have := h4.2.2 hs; cases this
              dsimp only
              split
              · exact hput _ _ _ h4.1 h4.2.1 rfl rfl (fun hs => (hns hs).elim)
              · exact hput _ _ _ h4.1 h4.2.1 rfl rfl (fun hs => (hns hs).elim)
            | none => exact ⟨h4.1, h4.2.1⟩
          · exact ⟨h1, h2⟩
      exact ih _ this.1 this.2
  obtain ⟨k1, k2⟩ := hkey ops (fresh allow sing) (fun d => ⟨rfl, rfl⟩) (fun d _ => rfl)
  generalize hσ : mrun h (fresh allow sing) ops = σ at k1 k2
  unfold getHelper
  constructor
  · intro hne
    split at hne
    · exact absurd rfl hne
    · next hd =>
      split at hne
      · exact absurd rfl hne
      · next ha =>
        refine ⟨by rw [← (k1 c).1]; simpa using ha, ?_, ?_⟩
        · split at hne
          · next H hH =>
            cases hs : sing c with
            | false => rfl
            | true => rw [k2 c hs] at hH; cases hH
          · split at hne
            · exact absurd rfl hne
            · next hs => rw [(k1 c).2] at hs; simpa using hs
        · intro d hda
          cases hdd : (σ d).disabled with
          | false => rfl
          | true =>
            exact absurd (List.any_eq_true.2 ⟨d, (C33_mro_mem h c d).2 hda, hdd⟩) hd
  · rintro ⟨ha, hs, hd⟩
    rw [if_neg, if_neg]
    · split
      · simp
      · rw [if_neg (by rw [(k1 c).2, hs]; simp)]; simp
    · rw [(k1 c).1, ha]; simp
    · intro hany
      obtain ⟨d, hdm, hdd⟩ := List.any_eq_true.1 hany
      rw [hd d ((C33_mro_mem h c d).1 hdm)] at hdd
      cases hdd

end Verif.CppClass
