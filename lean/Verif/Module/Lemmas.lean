import Verif.Module.Model

/-!
# Lemmas on module trees
-/
namespace Verif.Module
open Verif

variable {W F : Type}

/-- Every module but the root has an older parent. -/
def Wf (w : World W F) : Prop :=
  (∃ r, w.mods[0]? = some r ∧ r.parent = none) ∧
  ∀ (i : Nat) (m : Mod W F), w.mods[i]? = some m → 0 < i → ∃ p, m.parent = some p ∧ p < i

theorem wf_root (name ns : Str) : Wf (newRoot name ns : World W F) := by
  refine ⟨⟨_, rfl, rfl⟩, ?_⟩
  intro i m h hi
  cases i with
  | zero => omega
  | succ i => simp [newRoot] at h

/-- The fields that never change once a module exists. -/
structure Core where
  name : Str
  parent : Option Nat
  ns : Str
  deriving DecidableEq

def Mod.core (m : Mod W F) : Core := ⟨m.name, m.parent, m.ns⟩

def World.cores (w : World W F) : List Core := w.mods.map Mod.core

theorem cores_get (w : World W F) (i : Nat) : w.cores[i]? = (w.mods[i]?).map Mod.core := by
  simp [World.cores]

theorem cores_upd (w : World W F) (i : Nat) (f : Mod W F → Mod W F) (hf : ∀ m, (f m).core = m.core) :
    (w.upd i f).cores = w.cores := by
  apply List.ext_getElem?
  intro j
  rw [cores_get, cores_get]
  simp only [World.upd, List.getElem?_modify]
  cases w.mods[j]? with
  | none => rfl
  | some m => simp only [Option.map_some]; split <;> simp [hf]

theorem length_upd (w : World W F) (i : Nat) (f : Mod W F → Mod W F) :
    (w.upd i f).mods.length = w.mods.length := by simp [World.upd]

theorem cores_length (w : World W F) : w.cores.length = w.mods.length := by simp [World.cores]

/-- The walk up the tree in terms of the immutable fields. -/
def coreChain (cs : List Core) : Nat → Nat → List Nat
  | 0, _ => []
  | fuel + 1, i =>
    match cs[i]? with
    | none => []
    | some c =>
      match c.parent with
      | none => [i]
      | some p => i :: coreChain cs fuel p

theorem chainAux_eq (w : World W F) (n i : Nat) : chainAux w n i = coreChain w.cores n i := by
  induction n generalizing i with
  | zero => rfl
  | succ n ih =>
    unfold chainAux coreChain
    rw [cores_get]
    cases w.mods[i]? with
    | none => rfl
    | some m =>
      simp only [Option.map_some, Mod.core]
      cases m.parent with
      | none => rfl
      | some p => simp [ih]

theorem chain_cores {w w' : World W F} (h : w'.cores = w.cores) (i : Nat) : chain w' i = chain w i := by
  simp [chain, chainAux_eq, h]

theorem wf_cores {w w' : World W F} (h : w'.cores = w.cores) (hw : Wf w) : Wf w' := by
  have hg : ∀ i : Nat, (w'.mods[i]?).map Mod.core = (w.mods[i]?).map Mod.core := by
    intro i; rw [← cores_get, ← cores_get, h]
  have hp : ∀ (i : Nat) (m : Mod W F), w'.mods[i]? = some m → ∃ m', w.mods[i]? = some m' ∧ m'.parent = m.parent := by
    intro i m hm
    have := hg i
    rw [hm] at this
    cases hm' : w.mods[i]? with
    | none => rw [hm'] at this; cases this
    | some m' =>
      rw [hm'] at this
      simp [Mod.core] at this
      exact ⟨m', rfl, this.2.1.symm⟩
  refine ⟨?_, ?_⟩
  · obtain ⟨r, hr, hr'⟩ := hw.1
    have := hg 0
    rw [hr] at this
    cases hm : w'.mods[0]? with
    | none => rw [hm] at this; cases this
    | some m =>
      obtain ⟨m', h1, h2⟩ := hp 0 m hm
      rw [hr] at h1; cases h1
      exact ⟨m, rfl, by rw [← h2, hr']⟩
  · intro i m hm hi
    obtain ⟨m', h1, h2⟩ := hp i m hm
    obtain ⟨p, h3, h4⟩ := hw.2 i m' h1 hi
    exact ⟨p, by rw [← h2, h3], h4⟩

/-- Walking up: with enough fuel the result does not depend on it. -/
theorem chainAux_fuel {w : World W F} (hw : Wf w) (n k i : Nat) (hn : i < n) (hk : i < k) :
    chainAux w n i = chainAux w k i := by
  induction n generalizing k i with
  | zero => omega
  | succ n ih =>
    cases k with
    | zero => omega
    | succ k =>
      unfold chainAux
      cases hm : w.mods[i]? with
      | none => rfl
      | some m =>
        simp only
        cases hp : m.parent with
        | none => rfl
        | some p =>
          simp only
          rcases Nat.eq_zero_or_pos i with rfl | hi
          · obtain ⟨r, hr, hr'⟩ := hw.1
            rw [hr] at hm; cases hm; rw [hr'] at hp; cases hp
          · obtain ⟨q, hq, hlt⟩ := hw.2 i m hm hi
            rw [hp] at hq; cases hq
            rw [ih k p (by omega) (by omega)]

theorem chain_root {w : World W F} {i : Nat} {m : Mod W F} (hm : w.mods[i]? = some m)
    (hp : m.parent = none) : chain w i = [i] := by
  unfold chain chainAux
  rw [hm]
  simp only [hp]

theorem chain_sub {w : World W F} (hw : Wf w) {i p : Nat} {m : Mod W F} (hm : w.mods[i]? = some m)
    (hp : m.parent = some p) : chain w i = i :: chain w p := by
  have hi : 0 < i := by
    rcases Nat.eq_zero_or_pos i with rfl | hi
    · obtain ⟨r, hr, hr'⟩ := hw.1
      rw [hr] at hm; cases hm; rw [hr'] at hp; cases hp
    · exact hi
  obtain ⟨q, hq, hlt⟩ := hw.2 i m hm hi
  rw [hp] at hq; cases hq
  have h1 : chain w i = i :: chainAux w i p := by
    unfold chain
    rw [chainAux, hm]
    simp only [hp]
  rw [h1, chain, chainAux_fuel hw i (p + 1) p hlt (by omega)]

/-- Adding a module leaves the others as they are. -/
theorem newSub_cores (w : World W F) (p : Nat) (name ns : Str) :
    (newSub w p name ns).1.cores = w.cores ++ [⟨name, some p, ns⟩] ∧ (newSub w p name ns).2 = w.mods.length := by
  unfold newSub
  refine ⟨?_, rfl⟩
  have := cores_upd w p (fun m => { m with subs := m.subs ++ [w.mods.length] }) (fun _ => rfl)
  simp only [World.cores, List.map_append] at this ⊢
  rw [this]
  rfl

theorem coreChain_append (cs : List Core) (c : Core) (n i : Nat)
    (hwf : ∀ (j : Nat) (d : Core), cs[j]? = some d → ∀ p, d.parent = some p → p < cs.length) (hi : i < cs.length) :
    coreChain (cs ++ [c]) n i = coreChain cs n i := by
  induction n generalizing i with
  | zero => rfl
  | succ n ih =>
    unfold coreChain
    rw [List.getElem?_append_left hi]
    cases hc : cs[i]? with
    | none => rfl
    | some d =>
      simp only
      cases hp : d.parent with
      | none => rfl
      | some p => simp only; rw [ih p (hwf i d hc p hp)]

theorem wf_append {w w' : World W F} {c : Core} {p : Nat} (hw : Wf w) (hp : p < w.mods.length)
    (hc : c.parent = some p) (h : w'.cores = w.cores ++ [c]) : Wf w' := by
  have hlen : w'.mods.length = w.mods.length + 1 := by
    rw [← cores_length, h]; simp [cores_length]
  have hg : ∀ i : Nat, (w'.mods[i]?).map Mod.core = (w.cores ++ [c])[i]? := by
    intro i; rw [← cores_get, h]
  have hold : ∀ (i : Nat) (m : Mod W F), i < w.mods.length → w'.mods[i]? = some m →
      ∃ m', w.mods[i]? = some m' ∧ m'.parent = m.parent := by
    intro i m hi hm
    have := hg i
    rw [hm, List.getElem?_append_left (by rw [cores_length]; exact hi), cores_get] at this
    cases hm' : w.mods[i]? with
    | none => rw [hm'] at this; cases this
    | some m' => rw [hm'] at this; simp [Mod.core] at this; exact ⟨m', rfl, this.2.1.symm⟩
  refine ⟨?_, ?_⟩
  · obtain ⟨r, hr, hr'⟩ := hw.1
    have h0 : 0 < w'.mods.length := by omega
    have hm : w'.mods[0]? = some w'.mods[0] := List.getElem?_eq_getElem h0
    obtain ⟨m', h1, h2⟩ := hold 0 _ (by omega) hm
    rw [hr] at h1; cases h1
    exact ⟨_, hm, by rw [← h2, hr']⟩
  · intro i m hm hi
    have hil : i < w'.mods.length := by
      rcases Nat.lt_or_ge i w'.mods.length with h | h
      · exact h
      · rw [List.getElem?_eq_none h] at hm; cases hm
    rcases Nat.lt_or_ge i w.mods.length with hlt | hge
    · obtain ⟨m', h1, h2⟩ := hold i m hlt hm
      obtain ⟨q, h3, h4⟩ := hw.2 i m' h1 hi
      exact ⟨q, by rw [← h2, h3], h4⟩
    · have hi' : i = w.mods.length := by omega
      have := hg i
      rw [hm, hi', ← cores_length, List.getElem?_append_right (Nat.le_refl _)] at this
      simp at this
      have h5 : m.parent = c.parent := by rw [← this]; rfl
      exact ⟨p, by rw [h5, hc], by omega⟩

theorem chain_append {w w' : World W F} {c : Core} (hw : Wf w) (h : w'.cores = w.cores ++ [c])
    {i : Nat} (hi : i < w.mods.length) : chain w' i = chain w i := by
  unfold chain
  rw [chainAux_eq, chainAux_eq, h]
  apply coreChain_append
  · intro j d hd p hp
    rw [cores_get] at hd
    cases hm : w.mods[j]? with
    | none => rw [hm] at hd; cases hd
    | some m =>
      rw [hm] at hd
      simp at hd
      subst hd
      have hj : j < w.mods.length := by
        rcases Nat.lt_or_ge j w.mods.length with h | h
        · exact h
        · rw [List.getElem?_eq_none h] at hm; cases hm
      rcases Nat.eq_zero_or_pos j with rfl | hj0
      · obtain ⟨r, hr, hr'⟩ := hw.1
        rw [hr] at hm; cases hm
        rw [show m.core.parent = m.parent from rfl, hr'] at hp; cases hp
      · obtain ⟨q, hq, hlt⟩ := hw.2 j m hm hj0
        rw [show m.core.parent = m.parent from rfl, hq] at hp; cases hp
        rw [cores_length]; omega
  · rw [cores_length]; exact hi

theorem registerType_cores (w : World W F) (m : Nat) (n f : Str) (t : W) :
    (registerType w m n f t).cores = w.cores := by
  have hfold : ∀ (l : List Nat) (w : World W F),
      (l.foldl (fun w j => w.upd j (fun md => { md with types := md.types.set f t })) w).cores = w.cores := by
    intro l
    induction l with
    | nil => intro w; rfl
    | cons x xs ih => intro w; rw [List.foldl_cons, ih]; exact cores_upd _ _ _ (fun _ => rfl)
  have h1 : (if n = [] then w else w.upd m (fun md => { md with types := md.types.set n t })).cores = w.cores := by
    split
    · rfl
    · exact cores_upd _ _ _ (fun _ => rfl)
  unfold registerType
  simp only
  split
  · exact h1
  · rw [hfold, h1]

/-- The effect of one call on the immutable part of the tree. -/
theorem step_cores (w : World W F) (op : Op W F) :
    (step w op).2.cores = w.cores ∨
    ∃ c, (step w op).2.cores = w.cores ++ [c] ∧ c.parent = some op.target ∧ op.target < w.mods.length := by
  unfold step
  split
  · next h =>
    cases op with
    | newSub m n ns => exact .inr ⟨_, (newSub_cores w m n ns).1, rfl, h⟩
    | addNamespace m n =>
      simp only [addNamespace]
      split
      · exact .inl rfl
      · exact .inr ⟨_, (newSub_cores w m n n).1, rfl, h⟩
    | beginSection m n =>
      left
      simp only [beginSection]
      split
      · next h' => split at h' <;> (try split at h') <;> (try split at h') <;> cases h'; rfl
      · rfl
    | endSection m n =>
      left
      simp only [endSection]
      split
      · next h' => split at h' <;> (try split at h') <;> cases h'; rfl
      · rfl
    | addInclude m s =>
      left
      simp only [addInclude]
      split
      · next h' => split at h' <;> (try split at h') <;> cases h' <;> rfl
      · rfl
    | declareOneTime m n =>
      left
      simp only [declareOneTime]
      split
      · next h' => split at h' <;> cases h'; rfl
      · rfl
    | registerType m n f t => exact .inl (registerType_cores w m n f t)
    | addFunction m c n ts f => exact .inl (cores_upd _ _ _ (fun _ => rfl))
  · exact .inl rfl

theorem wf_step {w : World W F} (hw : Wf w) (op : Op W F) : Wf (step w op).2 := by
  rcases step_cores w op with h | ⟨c, h, hc, ht⟩
  · exact wf_cores h hw
  · exact wf_append hw ht hc h

theorem wf_after {w : World W F} (hw : Wf w) (h : List (Op W F)) : Wf (after w h) := by
  induction h generalizing w with
  | nil => exact hw
  | cons op ops ih => exact ih (wf_step hw op)

theorem after_append (w : World W F) (a b : List (Op W F)) : after w (a ++ b) = after (after w a) b := by
  simp [after]

theorem after_snoc (w : World W F) (a : List (Op W F)) (op : Op W F) :
    after w (a ++ [op]) = (step (after w a) op).2 := by simp [after]

theorem step_length_le (w : World W F) (op : Op W F) : w.mods.length ≤ (step w op).2.mods.length := by
  rw [← cores_length, ← cores_length]
  rcases step_cores w op with h | ⟨c, h, _, _⟩ <;> rw [h] <;> simp

/-- A module once created keeps name, parent, namespace and the chain of its parents. -/
theorem step_chain {w : World W F} (hw : Wf w) (op : Op W F) {i : Nat} (hi : i < w.mods.length) :
    chain (step w op).2 i = chain w i := by
  rcases step_cores w op with h | ⟨c, h, _, _⟩
  · exact chain_cores h i
  · exact chain_append hw h hi

theorem step_core_get (w : World W F) (op : Op W F) {i : Nat} (hi : i < w.mods.length) :
    (step w op).2.cores[i]? = w.cores[i]? := by
  rcases step_cores w op with h | ⟨c, h, _, _⟩ <;> rw [h]
  rw [List.getElem?_append_left (by rw [cores_length]; exact hi)]

end Verif.Module
