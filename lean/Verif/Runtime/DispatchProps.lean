import Verif.Runtime.Dispatch
import Mathlib.Data.List.Nodup

/-!
# C100: virtual methods between C++ and Python

Calling a virtual method of an object runs its C++ final overrider if no Python class overrides it, and otherwise the override
of the nearest Python class; an override that calls the one it overrides reaches the next Python class that overrides it, and
after those the C++ final overrider.
-/
namespace Verif.Dispatch
open Verif Verif.CppClass

private theorem inj_map {α β : Type} {f : α → β} {l : List α} (h : (l.map f).Nodup) {x y : α} (hx : x ∈ l) (hy : y ∈ l)
    (e : f x = f y) : x = y := by
  induction l with
  | nil => cases hx
  | cons a l ih =>
    rw [List.map_cons, List.nodup_cons] at h
    rcases List.mem_cons.1 hx with rfl | hx
    · rcases List.mem_cons.1 hy with rfl | hy
      · rfl
      · exact absurd (List.mem_map.2 ⟨y, hy, e.symm⟩) h.1
    · rcases List.mem_cons.1 hy with hya | hy
      · subst hya; exact absurd (e ▸ List.mem_map.2 ⟨x, by assumption, rfl⟩) h.1
      · exact ih h.2 hx hy

/-! ## Where methods are recorded -/

/-- The overload sets of a class are public methods of that name; the other list has no public method. -/
structure KInv (x : ClsM) : Prop where
  keys : (x.methods.map (·.1)).Nodup
  names : ∀ p ∈ x.methods, ∀ m ∈ p.2, m.sig.name = p.1 ∧ m.vis = .pub
  hidden : ∀ m ∈ x.nonpublic, m.vis ≠ .pub
  filled : ∀ p ∈ x.methods, p.2 ≠ []

private theorem add_keys (d : List (Str × List Meth)) (n : Str) (m : Meth) :
    (addToOverloads d n m).map (·.1) = if n ∈ d.map (·.1) then d.map (·.1) else d.map (·.1) ++ [n] := by
  induction d with
  | nil => simp [addToOverloads]
  | cons p d ih =>
    obtain ⟨k, ms⟩ := p
    unfold addToOverloads
    by_cases hk : k = n
    · simp [hk]
    · simp only [hk, if_false, List.map_cons, ih, List.mem_cons]
      have hk' : n ≠ k := fun e => hk e.symm
      simp only [hk', false_or]
      split <;> simp

private theorem add_pair (d : List (Str × List Meth)) (n : Str) (m : Meth) :
    ∀ p ∈ addToOverloads d n m, ∀ x ∈ p.2, (∃ q ∈ d, q.1 = p.1 ∧ x ∈ q.2) ∨ (p.1 = n ∧ x = m) := by
  induction d with
  | nil =>
    intro p hp x hx
    simp only [addToOverloads, List.mem_singleton] at hp
    subst hp
    exact .inr ⟨rfl, by simpa using hx⟩
  | cons q d ih =>
    obtain ⟨k, ms⟩ := q
    intro p hp x hx
    unfold addToOverloads at hp
    split at hp
    · next hk =>
      rcases List.mem_cons.1 hp with rfl | hp
      · rcases List.mem_append.1 hx with hx | hx
        · exact .inl ⟨_, List.mem_cons_self, rfl, hx⟩
        · exact .inr ⟨hk, by simpa using hx⟩
      · exact .inl ⟨p, List.mem_cons_of_mem _ hp, rfl, hx⟩
    · rcases List.mem_cons.1 hp with rfl | hp
      · exact .inl ⟨_, List.mem_cons_self, rfl, hx⟩
      · rcases ih p hp x hx with ⟨q, hq, h1, h2⟩ | h1
        · exact .inl ⟨q, List.mem_cons_of_mem _ hq, h1, h2⟩
        · exact .inr h1

private theorem add_filled (d : List (Str × List Meth)) (n : Str) (m : Meth) (h : ∀ p ∈ d, p.2 ≠ []) :
    ∀ p ∈ addToOverloads d n m, p.2 ≠ [] := by
  induction d with
  | nil => intro p hp; simp only [addToOverloads, List.mem_singleton] at hp; subst hp; simp
  | cons q d ih =>
    obtain ⟨k, ms⟩ := q
    intro p hp
    unfold addToOverloads at hp
    split at hp
    · rcases List.mem_cons.1 hp with rfl | hp
      · simp
      · exact h p (List.mem_cons_of_mem _ hp)
    · rcases List.mem_cons.1 hp with rfl | hp
      · exact h _ List.mem_cons_self
      · exact ih (fun p hp => h p (List.mem_cons_of_mem _ hp)) p hp

private def KAll (σ : St) : Prop := ∀ c, KInv (σ c)

private theorem kinv_of {x y : ClsM} (h : KInv x) (h1 : y.methods = x.methods) (h2 : y.nonpublic = x.nonpublic) : KInv y :=
  ⟨by rw [h1]; exact h.keys, by rw [h1]; exact h.names, by rw [h2]; exact h.hidden, by rw [h1]; exact h.filled⟩

private theorem kput {σ : St} (h : KAll σ) (c : Nat) {y : ClsM} (hy : KInv y) : KAll (σ.put c y) := by
  intro d
  by_cases hd : d = c
  · subst hd; rw [St.put_self]; exact hy
  · rw [St.put_ne _ _ hd]; exact h d

private theorem kget {h : Hier} {σ : St} (hk : KAll σ) (c : Nat) : KAll (getHelper h σ c).2 := by
  unfold getHelper
  split
  · exact hk
  · split
    · exact hk
    · split
      · exact hk
      · split
        · exact hk
        · exact kput hk c (kinv_of (hk c) rfl rfl)

private theorem kadd {h : Hier} {σ : St} (hk : KAll σ) (c : Nat) (m : Meth) : KAll (addMethodObj h σ c m) := by
  have tail : ∀ (σ1 : St) (m' : Meth), KAll σ1 → KAll (if m'.isVirtual then
      let σ2 := σ1.put c { σ1 c with cache := none }
      match getHelper h σ2 c with
      | (some H, σ3) => σ3.put c { σ3 c with helper := some (H.addVirtual m') }
      | (none, σ3) => σ3
      else σ1) := by
    intro σ1 m' h1
    split
    · have h2 : KAll (σ1.put c { σ1 c with cache := none }) := kput h1 c (kinv_of (h1 c) rfl rfl)
      have h3 := kget (h := h) h2 c
      simp only
      generalize getHelper h _ c = r at h3
      obtain ⟨o, s⟩ := r
      cases o with
      | none => exact h3
      | some H => exact kput h3 c (kinv_of (h3 c) rfl rfl)
    · exact h1
  unfold addMethodObj
  apply tail
  split
  · exact kget hk c
  · split
    · next hp =>
      apply kput hk c
      refine ⟨?_, ?_, (hk c).hidden, add_filled _ _ _ (hk c).filled⟩
      · simp only [add_keys]
        split
        · exact (hk c).keys
        · next hn =>
          rw [List.nodup_append]
          exact ⟨(hk c).keys, by simp, by intro a ha b hb; simp only [List.mem_singleton] at hb; subst hb; exact fun e => hn (e ▸ ha)⟩
      · intro p hp' x hx
        rcases add_pair _ _ _ p hp' x hx with ⟨q, hq, h1, h2⟩ | ⟨h1, h2⟩
        · rw [← h1]; exact (hk c).names q hq x h2
        · rw [h1, h2]; exact ⟨rfl, hp⟩
    · next hp =>
      apply kput hk c
      refine ⟨(hk c).keys, (hk c).names, ?_, (hk c).filled⟩
      intro x hx
      rcases List.mem_append.1 hx with hx | hx
      · exact (hk c).hidden x hx
      · simp only [List.mem_singleton] at hx; subst hx; exact hp

private theorem kstep {h : Hier} {σ : St} (hk : KAll σ) (op : MOp) : KAll (mstep h σ op) := by
  cases op with
  | add c m => exact kadd hk c _
  | addFunction c s => exact kadd (h := h) hk c { sig := s, owner := c, isCpp := false }
  | addUnwrappable c m =>
    simp only [mstep, addDummy]
    split
    · have h2 : KAll (σ.put c { σ c with dummies := (σ c).dummies ++ [{ m with isDummy := true, isCpp := true, owner := c }], cache := none }) :=
        kput hk c (kinv_of (hk c) rfl rfl)
      have h3 := kget (h := h) h2 c
      generalize getHelper h _ c = r at h3
      obtain ⟨o, s⟩ := r
      cases o with
      | none => exact h3
      | some H =>
        simp only
        split <;> exact kput h3 c (kinv_of (h3 c) rfl rfl)
    · exact hk
  | query c =>
    simp only [mstep, queryAbstract]
    split
    · exact hk
    · exact kput hk c (kinv_of (hk c) rfl rfl)
  | disable c b => exact kput hk c (kinv_of (hk c) rfl rfl)

theorem kinv_run (h : Hier) (allow sing : Nat → Bool) (ops : List MOp) (c : Nat) : KInv (mrun h (fresh allow sing) ops c) := by
  have : ∀ (l : List MOp) σ, KAll σ → KAll (mrun h σ l) := by
    intro l
    induction l with
    | nil => intro σ hk; exact hk
    | cons op l ih => intro σ hk; exact ih _ (kstep hk op)
  exact this ops _ (fun _ => ⟨by simp [fresh], by simp [fresh], by simp [fresh], by simp [fresh]⟩) c

/-! ## Specification -/

/-- Class `d` declares the virtual method, to pybindgen. -/
def Prog.declares (P : Prog) (d : Nat) : Prop := ∃ m ∈ (P.σ d).allMethods, m.isVirtual = true ∧ m.sig = P.s

/-- The final overrider in class `c`, as far as declared: the nearest class that declares the method, which it does not do as
pure or private, and which defines it. -/
structure Final (P : Prog) (c e : Nat) : Prop where
  ancestor : Ancestor P.h e c
  declares : P.declares e
  concrete : ∀ m ∈ (P.σ e).allMethods, m.isVirtual = true → m.sig = P.s → m.isPure = false ∧ m.vis ≠ .priv
  nearest : ∀ x, Ancestor P.h x c → x ≠ e → P.declares x → Nearer P.h c e x
  defines : P.defines e = true

/-- The declarations come from a history of calls in which helper classes are not switched on again, `c` is no singleton and no
class above it has its helper class disabled. -/
def Declared (P : Prog) (c : Nat) : Prop :=
  ∃ allow sing ops, P.σ = mrun P.h (fresh allow sing) ops ∧ (∀ op ∈ ops, op.noEnable) ∧ sing c = false ∧
    ∀ d, Ancestor P.h d c → (P.σ d).disabled = false

/-- What runs for Python classes whose overrides only call `super().m()`, any number of times, before or after doing
something else; `e` is the final overrider in C++ and `i` the number of the first of the classes. -/
def trace (e : Nat) : Nat → List (Option (List Step)) → List Ev
  | _, [] => [.cxx e]
  | i, none :: rest => trace e (i + 1) rest
  | i, some l :: rest => .py i :: l.flatMap (fun _ => trace e (i + 1) rest)

example : trace 7 0 [some [.super], none, some [.super, .super]] = [.py 0, .py 2, .cxx 7, .cxx 7] := by decide

example : trace 7 0 [some [], some [.super]] = [.py 0] := by decide

/-! ## Proofs -/

private theorem form_cases (P : Prog) (d : Nat) (m : Meth) :
    P.form d m = .virtual ∨ P.form d m = .guarded [] [] := by
  unfold Prog.form callForm
  cases P.helper d with
  | none => exact .inl rfl
  | some H =>
    simp only [Option.map_some, Bool.false_eq_true, if_false]
    split
    · exact .inr rfl
    · exact .inl rfl

private theorem designates_own {P : Prog} {d e : Nat} (hd : P.defines d = true) : Designates P d e ↔ e = d := by
  constructor
  · intro h
    cases h with
    | own _ => rfl
    | base h1 _ _ => rw [hd] at h1; exact absurd h1 (by decide)
  · rintro rfl; exact .own hd

private theorem qual_iff {P : Prog} {o : Obj} {d : Nat} (hd : P.defines d = true) (t : List Ev) :
    Eval P o (.qual d) t ↔ t = [.cxx d] := by
  constructor
  · intro h
    cases h with
    | qual he => rw [(designates_own hd).1 he]
  · rintro rfl; exact .qual (.own hd)

/-- C100, objects created in C++ and instances of the wrapped classes themselves: a method wrapper, whichever class of the
hierarchy it belongs to, runs the final overrider of the object. -/
theorem C100_plain (P : Prog) (f d : Nat) (m : Meth) (t : List Ev) :
    Eval P (.plain f) (.found (.wrapper d m)) t ↔ t = [.cxx f] := by
  have hv : ∀ t, Eval P (.plain f) .virt t ↔ t = [.cxx f] := by
    intro t
    constructor
    · intro h; cases h; rfl
    · rintro rfl; exact .plain f
  rcases form_cases P d m with hf | hf
  · constructor
    · intro h
      cases h with
      | direct h1 _ _ => rw [hf] at h1; cases h1
      | through h1 _ _ => rw [hf] at h1; cases h1
      | always _ h2 => exact (hv t).1 h2
    · intro h; exact .always hf ((hv t).2 h)
  · constructor
    · intro h
      cases h with
      | direct _ h2 _ => exact absurd h2 (by simp [Obj.isHelper])
      | through _ _ h3 => exact (hv t).1 h3
      | always h1 _ => rw [hf] at h1; cases h1
    · intro h; exact .through hf rfl ((hv t).2 h)

private theorem helper_some {P : Prog} {c : Nat} {H : Helper} (hH : P.helper c = some H) :
    ∃ H0, (P.σ c).helper = some H0 ∧ H = inheritVirtuals P.h P.σ c H0 := by
  unfold Prog.helper at hH
  split at hH
  · cases hH
  · next H0 h0 =>
    simp only at hH
    split at hH
    · cases hH
    · exact ⟨H0, h0, by cases hH; rfl⟩

/-- The proxy calls the final overrider. -/
private theorem proxy_final {P : Prog} {c e : Nat} (hd : Declared P c) (hf : Final P c e) (hh : (P.helper c).isSome) :
    ∃ m, P.proxy c = some m ∧ m.owner = e ∧ m.isPure = false ∧ m.vis ≠ .priv := by
  obtain ⟨H, hH⟩ := Option.isSome_iff_exists.1 hh
  obtain ⟨H0, h0, rfl⟩ := helper_some hH
  obtain ⟨h, σ, s, df, pm, dp, vd⟩ := P
  obtain ⟨allow, sing, ops, hσ, hn, hs, hdis⟩ := hd
  simp only at hσ
  subst hσ
  obtain ⟨hc1, hc2⟩ := C55_complete_partial h allow sing ops c H0 hn hs hdis h0
  obtain ⟨_, ho⟩ := C55_overrides h allow sing ops c H0 h0
  obtain ⟨m0, hm0, hv0, hs0⟩ := hf.declares
  have hin := hc1 e hf.ancestor m0 hm0 hv0
  obtain ⟨m1, hm1, hs1⟩ := List.mem_map.1 hin
  cases hfind : (inheritVirtuals h (mrun h (fresh allow sing) ops) c H0).virtualMethods.find? (fun m => m.sig = s) with
  | none =>
    have := List.find?_eq_none.1 hfind m1 hm1
    exact absurd (hs1.trans hs0) (by simpa using this)
  | some m =>
    have hms : m.sig = s := by simpa using List.find?_some hfind
    have hmem := List.mem_of_find?_eq_some hfind
    obtain ⟨ha, hm, hv⟩ := ho m hmem
    have howner : m.owner = e := by
      by_contra hne
      have := hf.nearest m.owner ha hne ⟨m, hm, hv, hms⟩
      exact hc2 m hmem e this m0 hm0 hv0 (hs0.trans hms.symm)
    refine ⟨m, ?_, howner, ?_⟩
    · unfold Prog.proxy; rw [hH]; exact hfind
    · rw [howner] at hm
      exact hf.concrete m hm hv hms

/-- C100, not overridden in Python (partial: the final overrider is declared, helper classes were not switched off and on): on an
object made for a Python class, a virtual call from C++ runs the final overrider. -/
theorem C100_not_overridden_partial (P : Prog) (c e : Nat) (py : List (Option (List Step))) (hd : Declared P c) (hf : Final P c e)
    (hh : (P.helper c).isSome) (hp : ∀ x ∈ py, x = none) (t : List Ev) :
    Eval P (.helper c py) .virt t ↔ t = [.cxx e] := by
  obtain ⟨m, hm, ho, hpu, hpr⟩ := proxy_final hd hf hh
  have hno : ∀ i, firstOverride i py = none := by
    clear hm ho hpu hpr
    induction py with
    | nil => intro i; rfl
    | cons x l ih =>
      intro i
      have := hp x List.mem_cons_self
      subst this
      exact ih (fun y hy => hp y (List.mem_cons_of_mem _ hy)) (i + 1)
  constructor
  · intro h
    cases h with
    | inherited h1 _ => rw [hm] at h1; cases h1
    | override _ h2 _ => rw [hno 0] at h2; cases h2
    | fallback h1 _ _ _ h5 =>
      rw [hm] at h1; cases h1
      rw [ho] at h5
      exact (qual_iff hf.defines t).1 h5
    | noBody h1 _ h3 =>
      rw [hm] at h1; cases h1
      rcases h3 with h3 | h3
      · rw [hpu] at h3; cases h3
      · exact absurd h3 hpr
  · rintro rfl
    exact .fallback hm (hno 0) hpu hpr (by rw [ho]; exact .qual (.own hf.defines))

/-- How `super().m` reaches the C++ method in the last Python class: the class itself declares it public, or its helper class has a
parent caller (protected methods, and all methods with `deprecated_virtuals`) and no method table entry hides it. -/
inductive Reaches (P : Prog) (c e : Nat) : Prop where
  | viaWrapper : P.deprecated = false → e = c → (∃ m ∈ (P.σ c).allMethods, m.sig = P.s ∧ m.vis = .pub) →
      (∀ m ∈ (P.σ c).allMethods, m.sig = P.s → m.isVirtual = true ∧ m.isPure = false) → Reaches P c e
  | viaParent : (∀ m ∈ (P.σ c).allMethods, m.vis = .pub → m.sig.name ≠ P.pyName) →
      (P.deprecated = true ∨ ∀ m ∈ (P.σ e).allMethods, m.sig = P.s → m.vis = .prot) → Reaches P c e

private theorem lookup_super {P : Prog} {c e : Nat} {rest : List Nat} (hd : Declared P c) (hf : Final P c e)
    (hh : (P.helper c).isSome) (hm : P.pyMro c = c :: rest) (hr : Reaches P c e) (py : List (Option (List Step))) (t : List Ev) :
    Eval P (.helper c py) (.found (P.lookup (P.pyMro c))) t ↔ t = [.cxx e] := by
  have hk : KInv (P.σ c) := by
    obtain ⟨allow, sing, ops, hσ, _⟩ := hd
    rw [hσ]
    exact kinv_run _ _ _ _ _
  cases hr with
  | viaWrapper hdep hec hex hall =>
    subst hec
    obtain ⟨m, hmem, hs, hv⟩ := hex
    have hmm : ∃ p ∈ (P.σ e).methods, m ∈ p.2 := by
      rcases List.mem_append.1 hmem with h | h
      · obtain ⟨p, hp, hx⟩ := List.mem_flatMap.1 h; exact ⟨p, hp, hx⟩
      · exact absurd hv (hk.hidden m h)
    obtain ⟨p, hp, hmp⟩ := hmm
    have hname : p.1 = P.pyName := by
      rw [Prog.pyName, if_neg (by rw [hdep]; decide), ← hs]; exact ((hk.names p hp m hmp).1).symm
    obtain ⟨q, hq⟩ : ∃ q, (P.σ e).methods.find? (fun p => p.1 = P.pyName) = some q := by
      cases h : (P.σ e).methods.find? (fun p => p.1 = P.pyName) with
      | some q => exact ⟨q, rfl⟩
      | none => exact absurd hname (by simpa using List.find?_eq_none.1 h p hp)
    have hqp : q = p := by
      have h1 : q.1 = p.1 := by rw [hname]; simpa using List.find?_some hq
      exact inj_map hk.keys (List.mem_of_find?_eq_some hq) hp h1
    subst hqp
    obtain ⟨m', hm'⟩ : ∃ m', q.2.find? (fun m => m.sig = P.s) = some m' := by
      cases h : q.2.find? (fun m => m.sig = P.s) with
      | some q => exact ⟨q, rfl⟩
      | none => exact absurd hs (by simpa using List.find?_eq_none.1 h m hmp)
    have htab : P.table e = .wrapper e m' := by
      unfold Prog.table
      obtain ⟨k, ms⟩ := q
      rw [hq]
      simp only at hm'
      simp only [hm']
    have hlook : P.lookup (P.pyMro e) = .wrapper e m' := by
      rw [hm, Prog.lookup, htab, if_neg (by nofun)]
    have hm'all : m' ∈ (P.σ e).allMethods :=
      List.mem_append.2 (.inl (List.mem_flatMap.2 ⟨q, hp, List.mem_of_find?_eq_some hm'⟩))
    have hprop := hall m' hm'all (by simpa using List.find?_some hm')
    have hform : P.form e m' = .guarded [] [] := by
      obtain ⟨H, hH⟩ := Option.isSome_iff_exists.1 hh
      unfold Prog.form callForm
      rw [hH]
      simp [hprop.1, hprop.2, hdep]
    rw [hlook]
    constructor
    · intro h
      cases h with
      | direct _ _ h3 => exact (qual_iff hf.defines t).1 h3
      | through _ h2 _ => exact absurd h2 (by simp [Obj.isHelper])
      | always h1 _ => rw [hform] at h1; cases h1
    · rintro rfl
      exact .direct hform (by simp [Obj.isHelper]) (.qual (.own hf.defines))
  | viaParent hnone hvis =>
    obtain ⟨m, hpm, ho, hpu, hpr⟩ := proxy_final hd hf hh
    obtain ⟨H, hH⟩ := Option.isSome_iff_exists.1 hh
    have hpm' : H.virtualMethods.find? (fun m => m.sig = P.s) = some m := by
      unfold Prog.proxy at hpm; rw [hH] at hpm; exact hpm
    have hsig : m.sig = P.s := by simpa using List.find?_some hpm'
    have hin : m ∈ (P.σ e).allMethods ∧ (H.virtualMethods.map (·.sig)).Nodup := by
      obtain ⟨H0, h0, rfl⟩ := helper_some hH
      obtain ⟨h, σ, s, df, pm, dp, vd⟩ := P
      obtain ⟨allow, sing, ops, hσ, hn, hs, hdis⟩ := hd
      simp only at hσ
      subst hσ
      rw [← ho]
      have := C55_overrides h allow sing ops c H0 h0
      exact ⟨(this.2 m (List.mem_of_find?_eq_some hpm')).2.1, this.1⟩
    have hq : (P.σ c).methods.find? (fun p => p.1 = P.pyName) = none := by
      rw [List.find?_eq_none]
      intro p hp
      simp only [decide_eq_true_eq]
      intro hpn
      obtain ⟨x, hx⟩ := List.exists_mem_of_ne_nil _ (hk.filled p hp)
      have := hk.names p hp x hx
      exact hnone x (List.mem_append.2 (.inl (List.mem_flatMap.2 ⟨p, hp, hx⟩))) this.2 (this.1.trans hpn)
    have hmc : m ∈ P.callers c := by
      unfold Prog.callers
      rw [hH]
      refine List.mem_filter.2 ⟨List.mem_of_find?_eq_some hpm', ?_⟩
      have : m.vis = .prot ∨ P.deprecated = true ∧ m.vis = .pub := by
        rcases hvis with h | h
        · cases hv : m.vis with
          | pub => exact .inr ⟨h, rfl⟩
          | prot => exact .inl rfl
          | priv => exact absurd hv hpr
        · exact .inl (h m hin.1 hsig)
      simp only [hpu, Bool.not_false, Bool.true_and, Bool.or_eq_true, Bool.and_eq_true, decide_eq_true_eq]
      exact this
    obtain ⟨m2, hm2⟩ : ∃ m2, (P.callers c).find? (fun m => m.sig = P.s) = some m2 := by
      cases h : (P.callers c).find? (fun m => m.sig = P.s) with
      | some q => exact ⟨q, rfl⟩
      | none => exact absurd hsig (by simpa using List.find?_eq_none.1 h m hmc)
    have hm2m : m2 = m := by
      have h1 : m2.sig = P.s := by simpa using List.find?_some hm2
      have h2 : m2 ∈ H.virtualMethods := by
        have := List.mem_of_find?_eq_some hm2
        unfold Prog.callers at this
        rw [hH] at this
        exact (List.mem_filter.1 this).1
      exact inj_map hin.2 h2 (List.mem_of_find?_eq_some hpm') (h1.trans hsig.symm)
    subst hm2m
    have htab : P.table c = .parent c m2 := by
      unfold Prog.table
      rw [hq]
      simp only [hm2]
    have hlook : P.lookup (P.pyMro c) = .parent c m2 := by
      rw [hm, Prog.lookup, htab, if_neg (by nofun)]
    rw [hlook]
    constructor
    · intro h
      cases h with
      | parent _ h2 => rw [ho] at h2; exact (qual_iff hf.defines t).1 h2
      | refused h1 => exact absurd h1 (by simp [Obj.isHelper])
    · rintro rfl
      exact .parent (by simp [Obj.isHelper]) (by rw [ho]; exact .qual (.own hf.defines))

private theorem first_drop (i : Nat) (l : List (Option (List Step))) :
    (firstOverride i l = none ∧ ∀ x ∈ l, x = none) ∨
    ∃ k b rest, firstOverride i l = some (i + k, b) ∧ l[k]? = some (some b) ∧ l.drop k = some b :: rest ∧
      ∀ e, trace e i l = .py (i + k) :: b.flatMap (fun _ => trace e (i + k + 1) rest) := by
  induction l generalizing i with
  | nil => exact .inl ⟨rfl, by simp⟩
  | cons x l ih =>
    cases x with
    | some b => exact .inr ⟨0, b, l, rfl, rfl, rfl, fun e => rfl⟩
    | none =>
      rcases ih (i + 1) with ⟨h1, h2⟩ | ⟨k, b, rest, h1, h2, h3, h4⟩
      · exact .inl ⟨h1, by intro y hy; rcases List.mem_cons.1 hy with rfl | hy; rfl; exact h2 y hy⟩
      · refine .inr ⟨k + 1, b, rest, ?_, by simpa using h2, by simpa using h3, ?_⟩
        · rw [firstOverride, h1]; congr 2; omega
        · intro e
          rw [trace, h4 e]
          have : i + 1 + k = i + (k + 1) := by omega
          rw [this]

private theorem trace_none (e i : Nat) (l : List (Option (List Step))) (h : ∀ x ∈ l, x = none) : trace e i l = [.cxx e] := by
  induction l generalizing i with
  | nil => rfl
  | cons x l ih =>
    have := h x List.mem_cons_self
    subst this
    exact ih (i + 1) (fun y hy => h y (List.mem_cons_of_mem _ hy))

/-- What `super().m` in Python class `i - 1` finds runs the rest of the chain. -/
private theorem chain_next {P : Prog} {c e : Nat} (py : List (Option (List Step)))
    (hs : ∀ l, some l ∈ py → ∀ x ∈ l, x = Step.super)
    (hbase : ∀ t, Eval P (.helper c py) (.found (P.lookup (P.pyMro c))) t ↔ t = [.cxx e]) (n : Nat) :
    ∀ i, py.length - i ≤ n → (∀ t, Eval P (.helper c py) (.found (P.next c py i)) t ↔ t = trace e i (py.drop i)) ∧
      ∀ k b rest, py.drop i = some b :: rest → k = i → ∀ l, (∀ x ∈ l, x = Step.super) → ∀ t,
        Eval P (.helper c py) (.body i l) t ↔ t = l.flatMap (fun _ => trace e (i + 1) rest) := by
  induction n with
  | zero =>
    intro i hi
    have hd : py.drop i = [] := List.drop_eq_nil_of_le (by omega)
    refine ⟨fun t => ?_, fun k b rest h => by rw [hd] at h; cases h⟩
    unfold Prog.next
    rw [hd]
    exact hbase t
  | succ n ih =>
    have hbody : ∀ i b rest, py.length - i ≤ n + 1 → py.drop i = some b :: rest → ∀ l, (∀ x ∈ l, x = Step.super) → ∀ t,
        Eval P (.helper c py) (.body i l) t ↔ t = l.flatMap (fun _ => trace e (i + 1) rest) := by
      intro i b rest hi hdr l hl
      have hlen : i < py.length := by
        by_contra h
        rw [List.drop_eq_nil_of_le (by omega)] at hdr; cases hdr
      have hnext := (ih (i + 1) (by omega)).1
      have hdr1 : py.drop (i + 1) = rest := by rw [← List.drop_drop, hdr]; rfl
      rw [hdr1] at hnext
      induction l with
      | nil =>
        intro t
        constructor
        · intro h; cases h; rfl
        · rintro rfl; exact .stop
      | cons x l ihl =>
        intro t
        have hx := hl x List.mem_cons_self
        subst hx
        have ihl := ihl (fun y hy => hl y (List.mem_cons_of_mem _ hy))
        constructor
        · intro h
          cases h with
          | step h1 h2 => rw [(hnext _).1 h1, (ihl _).1 h2]; rfl
        · rintro rfl
          exact .step ((hnext _).2 rfl) ((ihl _).2 rfl)
    intro i hi
    refine ⟨fun t => ?_, fun k b rest h _ => hbody i b rest hi h⟩
    rcases first_drop i (py.drop i) with ⟨h1, h2⟩ | ⟨k, b, rest, h1, h2, h3, h4⟩
    · unfold Prog.next
      rw [h1, trace_none e i _ h2]
      exact hbase t
    · rw [h4 e]
      have hget : py[i + k]? = some (some b) := by rw [← h2, List.getElem?_drop]
      have hdr : py.drop (i + k) = some b :: rest := by rw [← List.drop_drop]; exact h3
      have hb : ∀ x ∈ b, x = Step.super := hs b (List.mem_of_getElem? hget)
      have hev := hbody (i + k) b rest (by omega) hdr b hb
      have hn : P.next c py i = .py (i + k) := by unfold Prog.next; rw [h1]
      rw [hn]
      constructor
      · intro h
        cases h with
        | py h5 h6 =>
          rw [hget] at h5
          cases h5
          rw [(hev _).1 h6]
      · rintro rfl
        exact .py hget ((hev _).2 rfl)

/-- C100 (partial: the final overrider is declared, by the class from which Python derives or with a parent caller; overrides call
`super` only): a virtual call from C++ on an object of a Python class runs the overrides of the Python classes, nearest first, each
one exactly as often as the one before calls it, and after them the C++ final overrider. -/
theorem C100_super_partial (P : Prog) (c e : Nat) (rest : List Nat) (py : List (Option (List Step))) (hd : Declared P c)
    (hf : Final P c e) (hh : (P.helper c).isSome) (hm : P.pyMro c = c :: rest) (hr : Reaches P c e)
    (hs : ∀ l, some l ∈ py → ∀ x ∈ l, x = Step.super) (t : List Ev) :
    Eval P (.helper c py) .virt t ↔ t = trace e 0 py := by
  have hbase := lookup_super hd hf hh hm hr py
  rcases first_drop 0 py with ⟨h1, h2⟩ | ⟨k, b, rest, h1, h2, h3, h4⟩
  · rw [trace_none e 0 py h2]
    exact C100_not_overridden_partial P c e py hd hf hh h2 t
  · obtain ⟨m, hpm, ho, hpu, hpr⟩ := proxy_final hd hf hh
    simp only [Nat.zero_add] at h1 h4
    rw [h4 e]
    have hb : ∀ x ∈ b, x = Step.super := hs b (List.mem_of_getElem? h2)
    have hev := (chain_next py hs hbase (py.length) k (by omega)).2 k b rest h3 rfl b hb
    constructor
    · intro h
      cases h with
      | inherited h5 _ => rw [hpm] at h5; cases h5
      | override _ h5 h6 =>
        rw [h1] at h5
        cases h5
        rw [(hev _).1 h6]
      | fallback _ h5 _ _ _ => rw [h1] at h5; cases h5
      | noBody _ h5 _ => rw [h1] at h5; cases h5
    · rintro rfl
      exact .override hpm h1 ((hev _).2 rfl)

/-! ## Examples and counterexamples -/

/-- Two classes, the second derived from the first, both can be derived from in Python and all virtual methods are defined where
they are declared. -/
def two (s : Sig) (defines : Nat → Bool) (ops : List MOp) : Prog where
  h := hierOf [[], [0]]
  σ := mrun (hierOf [[], [0]]) (fresh (fun _ => true) (fun _ => false)) ops
  s := s
  defines := defines
  pyMro := fun c => if c = 1 then [1, 0] else [c]

private theorem chain_mro : (hierOf [[], [0]]).mro 0 = [0] ∧ (hierOf [[], [0]]).mro 1 = [1, 0] := by
  refine ⟨mro_nil (by decide), ?_⟩
  rw [mro_single (p := 0) (by decide), mro_nil (by decide)]

private theorem anc_two (d : Nat) : Ancestor (hierOf [[], [0]]) d 1 ↔ d = 1 ∨ d = 0 := by
  rw [← C33_mro_mem, chain_mro.2]; simp

/-- Both classes define and declare `f`. -/
abbrev both : Prog := two sigF (fun _ => true) [.add 0 implF, .add 1 implF]

/-- Only class 0 declares `f`; class 1 declares another virtual method. -/
abbrev inherits : Prog := two sigF (fun c => c = 0) [.add 0 implF, .add 1 implG]

private theorem both_state : (both.σ 0).allMethods = [implF] ∧ (both.σ 1).allMethods = [{ implF with owner := 1 }] ∧
    (both.σ 0).disabled = false ∧ (both.σ 1).disabled = false ∧
    both.helper 1 = some { virtualMethods := [{ implF with owner := 1 }] } ∧ both.helper 0 = some { virtualMethods := [implF] } ∧
    (both.σ 0).methods = [(['f'], [implF])] ∧ (both.σ 1).methods = [(['f'], [{ implF with owner := 1 }])] := by
  obtain ⟨m0, m1⟩ := chain_mro
  simp [both, two, Prog.helper, mrun, mstep, addMethodObj, getHelper, m0, m1, fresh, St.put, implF, addToOverloads, Helper.addVirtual,
    inheritVirtuals, ClsM.allMethods, sigF]

private theorem inherits_state (df : Nat → Bool) : let P := two sigF df [.add 0 implF, .add 1 implG]
    (P.σ 0).allMethods = [implF] ∧ (P.σ 1).allMethods = [{ implG with owner := 1 }] ∧
    (P.σ 0).disabled = false ∧ (P.σ 1).disabled = false ∧
    P.helper 1 = some { virtualMethods := [{ implG with owner := 1 }, implF] } ∧ P.helper 0 = some { virtualMethods := [implF] } ∧
    (P.σ 0).methods = [(['f'], [implF])] ∧ (P.σ 1).methods = [(['g'], [{ implG with owner := 1 }])] := by
  obtain ⟨m0, m1⟩ := chain_mro
  simp [two, Prog.helper, mrun, mstep, addMethodObj, getHelper, m0, m1, fresh, St.put, implF, implG, addToOverloads, Helper.addVirtual,
    inheritVirtuals, ClsM.allMethods, sigF, sigG]

private theorem declared_of (s : Sig) (df : Nat → Bool) (ops : List MOp) (hn : ∀ op ∈ ops, op.noEnable)
    (h0 : ((two s df ops).σ 0).disabled = false) (h1 : ((two s df ops).σ 1).disabled = false) : Declared (two s df ops) 1 := by
  refine ⟨fun _ => true, fun _ => false, ops, rfl, hn, rfl, fun d hd => ?_⟩
  rcases (anc_two d).1 hd with rfl | rfl
  · exact h1
  · exact h0

/-- All hypotheses of `C100_super_partial` hold of a class that declares the method. -/
theorem both_ok : Declared both 1 ∧ Final both 1 1 ∧ (both.helper 1).isSome ∧ both.pyMro 1 = 1 :: [0] ∧ Reaches both 1 1 := by
  obtain ⟨a0, a1, d0, d1, h1, _, _, _⟩ := both_state
  refine ⟨declared_of _ _ _ (by simp [MOp.noEnable]) d0 d1, ⟨⟨0, .refl 1⟩, ⟨_, by rw [a1]; simp; rfl, rfl, rfl⟩, ?_, ?_, rfl⟩,
    by rw [h1]; rfl, rfl, .viaWrapper rfl rfl ⟨_, by rw [a1]; simp; rfl, rfl, rfl⟩ ?_⟩
  · intro m hm _ _; rw [a1] at hm; simp at hm; subst hm; exact ⟨rfl, by decide⟩
  · intro x hx hne _
    refine ⟨0, .refl 1, fun m hm => ?_⟩
    have : m = 0 := by omega
    subst this
    intro hp; cases hp; exact hne rfl
  · intro m hm _; rw [a1] at hm; simp at hm; subst hm; exact ⟨rfl, rfl⟩

/-- A Python class, its Python base class with an override that calls `super` twice, and class 1. -/
example (t : List Ev) : Eval both (.helper 1 [some [.super], some [.super, .super]]) .virt t ↔
    t = [.py 0, .py 1, .cxx 1, .cxx 1] := by
  obtain ⟨h1, h2, h3, h4, h5⟩ := both_ok
  exact C100_super_partial both 1 1 [0] _ h1 h2 h3 h4 h5 (by simp) t

/-- Not overridden. -/
example (t : List Ev) : Eval both (.helper 1 [none, none]) .virt t ↔ t = [.cxx 1] := by
  obtain ⟨h1, h2, h3, _, _⟩ := both_ok
  exact C100_not_overridden_partial both 1 1 _ h1 h2 h3 (by simp) t

/-- A call that comes back to where it started never ends. -/
private theorem loops {P : Prog} {c i d : Nat} {py : List (Option (List Step))} {m m' : Meth} {x : Step} {l : List Step}
    (hp : P.proxy c = some m) (hi : firstOverride 0 py = some (i, x :: l)) (hx : P.stepFound c py i x = .wrapper d m')
    (hf : P.form d m' = .virtual ∨ c ≠ d) : ¬ ∃ t, Eval P (.helper c py) .virt t := by
  have key : ∀ o k t, Eval P o k t → o = .helper c py →
      (k = .virt ∨ k = .body i (x :: l) ∨ k = .found (.wrapper d m')) → False := by
    intro o k t h
    induction h with
    | plain f => intro ho; cases ho
    | inherited h1 _ _ => intro ho hk; cases ho; rw [hp] at h1; cases h1
    | override h1 h2 h3 ih => intro ho hk; cases ho; rw [hi] at h2; cases h2; exact ih rfl (.inr (.inl rfl))
    | fallback h1 h2 _ _ _ _ => intro ho hk; cases ho; rw [hi] at h2; cases h2
    | noBody h1 h2 _ => intro ho hk; cases ho; rw [hi] at h2; cases h2
    | qual h1 => intro ho hk; rcases hk with hk | hk | hk <;> cases hk
    | direct h1 h2 h3 ih =>
      intro ho hk
      cases ho
      rcases hk with hk | hk | hk <;> cases hk
      rcases hf with hf | hf
      · rw [hf] at h1; cases h1
      · simp [Obj.isHelper] at h2; exact hf h2
    | through h1 h2 h3 ih => intro ho hk; cases ho; exact ih rfl (.inl rfl)
    | always h1 h2 ih => intro ho hk; cases ho; exact ih rfl (.inl rfl)
    | parent h1 h2 ih => intro ho hk; rcases hk with hk | hk | hk <;> cases hk
    | refused h1 => intro ho hk; rcases hk with hk | hk | hk <;> cases hk
    | other => intro ho hk; rcases hk with hk | hk | hk <;> cases hk
    | missing => intro ho hk; rcases hk with hk | hk | hk <;> cases hk
    | py h1 h2 ih => intro ho hk; rcases hk with hk | hk | hk <;> cases hk
    | stop => intro ho hk; rcases hk with hk | hk | hk <;> cases hk
    | step h1 h2 ih1 ih2 =>
      intro ho hk
      cases ho
      rcases hk with hk | hk | hk
      · cases hk
      · cases hk; exact ih1 rfl (.inr (.inr (by rw [hx])))
      · cases hk
  rintro ⟨t, ht⟩
  exact key _ _ _ ht rfl (.inl rfl)

/-- C100 fails for methods that the class does not redeclare: a Python class that derives from class 1 and overrides `f`, which only
class 0 declares, and calls the overridden method with `super`, calls itself for ever.  The wrapper of `f` belongs to class 0, the
object is no instance of *its* helper class, and so it makes a virtual call. -/
theorem C100_super_inherited_counterexample :
    Declared inherits 1 ∧ Final inherits 1 0 ∧ (inherits.helper 1).isSome ∧ inherits.pyMro 1 = 1 :: [0] ∧
    ¬ ∃ t, Eval inherits (.helper 1 [some [.super]]) .virt t := by
  obtain ⟨a0, a1, d0, d1, h1, h0, e0, e1⟩ := inherits_state (fun c => c = 0)
  refine ⟨declared_of _ _ _ (by simp [MOp.noEnable]) d0 d1,
    ⟨(anc_two 0).2 (.inr rfl), ⟨implF, by rw [a0]; simp, rfl, rfl⟩, ?_, ?_, rfl⟩, by rw [h1]; rfl, rfl, ?_⟩
  · intro m hm _ _; rw [a0] at hm; simp at hm; subst hm; exact ⟨rfl, by decide⟩
  · intro x hx hne ⟨m, hm, _, hs⟩
    rcases (anc_two x).1 hx with rfl | rfl
    · rw [a1] at hm; simp at hm; subst hm; simp [implG, two, sigF, sigG] at hs
    · exact absurd rfl hne
  · have ht1 : inherits.table 1 = .missing := by
      unfold Prog.table Prog.callers
      rw [e1, h1]; rfl
    have ht0 : inherits.table 0 = .wrapper 0 implF := by
      unfold Prog.table
      rw [e0]; rfl
    apply loops (i := 0) (x := .super) (l := []) (d := 0) (m' := implF) (m := implF)
    · unfold Prog.proxy; rw [h1]; rfl
    · rfl
    · show inherits.lookup [1, 0] = _
      rw [Prog.lookup, if_pos ht1, Prog.lookup, ht0, if_neg (by nofun)]
    · exact .inr (by decide)

/-- C100 fails when an override calls the method of a class further up by name, `A.f(self)`, as one does in Python and in C++: for a
public method the override calls itself for ever. -/
theorem C100_named_base_counterexample :
    Declared both 1 ∧ Final both 1 1 ∧ Reaches both 1 1 ∧ ¬ ∃ t, Eval both (.helper 1 [some [.base 0]]) .virt t := by
  obtain ⟨k1, k2, k3, k4, k5⟩ := both_ok
  obtain ⟨a0, a1, d0, d1, h1, h0, e0, e1⟩ := both_state
  refine ⟨k1, k2, k5, ?_⟩
  have ht0 : both.table 0 = .wrapper 0 implF := by
    unfold Prog.table
    rw [e0]; rfl
  apply loops (i := 0) (x := .base 0) (l := []) (d := 0) (m' := implF) (m := { implF with owner := 1 })
  · unfold Prog.proxy; rw [h1]; rfl
  · rfl
  · show both.lookup [0] = _
    rw [Prog.lookup, ht0, if_neg (by nofun)]
  · exact .inr (by decide)

/-- `protected: virtual void f();` -/
def protF : Meth := { implF with vis := .prot }

/-- Both classes declare a protected `f`. -/
abbrev prot : Prog := two sigF (fun _ => true) [.add 0 protF, .add 1 protF]

private theorem prot_state : (prot.σ 0).allMethods = [protF] ∧ (prot.σ 1).allMethods = [{ protF with owner := 1 }] ∧
    (prot.σ 0).disabled = false ∧ (prot.σ 1).disabled = false ∧
    prot.helper 1 = some { virtualMethods := [{ protF with owner := 1 }] } ∧ prot.helper 0 = some { virtualMethods := [protF] } ∧
    (prot.σ 0).methods = [] ∧ (prot.σ 1).methods = [] := by
  obtain ⟨m0, m1⟩ := chain_mro
  simp [prot, two, Prog.helper, mrun, mstep, addMethodObj, getHelper, m0, m1, fresh, St.put, implF, protF, Helper.addVirtual,
    inheritVirtuals, ClsM.allMethods, sigF]

/-- C100: for a protected method the call by name is refused, although the object is of a class derived from class 0. -/
theorem C100_named_protected_counterexample (t : List Ev) :
    Eval prot (.helper 1 [some [.base 0]]) .virt t ↔ t = [.py 0, .typeError] := by
  obtain ⟨a0, a1, d0, d1, h1, h0, e0, e1⟩ := prot_state
  have ht0 : prot.table 0 = .parent 0 protF := by
    unfold Prog.table Prog.callers
    rw [e0, h0]; rfl
  have hl : prot.lookup [0] = .parent 0 protF := by rw [Prog.lookup, ht0, if_neg (by nofun)]
  have hp : prot.proxy 1 = some { protF with owner := 1 } := by unfold Prog.proxy; rw [h1]; rfl
  have hb : ∀ t, Eval prot (.helper 1 [some [.base 0]]) (.body 0 [.base 0]) t ↔ t = [.typeError] := by
    intro t
    constructor
    · intro h
      cases h with
      | step h1 h2 =>
        cases h2
        have h1' : Eval prot (.helper 1 [some [.base 0]]) (.found (prot.lookup [0])) _ := h1
        rw [hl] at h1'
        cases h1' with
        | parent h3 _ => simp [Obj.isHelper] at h3
        | refused _ => rfl
    · rintro rfl
      have : Eval prot (.helper 1 [some [.base 0]]) (.found (.parent 0 protF)) [.typeError] := .refused (by simp [Obj.isHelper])
      rw [← hl] at this
      exact .step (t := [.typeError]) (u := []) this .stop
  constructor
  · intro h
    cases h with
    | inherited h5 _ => rw [hp] at h5; cases h5
    | override _ h5 h6 => cases h5; rw [(hb _).1 h6]
    | fallback _ h5 _ _ _ => cases h5
    | noBody _ h5 _ => cases h5
  · rintro rfl
    exact .override hp rfl ((hb _).2 rfl)

/-- C100: the protected method reached with `super` is the one of the final overrider. -/
example (t : List Ev) : Eval prot (.helper 1 [some [.super]]) .virt t ↔ t = [.py 0, .cxx 1] := by
  obtain ⟨a0, a1, d0, d1, h1, h0, e0, e1⟩ := prot_state
  refine C100_super_partial prot 1 1 [0] _ (declared_of _ _ _ (by simp [MOp.noEnable]) d0 d1)
    ⟨⟨0, .refl 1⟩, ⟨{ protF with owner := 1 }, by rw [a1]; simp, rfl, rfl⟩, ?_, ?_, rfl⟩ (by rw [h1]; rfl) rfl (.viaParent ?_ (.inr ?_)) (by simp) t
  · intro m hm _ _; rw [a1] at hm; simp at hm; subst hm; exact ⟨rfl, by decide⟩
  · intro x hx hne _
    refine ⟨0, .refl 1, fun m hm => ?_⟩
    have : m = 0 := by omega
    subst this
    intro hp; cases hp; exact hne rfl
  · intro m hm hv; rw [a1] at hm; simp at hm; subst hm; cases hv
  · intro m hm hv; rw [a1] at hm; simp at hm; subst hm; rfl

/-- C100 fails when the class overrides the method in C++ and this was not declared to pybindgen: an object of a Python class derived
from class 1 that overrides nothing runs the definition of class 0, although `f` in class 1 designates the one of class 1.  (An
instance of class 1 itself runs the right one.) -/
theorem C100_undeclared_counterexample :
    let P := two sigF (fun _ => true) [.add 0 implF, .add 1 implG]
    (∀ e, Designates P 1 e ↔ e = 1) ∧ (P.helper 1).isSome ∧
    ∀ t, Eval P (.helper 1 [none]) .virt t ↔ t = [.cxx 0] := by
  obtain ⟨a0, a1, d0, d1, h1, h0, e0, e1⟩ := inherits_state (fun _ => true)
  intro P
  refine ⟨fun e => designates_own rfl, by rw [h1]; rfl, fun t => ?_⟩
  have hp : P.proxy 1 = some implF := by unfold Prog.proxy; rw [h1]; rfl
  constructor
  · intro h
    cases h with
    | inherited h5 _ => rw [hp] at h5; cases h5
    | override _ h5 _ => cases h5
    | fallback h5 _ _ _ h6 => rw [hp] at h5; cases h5; exact (qual_iff rfl t).1 h6
    | noBody h5 _ h6 => rw [hp] at h5; cases h5; rcases h6 with h6 | h6 <;> cases h6
  · rintro rfl
    exact .fallback hp rfl rfl (by decide) (.qual (.own rfl))

/-- C100 fails for a class that declares no virtual method itself: it has no helper class although its base class declares one and
Python may derive from it, so no override of `f` in Python is ever called from C++ (instances are plain objects). -/
theorem C100_no_helper_counterexample :
    let P := two sigF (fun _ => true) [.add 0 implF]
    P.declares 0 ∧ Ancestor P.h 0 1 ∧ (P.σ 1).allowSubclassing = true ∧ P.helper 1 = none ∧
    ∀ d m t, Eval P (.plain 1) (.found (.wrapper d m)) t ↔ t = [.cxx 1] := by
  obtain ⟨m0, m1⟩ := chain_mro
  refine ⟨?_, (anc_two 0).2 (.inr rfl), ?_, ?_, fun d m t => C100_plain _ 1 d m t⟩
  · simp [Prog.declares, two, mrun, mstep, addMethodObj, getHelper, m0, fresh, St.put, implF, addToOverloads, Helper.addVirtual,
      ClsM.allMethods, sigF]
  · simp [two, mrun, mstep, addMethodObj, getHelper, m0, fresh, St.put, implF, addToOverloads, Helper.addVirtual]
  · simp [two, Prog.helper, mrun, mstep, addMethodObj, getHelper, m0, fresh, St.put, implF, addToOverloads, Helper.addVirtual]

/-- C100: an override of a pure virtual method that calls `super` calls itself for ever; there is nothing to call, but the
wrapper does not say so. -/
theorem C100_super_pure_counterexample :
    let P := two sigF (fun _ => false) [.add 1 pureF]
    (P.helper 1).isSome ∧ ¬ ∃ t, Eval P (.helper 1 [some [.super]]) .virt t := by
  obtain ⟨m0, m1⟩ := chain_mro
  intro P
  obtain ⟨h1, e1⟩ : P.helper 1 = some { virtualMethods := [{ pureF with owner := 1 }] } ∧
      (P.σ 1).methods = [(['f'], [{ pureF with owner := 1 }])] := by
    simp [P, two, Prog.helper, mrun, mstep, addMethodObj, getHelper, m1, fresh, St.put, pureF, addToOverloads, Helper.addVirtual,
      inheritVirtuals, ClsM.allMethods, sigF]
  refine ⟨by rw [h1]; rfl, ?_⟩
  have ht : P.table 1 = .wrapper 1 { pureF with owner := 1 } := by
    unfold Prog.table
    rw [e1]; rfl
  apply loops (i := 0) (x := .super) (l := []) (d := 1) (m' := { pureF with owner := 1 }) (m := { pureF with owner := 1 })
  · unfold Prog.proxy; rw [h1]; rfl
  · rfl
  · show P.lookup [1, 0] = _
    rw [Prog.lookup, ht, if_neg (by nofun)]
  · left
    unfold Prog.form
    rw [h1]; rfl

/-! ## The text of the call -/

/-- C100: a method wrapper writes one call, with the arguments in their order; the qualified one is made exactly when the variable
`helper_class`, a new one, holds an instance of the helper class of the class. -/
theorem C100_call_text (isStatic isVirtual isPure deprecated : Bool) (helper : Option Str) (cls assign method : Str) (w : Wrap.W) :
    (isStatic = false → isVirtual = true → isPure = false → deprecated = false → ∀ h, helper = some h →
      methodCall isStatic isVirtual isPure deprecated helper cls assign method w =
        (w.declare (h ++ " *".toList) "helper_class".toList (some ("dynamic_cast<".toList ++ h ++ "*> (self->obj)".toList)) none) >>=
          fun r => pure (r.1.op (.write 1 (assign ++ "(".toList ++ r.2 ++ " == NULL)? (self->obj->".toList ++ method ++ "(".toList ++
            pyJoin ", ".toList r.1.call ++ ")) : (self->obj->".toList ++ cls ++ "::".toList ++ method ++ "(".toList ++
            pyJoin ", ".toList r.1.call ++ "))".toList ++ ";".toList)))) ∧
    (isStatic = false → isVirtual = false ∨ isPure = true ∨ deprecated = true ∨ helper = none →
      methodCall isStatic isVirtual isPure deprecated helper cls assign method w =
        .ok (w.op (.write 1 (assign ++ "self->obj->".toList ++ method ++ "(".toList ++ pyJoin ", ".toList w.call ++ ")".toList ++ ";".toList)))) ∧
    (isStatic = true → methodCall isStatic isVirtual isPure deprecated helper cls assign method w =
        .ok (w.op (.write 1 (assign ++ cls ++ "::".toList ++ method ++ "(".toList ++ pyJoin ", ".toList w.call ++ ")".toList ++ ";".toList)))) := by
  refine ⟨?_, ?_, ?_⟩
  · intro e1 e2 e3 e4 h e5
    rw [methodCall, e1, e2, e3, e4, e5]
    have : callForm false true false false (some h) cls = .guarded h cls := by simp [callForm]
    rw [this]
    refine bind_congr ?_
    rintro ⟨w', v⟩
    refine congrArg (fun x => pure (w'.op (.write 1 x))) ?_
    show assign ++ (("(".toList ++ v ++ " == NULL)? (self->obj->".toList ++ method ++ "(".toList ++ pyJoin ", ".toList w'.call ++
      ")) : (self->obj->".toList ++ cls ++ "::".toList ++ method ++ "(".toList ++ pyJoin ", ".toList w'.call ++ "))".toList)) ++ ";".toList = _
    generalize ("(" : String).toList = l1
    generalize (" == NULL)? (self->obj->" : String).toList = l2
    generalize (", " : String).toList = l3
    generalize (")) : (self->obj->" : String).toList = l4
    generalize ("))" : String).toList = l5
    generalize (";" : String).toList = l6
    generalize ("::" : String).toList = l7
    simp only [List.append_assoc]
  · rintro rfl hc
    have : callForm false isVirtual isPure deprecated helper cls = .virtual := by
      unfold callForm
      cases helper with
      | none => rfl
      | some h =>
        simp only [Bool.false_eq_true, if_false]
        rw [if_neg]
        rintro ⟨h1, h2, h3⟩
        rcases hc with hc | hc | hc | hc
        · rw [h1] at hc; cases hc
        · rw [h2] at hc; cases hc
        · rw [h3] at hc; cases hc
        · cases hc
    rw [methodCall, this]
    refine congrArg (fun x => Except.ok (w.op (.write 1 x))) ?_
    show assign ++ ("self->obj->".toList ++ method ++ "(".toList ++ pyJoin ", ".toList w.call ++ ")".toList) ++ ";".toList = _
    generalize ("self->obj->" : String).toList = l1
    generalize ("(" : String).toList = l2
    generalize (", " : String).toList = l3
    generalize (")" : String).toList = l4
    generalize (";" : String).toList = l5
    simp only [List.append_assoc]
  · rintro rfl
    have : callForm true isVirtual isPure deprecated helper cls = .static cls := rfl
    rw [methodCall, this]
    refine congrArg (fun x => Except.ok (w.op (.write 1 x))) ?_
    show assign ++ (cls ++ "::".toList ++ method ++ "(".toList ++ pyJoin ", ".toList w.call ++ ")".toList) ++ ";".toList = _
    generalize ("::" : String).toList = l1
    generalize ("(" : String).toList = l2
    generalize (", " : String).toList = l3
    generalize (")" : String).toList = l4
    generalize (";" : String).toList = l5
    simp only [List.append_assoc]

end Verif.Dispatch
