import Verif.Register.Props

/-!
# C101: enums, containers, smart pointers, and where it fails
-/
namespace Verif.Register
open Verif Verif.CType Verif.Matcher

/-! ## Enums -/

theorem single_unprotected (r : Regs) (sd : Side) (x n : Str) (h : Hd) (hn : normalize x = .ok n) :
    ((r.bound sd n = none) → (doBlk r ⟨sd, false, [(x, h)]⟩).2 = .ok () ∧
      ∀ sd' n', (doBlk r ⟨sd, false, [(x, h)]⟩).1.bound sd' n' =
        if sd' = sd ∧ n' = n then some h else r.bound sd' n') ∧
    ((r.bound sd n).isSome = true → (doBlk r ⟨sd, false, [(x, h)]⟩).2 = .raised .valueError) := by
  constructor
  · intro hb
    have hr : (r.side sd).register x h = .ok { r.side sd with types := (r.side sd).types.set n h } := by
      unfold Matcher.register; rw [hn]; simp only
      rw [show (r.side sd).types.get n = none from hb]
    have hd : doBlk r ⟨sd, false, [(x, h)]⟩ =
        (r.setSide sd { r.side sd with types := (r.side sd).types.set n h }, .ok ()) := by
      unfold doBlk; simp only [doRegs, hr]; rfl
    rw [hd]
    refine ⟨rfl, ?_⟩
    intro sd' n'
    unfold Regs.bound
    simp only
    rw [side_set]
    by_cases e : sd' = sd
    · subst e
      rw [if_pos rfl]
      simp only [Dict.get_set]
      by_cases e2 : n' = n
      · rw [if_pos e2.symm, if_pos ⟨trivial, e2⟩]
      · rw [if_neg (fun e => e2 e.symm), if_neg (fun e => e2 e.2)]
    · rw [if_neg e, if_neg (fun h => e h.1)]
  · intro hb
    have hr : (r.side sd).register x h = .raised .valueError := by
      unfold Matcher.register; rw [hn]; simp only
      cases hg : (r.side sd).types.get n with
      | none => unfold Regs.bound at hb; rw [hg] at hb; cases hb
      | some y => rfl
    unfold doBlk
    simp only [doRegs, hr, swallowed]
    rfl

/-- In a row of blocks, one that lets an exception out ends it. -/
theorem doBlks_cons_raised {r : Regs} {b : Blk} {bs : List Blk} {e : PyErr} (h : (doBlk r b).2 = .raised e) :
    (doBlks r (b :: bs)).2 = .raised e := by
  unfold doBlks
  rcases hd : doBlk r b with ⟨r', o⟩
  rw [hd] at h
  simp only at h
  subst h
  rfl

theorem doBlks_cons_ok {r : Regs} {b : Blk} {bs : List Blk} (h : (doBlk r b).2 = .ok ()) :
    doBlks r (b :: bs) = doBlks (doBlk r b).1 bs := by
  conv_lhs => unfold doBlks
  rcases hd : doBlk r b with ⟨r', o⟩
  rw [hd] at h
  simp only at h
  subst h
  rfl

/-- The names an enum insists on. -/
def enumNames (full : Str) : List (Side × Str × Role) :=
  [(.param, normalForm full .value, .value), (.ret, normalForm full .value, .value),
   (.param, normalForm full .ref, .ref), (.param, normalForm full .ptr, .ptr)]

theorem nf_ne (f : Str) : normalForm f .value ≠ normalForm f .ref ∧ normalForm f .value ≠ normalForm f .ptr ∧
    normalForm f .ref ≠ normalForm f .ptr := by
  refine ⟨?_, ?_, ?_⟩ <;> simp [normalForm]

theorem swallowing_ok (bs : List Blk) (hsw : ∀ b ∈ bs, b.swallow = true)
    (hn : ∀ b ∈ bs, ∀ x ∈ b.regs, ∃ n, normalize x.1 = .ok n) (r : Regs) : (doBlks r bs).2 = .ok () := by
  induction bs generalizing r with
  | nil => rfl
  | cons b bs ih =>
    have hb : (doBlk r b).2 = .ok () := by
      have : ∀ (l : List (Str × Hd)) (m : Matcher Hd), (∀ x ∈ l, ∃ n, normalize x.1 = .ok n) →
          (doRegs m l).2 = .ok () ∨ (doRegs m l).2 = .raised .valueError := by
        intro l
        induction l with
        | nil => intro m _; exact .inl rfl
        | cons x l ih =>
          intro m hx
          obtain ⟨y, d⟩ := x
          unfold doRegs
          obtain ⟨n', hn'⟩ := hx (y, d) (by simp)
          unfold Matcher.register
          rw [hn']
          simp only
          cases hm : m.types.get n' with
          | some y => exact .inr rfl
          | none => exact ih _ (fun x hx' => hx x (by simp [hx']))
      unfold doBlk
      simp only
      rcases this b.regs (r.side b.side) (hn b (by simp)) with h | h <;> rw [h]
      · rfl
      · simp [swallowed, hsw b (by simp)]
    rw [doBlks_cons_ok hb]
    exact ih (fun b hb => hsw b (by simp [hb])) (fun b hb => hn b (by simp [hb])) _

/-- Putting an enum in a module works exactly when none of the four types it is made of (its full
name as parameter and return value, `&` and `*` as parameters) is registered yet; otherwise it
raises `ValueError`. -/
theorem C101_enum_accepted_iff (r : Regs) (i : Nat) (name full : Str) (hne : CName name) (hf : CName full) :
    ((step r (.enumModule i name full)).2 = .ok () ↔ ∀ c ∈ enumNames full, r.bound c.1 c.2.1 = none) ∧
    ((step r (.enumModule i name full)).2 = .ok () ∨ (step r (.enumModule i name full)).2 = .raised .valueError) ∧
    ((step r (.enumModule i name full)).2 = .ok () →
      ∀ c ∈ enumNames full, (step r (.enumModule i name full)).1.bound c.1 c.2.1 = some (.own i c.2.2)) := by
  obtain ⟨d1, d2, d3⟩ := nf_ne full
  have hn0 : name ≠ [] := by rintro rfl; obtain ⟨_, ⟨_, _, e, _⟩, _⟩ := hne; cases e
  let tl := if name ≠ full then
        [(⟨.param, true, [(name, .own i .value)]⟩ : Blk),
         ⟨.ret, true, [(name, .own i .value)]⟩,
         ⟨.param, true, [(name ++ " &".toList, .own i .ref)]⟩,
         ⟨.param, true, [(name ++ " *".toList, .own i .ptr)]⟩]
       else []
  have hstep : step r (.enumModule i name full) = doBlks r
      (⟨.param, false, [(full, .own i .value)]⟩ :: ⟨.ret, false, [(full, .own i .value)]⟩ ::
       ⟨.param, false, [(full ++ " &".toList, .own i .ref)]⟩ ::
       ⟨.param, false, [(full ++ " *".toList, .own i .ptr)]⟩ :: tl) := by
    show doBlks r (enumModule i name full) = _
    unfold enumModule
    rw [if_neg hn0]
    rfl
  have htl : ∀ r', (doBlks r' tl).2 = .ok () := by
    intro r'
    apply swallowing_ok
    · intro b hb
      by_cases e : name = full
      · simp [tl, e] at hb
      · simp [tl, e] at hb; rcases hb with rfl | rfl | rfl | rfl <;> rfl
    · intro b hb x hx
      by_cases e : name = full
      · simp [tl, e] at hb
      · simp only [tl, ne_eq, e, not_false_eq_true, if_true, List.mem_cons, List.not_mem_nil, or_false] at hb
        rcases hb with rfl | rfl | rfl | rfl <;> simp only [List.mem_singleton] at hx <;> subst hx
        · exact ⟨_, norm_value hne⟩
        · exact ⟨_, norm_value hne⟩
        · exact ⟨_, norm_ref' hne⟩
        · exact ⟨_, norm_ptr' hne⟩
  have s1 := single_unprotected r .param full _ (.own i .value) (norm_value hf)
  rw [hstep]
  have all : ∀ P : Side × Str × Role → Prop, (∀ c ∈ enumNames full, P c) ↔
      (P (.param, normalForm full .value, .value) ∧ P (.ret, normalForm full .value, .value) ∧
       P (.param, normalForm full .ref, .ref) ∧ P (.param, normalForm full .ptr, .ptr)) := by
    intro P; simp [enumNames]
  rw [all, all]
  have absent : ∀ {o : Option Hd}, o.isSome = true → o ≠ none := by intro o h e; rw [e] at h; cases h
  cases h1 : r.bound .param (normalForm full .value) with
  | some y =>
    have := doBlks_cons_raised (bs := ⟨.ret, false, [(full, .own i .value)]⟩ ::
       ⟨.param, false, [(full ++ " &".toList, .own i .ref)]⟩ ::
       ⟨.param, false, [(full ++ " *".toList, .own i .ptr)]⟩ :: tl) (s1.2 (by rw [h1]; rfl))
    rw [this]
    simp
  | none =>
    obtain ⟨o1, b1⟩ := s1.1 h1
    rw [doBlks_cons_ok o1]
    generalize (doBlk r ⟨.param, false, [(full, .own i .value)]⟩).1 = r1 at b1 ⊢
    have s2 := single_unprotected r1 .ret full _ (.own i .value) (norm_value hf)
    cases h2 : r.bound .ret (normalForm full .value) with
    | some y =>
      have e : r1.bound .ret (normalForm full .value) = some y := by rw [b1, if_neg (by simp), h2]
      have := doBlks_cons_raised (bs :=
         ⟨.param, false, [(full ++ " &".toList, .own i .ref)]⟩ ::
         ⟨.param, false, [(full ++ " *".toList, .own i .ptr)]⟩ :: tl) (s2.2 (by rw [e]; rfl))
      rw [this]
      simp
    | none =>
      obtain ⟨o2, b2⟩ := s2.1 (by rw [b1, if_neg (by simp), h2])
      rw [doBlks_cons_ok o2]
      generalize (doBlk r1 ⟨.ret, false, [(full, .own i .value)]⟩).1 = r2 at b2 ⊢
      have s3 := single_unprotected r2 .param _ _ (.own i .ref) (norm_ref' hf)
      cases h3 : r.bound .param (normalForm full .ref) with
      | some y =>
        have e : r2.bound .param (normalForm full .ref) = some y := by
          rw [b2, if_neg (by simp), b1, if_neg (by simpa using d1.symm), h3]
        have := doBlks_cons_raised (bs := ⟨.param, false, [(full ++ " *".toList, .own i .ptr)]⟩ :: tl)
          (s3.2 (by rw [e]; rfl))
        rw [this]
        simp
      | none =>
        obtain ⟨o3, b3⟩ := s3.1 (by rw [b2, if_neg (by simp), b1, if_neg (by simpa using d1.symm), h3])
        rw [doBlks_cons_ok o3]
        generalize (doBlk r2 ⟨.param, false, [(full ++ " &".toList, .own i .ref)]⟩).1 = r3 at b3 ⊢
        have s4 := single_unprotected r3 .param _ _ (.own i .ptr) (norm_ptr' hf)
        cases h4 : r.bound .param (normalForm full .ptr) with
        | some y =>
          have e : r3.bound .param (normalForm full .ptr) = some y := by
            rw [b3, if_neg (by simpa using d3.symm), b2, if_neg (by simp), b1, if_neg (by simpa using d2.symm), h4]
          have := doBlks_cons_raised (bs := tl) (s4.2 (by rw [e]; rfl))
          rw [this]
          simp
        | none =>
          obtain ⟨o4, b4⟩ := s4.1 (by
            rw [b3, if_neg (by simpa using d3.symm), b2, if_neg (by simp), b1, if_neg (by simpa using d2.symm), h4])
          rw [doBlks_cons_ok o4]
          generalize (doBlk r3 ⟨.param, false, [(full ++ " *".toList, .own i .ptr)]⟩).1 = r4 at b4 ⊢
          rw [htl]
          refine ⟨by simp, .inl rfl, fun _ => ⟨?_, ?_, ?_, ?_⟩⟩ <;> apply doBlks_mono
          · rw [b4, if_neg (by simpa using d2), b3, if_neg (by simpa using d1), b2, if_neg (by simp), b1, if_pos ⟨rfl, rfl⟩]
          · rw [b4, if_neg (by simp), b3, if_neg (by simp), b2, if_pos ⟨rfl, rfl⟩]
          · rw [b4, if_neg (by simpa using d3), b3, if_pos ⟨rfl, rfl⟩]
          · rw [b4, if_pos ⟨rfl, rfl⟩]

/-- C101, enums: an enum that was put in a module without an exception is found under every
spelling of its full name, by value (parameter and return), by reference and by pointer
(parameter), whatever was registered before and whatever is registered afterwards.  (Missing:
that it is put in a module without an exception, see `C101_enum_clash_counterexample`; reference
and pointer returns, for which there are no handlers.) -/
theorem C101_enum_partial (es es' : List Ev) (i : Nat) (name full s : Str) (hname : CName name) (hf : CName full)
    (hok : (step (run es) (.enumModule i name full)).2 = .ok ()) (sd : Side) (k : Role) (hk : k ≠ .shared)
    (hsd : sd = .param ∨ k = .value) (hw : Writes s full k) :
    ∃ t, ((run (es ++ [.enumModule i name full] ++ es')).side sd).lookup s = .ok (.own i k, none, t) := by
  refine found_name hf hk ?_ hw
  apply run_mono
  rw [run_snoc]
  have h := (C101_enum_accepted_iff (run es) i name full hname hf).2.2 hok
  cases sd with
  | param =>
    cases k with
    | value => exact h (.param, normalForm full .value, .value) (by simp [enumNames])
    | ref => exact h (.param, normalForm full .ref, .ref) (by simp [enumNames])
    | ptr => exact h (.param, normalForm full .ptr, .ptr) (by simp [enumNames])
    | shared => exact absurd rfl hk
  | ret =>
    rcases hsd with h' | rfl
    · cases h'
    · exact h (.ret, normalForm full .value, .value) (by simp [enumNames])

/-! ## Containers -/

/-- As `OtherName`, for a container: its own constructor and aliases are allowed. -/
def OtherNameC (i : Nat) (a : Str) (e : Ev) : Prop :=
  OtherName i a e ∨ ∃ n, CName n ∧ (e = .containerNew i n ∨ e = .containerAlias i n)

theorem onlyFor_container {es : List Ev} {i : Nat} {a : Str} (ha : CName a) (h : ∀ e ∈ es, OtherNameC i a e)
    (sd : Side) (k : Role) (hk : k ≠ .shared) (hnot : ¬ (sd = .ret ∧ k = .ref)) :
    OnlyFor es sd (normalForm a k) (.own i k) := by
  intro e he c hc hsd hcn
  rcases h e he with h1 | ⟨n, hn, rfl | rfl⟩
  · exact onlyFor_of_names (es := [e]) ha (by simpa using h1) sd k hk e (by simp) c hc hsd hcn
  · by_cases hd : n = "dummy".toList
    · simp [Ev.claims, Ev.blks, containerInit, hd] at hc
    · have hown : ∀ k', k' ≠ .shared → normalize c.2.1 = .ok (normalForm n k') → c.2.2 = .own i k' →
          c.2.2 = .own i k := by
        intro k' hs h2 h3
        obtain ⟨_, rfl⟩ := claim_norm hn hs h2 ha hk hcn
        exact h3
      simp only [Ev.claims, Ev.blks, containerInit, hd, if_false, List.cons_append, List.nil_append,
        List.flatMap_cons, List.flatMap_nil, List.map_cons, List.map_nil, List.append_nil, List.mem_cons,
        List.not_mem_nil, or_false] at hc
      rcases hc with rfl | rfl | rfl | rfl | rfl
      · exact hown .value (by simp) (norm_value hn) rfl
      · exact hown .ref (by simp) (norm_ref hn) rfl
      · exact hown .ptr (by simp) (norm_ptr hn) rfl
      · exact hown .value (by simp) (norm_value hn) rfl
      · exact absurd ⟨hsd.symm, (claim_norm hn (k := .ref) (by simp) (norm_ref hn) ha hk hcn).2.symm⟩ hnot
  · have hown : ∀ k', k' ≠ .shared → normalize c.2.1 = .ok (normalForm n k') → c.2.2 = .own i k' →
        c.2.2 = .own i k := by
      intro k' hs h2 h3
      obtain ⟨_, rfl⟩ := claim_norm hn hs h2 ha hk hcn
      exact h3
    simp only [Ev.claims, Ev.blks, containerAlias, List.cons_append, List.nil_append,
      List.flatMap_cons, List.flatMap_nil, List.map_cons, List.map_nil, List.append_nil, List.mem_cons,
      List.not_mem_nil, or_false] at hc
    rcases hc with rfl | rfl | rfl
    · exact hown .value (by simp) (norm_value hn) rfl
    · exact hown .ref (by simp) (norm_ref hn) rfl
    · exact hown .value (by simp) (norm_value hn) rfl

/-- C101, containers: under its full name or an alias, a container is found by value (parameter
and return) and by reference (parameter); under the name it was created with also by pointer.
(Missing: the other spellings of the full name, see `C101_container_pointer_counterexample`;
names with template arguments.) -/
theorem C101_container_partial (es es' : List Ev) (i : Nat) (a s : Str) (ha : CName a) (sd : Side) (k : Role)
    (hother : ∀ e ∈ es, OtherNameC i a e) (hw : Writes s a k) :
    ((k = .value ∨ (sd = .param ∧ k = .ref)) →
      ∃ t, ((run (es ++ [.containerAlias i a] ++ es')).side sd).lookup s = .ok (.own i k, none, t)) ∧
    (a ≠ "dummy".toList → (k = .value ∨ (sd = .param ∧ (k = .ref ∨ k = .ptr))) →
      ∃ t, ((run (es ++ [.containerNew i a] ++ es')).side sd).lookup s = .ok (.own i k, none, t)) := by
  constructor
  · intro hk
    have hns : k ≠ .shared := by rcases hk with rfl | ⟨_, rfl⟩ <;> simp
    refine found_name ha hns ?_ hw
    refine bound_only ?_ (onlyFor_container ha ?_ sd k hns ?_) es'
    · rw [run_snoc]
      have key := fun (b : Blk) (hb : b ∈ containerAlias i a) (x : Str) (h : Hd) (l : List (Str × Hd))
          (he : b.regs = (x, h) :: l) (n : Str) (hn : normalize x = .ok n) =>
        doBlks_first (containerAlias i a) (run es)
          (by intro b hb; simp [containerAlias] at hb; rcases hb with rfl | rfl | rfl <;> rfl)
          (by
            intro b hb x hx
            simp [containerAlias] at hb
            rcases hb with rfl | rfl | rfl <;> simp at hx <;> subst hx <;>
              first | exact ⟨_, norm_value ha⟩ | exact ⟨_, norm_ref ha⟩)
          b hb x h l he n hn
      rcases hk with rfl | ⟨rfl, rfl⟩
      · cases sd
        · exact key ⟨.param, true, [(a, .own i .value)]⟩ (by simp [containerAlias]) _ _ _ rfl _ (norm_value ha)
        · exact key ⟨.ret, true, [(a, .own i .value)]⟩ (by simp [containerAlias]) _ _ _ rfl _ (norm_value ha)
      · exact key ⟨.param, true, [(a ++ amp, .own i .ref)]⟩ (by simp [containerAlias]) _ _ _ rfl _ (norm_ref ha)
    · intro e he
      rw [List.mem_append, List.mem_singleton] at he
      rcases he with he | rfl
      · exact hother e he
      · exact .inr ⟨a, ha, .inr rfl⟩
    · rintro ⟨rfl, rfl⟩; rcases hk with h | ⟨h, _⟩ <;> cases h
  · intro hd hk
    have hns : k ≠ .shared := by rcases hk with rfl | ⟨_, rfl | rfl⟩ <;> simp
    refine found_name ha hns ?_ hw
    refine bound_only ?_ (onlyFor_container ha ?_ sd k hns ?_) es'
    · rw [run_snoc]
      have hci : containerInit i a = [⟨.param, true, [(a, .own i .value)]⟩, ⟨.param, true, [(a ++ amp, .own i .ref)]⟩,
          ⟨.param, true, [(a ++ star, .own i .ptr)]⟩,
          ⟨.ret, true, [(a, .own i .value), (a ++ amp, .own i .value)]⟩] := if_neg hd
      have key := fun (b : Blk) (hb : b ∈ containerInit i a) (x : Str) (h : Hd) (l : List (Str × Hd))
          (he : b.regs = (x, h) :: l) (n : Str) (hn : normalize x = .ok n) =>
        doBlks_first (containerInit i a) (run es)
          (by intro b hb; rw [hci] at hb; simp at hb; rcases hb with rfl | rfl | rfl | rfl <;> rfl)
          (by
            intro b hb x hx
            rw [hci] at hb; simp at hb
            rcases hb with rfl | rfl | rfl | rfl <;> simp at hx
            · subst hx; exact ⟨_, norm_value ha⟩
            · subst hx; exact ⟨_, norm_ref ha⟩
            · subst hx; exact ⟨_, norm_ptr ha⟩
            · rcases hx with rfl | rfl
              · exact ⟨_, norm_value ha⟩
              · exact ⟨_, norm_ref ha⟩)
          b hb x h l he n hn
      rcases hk with rfl | ⟨rfl, rfl | rfl⟩
      · cases sd
        · exact key ⟨.param, true, [(a, .own i .value)]⟩ (by rw [hci]; simp) _ _ _ rfl _ (norm_value ha)
        · exact key ⟨.ret, true, [(a, .own i .value), (a ++ amp, .own i .value)]⟩ (by rw [hci]; simp) _ _ _ rfl _ (norm_value ha)
      · exact key ⟨.param, true, [(a ++ amp, .own i .ref)]⟩ (by rw [hci]; simp) _ _ _ rfl _ (norm_ref ha)
      · exact key ⟨.param, true, [(a ++ star, .own i .ptr)]⟩ (by rw [hci]; simp) _ _ _ rfl _ (norm_ptr ha)
    · intro e he
      rw [List.mem_append, List.mem_singleton] at he
      rcases he with he | rfl
      · exact hother e he
      · exact .inr ⟨a, ha, .inl rfl⟩
    · rintro ⟨rfl, rfl⟩; rcases hk with h | ⟨h, _⟩ <;> cases h

/-! ## Smart pointers -/

/-- C101, classes kept by a smart pointer: by value and by reference as for other classes, and
every spelling of the smart pointer type over the registered name finds the smart pointer
handler, if nobody else was given these types.  (Missing: plain pointers and the smart pointer
over the short name, see `C101_smart_pointer_counterexample`.) -/
theorem C101_smart_pointer_partial (es es' : List Ev) (i : Nat) (pre post a np : Str) (ha : CName a) (sd : Side)
    (hnp : normalize (pre ++ a ++ post) = .ok np) :
    (∀ s k, k = .value ∨ k = .ref →
      OnlyFor (es ++ [.classAlias i (.smart pre post) a]) sd (normalForm a k) (.own i k) → Writes s a k →
      ∃ t, ((run (es ++ [.classAlias i (.smart pre post) a] ++ es')).side sd).lookup s = .ok (.own i k, none, t)) ∧
    (∀ s l l', OnlyFor (es ++ [.classAlias i (.smart pre post) a]) sd np (.own i .shared) →
      Denotes (pre ++ a ++ post) l → Denotes s l' → Same (unqualified l') l →
      ∃ t, ((run (es ++ [.classAlias i (.smart pre post) a] ++ es')).side sd).lookup s = .ok (.own i .shared, none, t)) := by
  have key := fun (b : Blk) (hb : b ∈ classAlias i (.smart pre post) a) (x : Str) (h : Hd) (l : List (Str × Hd))
      (he : b.regs = (x, h) :: l) (n : Str) (hn : normalize x = .ok n) =>
    doBlks_first (classAlias i (.smart pre post) a) (run es)
      (by intro b hb; simp [classAlias, ptrAlias] at hb; rcases hb with rfl | rfl | rfl | rfl | rfl | rfl <;> rfl)
      (by
        intro b hb x hx
        simp only [classAlias, ptrAlias, List.cons_append, List.nil_append, List.mem_cons, List.not_mem_nil,
          or_false] at hb
        rcases hb with rfl | rfl | rfl | rfl | rfl | rfl <;> simp only [List.mem_singleton] at hx <;> subst hx <;>
          first | exact ⟨_, norm_value ha⟩ | exact ⟨_, norm_ref ha⟩ | exact ⟨_, hnp⟩)
      b hb x h l he n hn
  constructor
  · intro s k hk ho hw
    have hns : k ≠ .shared := by rcases hk with rfl | rfl <;> simp
    refine found_name ha hns (bound_only ?_ ho es') hw
    rw [run_snoc]
    rcases hk with rfl | rfl <;> cases sd
    · exact key ⟨.param, true, [(a, .own i .value)]⟩ (by simp [classAlias]) _ _ _ rfl _ (norm_value ha)
    · exact key ⟨.ret, true, [(a, .own i .value)]⟩ (by simp [classAlias]) _ _ _ rfl _ (norm_value ha)
    · exact key ⟨.param, true, [(a ++ amp, .own i .ref)]⟩ (by simp [classAlias]) _ _ _ rfl _ (norm_ref ha)
    · exact key ⟨.ret, true, [(a ++ amp, .own i .ref)]⟩ (by simp [classAlias]) _ _ _ rfl _ (norm_ref ha)
  · intro s l l' ho hd hd' hs
    have hb : (run (es ++ [.classAlias i (.smart pre post) a] ++ es')).bound sd np = some (.own i .shared) := by
      refine bound_only ?_ ho es'
      rw [run_snoc]
      cases sd
      · exact key ⟨.param, true, [(pre ++ a ++ post, .own i .shared)]⟩ (by simp [classAlias, ptrAlias]) _ _ _ rfl _ hnp
      · exact key ⟨.ret, true, [(pre ++ a ++ post, .own i .shared)]⟩ (by simp [classAlias, ptrAlias]) _ _ _ rfl _ hnp
    obtain ⟨t, h1, _⟩ := found_of_types _ _ s np l l' _ hnp hb hd hd' hs
    exact ⟨t, h1⟩

/-! ## Where it fails -/

/-- What a lookup finds: a handler, `TypeLookupError`, or something else. -/
def outcome (m : Matcher Hd) (s : Str) : Option (Option Hd) :=
  match m.lookup s with
  | .ok (h, none, _) => some (some h)
  | .raised (.typeLookupError _) => some none
  | _ => none

/-- C101 fails: the class whose full name is `Foo` is found under none of its spellings, because
`ns::Foo` was created first and had taken the short name `Foo` too. -/
theorem C101_short_name_steals_counterexample :
    let r := run [.classNew 0 .raw "Foo".toList, .classAlias 0 .raw "ns::Foo".toList,
      .classNew 1 .raw "Foo".toList, .classAlias 1 .raw "Foo".toList]
    outcome r.param "Foo".toList = some (some (.own 0 .value)) ∧
    outcome r.param "const Foo &".toList = some (some (.own 0 .ref)) ∧
    outcome r.ret "::Foo *".toList = some (some (.own 0 .ptr)) := by decide +kernel

/-- C101 fails: a global enum `Color` cannot be added after a class `ns::Color`. -/
theorem C101_enum_clash_counterexample :
    let r := run [.classNew 0 .raw "Color".toList, .classAlias 0 .raw "ns::Color".toList]
    (match (step r (.enumModule 1 "Color".toList "Color".toList)).2 with
      | .raised e => decide (e = .valueError) | _ => false) = true ∧
    outcome (step r (.enumModule 1 "Color".toList "Color".toList)).1.param "Color".toList = some (some (.own 0 .value)) := by
  decide +kernel

/-- C101 fails: a container in a namespace is found as `V *` and (return) `V &`, but not as
`ns::V *` and `ns::V &`. -/
theorem C101_container_pointer_counterexample :
    let r := run [.containerNew 0 "V".toList, .containerAlias 0 "ns::V".toList]
    outcome r.param "V *".toList = some (some (.own 0 .ptr)) ∧ outcome r.param "ns::V *".toList = some none ∧
    outcome r.ret "V &".toList = some (some (.own 0 .value)) ∧ outcome r.ret "ns::V &".toList = some none := by
  decide +kernel

/-- C101 fails: for a class kept by `boost::shared_ptr`, neither a plain pointer nor the smart
pointer over its short name is found, but `boost::shared_ptr<None>` is. -/
theorem C101_smart_pointer_counterexample :
    let r := run [.classNew 0 boost "Foo".toList, .classAlias 0 boost "ns::Foo".toList]
    outcome r.param "ns::Foo *".toList = some none ∧ outcome r.param "Foo *".toList = some none ∧
    outcome r.param "boost::shared_ptr<Foo>".toList = some none ∧
    outcome r.param "boost::shared_ptr<ns::Foo>".toList = some (some (.own 0 .shared)) ∧
    outcome r.param "boost::shared_ptr<None>".toList = some (some (.own 0 .shared)) := by
  decide +kernel

/-- C101 fails: the short name is accepted, but the handler keeps it as its C type (which goes
into the generated code), although a handler made directly from the string would use the full
name. -/
theorem C101_short_ctype_counterexample :
    let r := run [.classNew 0 .raw "Foo".toList, .classAlias 0 .raw "ns::Foo".toList]
    (match newCtype r.param "Foo".toList "ns::Foo".toList "Foo".toList with
      | .ok s => decide (s = "Foo".toList) | _ => false) = true ∧
    (match handlerCtype (fixCtype "Foo".toList "ns::Foo".toList (.text "Foo".toList)) with
      | .ok s => decide (s = "ns::Foo".toList) | _ => false) = true := by
  decide +kernel

/-! ## Non-vacuity -/

theorem cname_of {a : Str} (h1 : scanName a = (a, [])) (c : Char) (cs : Str) (h2 : a = c :: cs) (h3 : isDig c = false)
    (h4 : key a ≠ []) (h5 : key a ∉ kModifiers) : CName a := ⟨h1, ⟨c, cs, h2, h3⟩, h4, h5⟩

theorem cname_ex : CName "ns::Foo".toList ∧ CName "Foo".toList ∧ CName "V".toList ∧ CName "::E".toList :=
  ⟨cname_of (by decide) _ _ rfl (by decide) (by decide) (by decide),
   cname_of (by decide) _ _ rfl (by decide) (by decide) (by decide),
   cname_of (by decide) _ _ rfl (by decide) (by decide) (by decide),
   cname_of (by decide) _ _ rfl (by decide) (by decide) (by decide)⟩

/-- Non-vacuity for `C101_class_partial`: a class in a namespace, beside a container and an enum. -/
example : let es := [Ev.classNew 0 .raw "Foo".toList, .containerNew 1 "V".toList,
      .enumModule 2 "::E".toList "::E".toList, .other .param (.register "V*".toList (.foreign 3))]
    (∀ e ∈ es, OtherName 0 "ns::Foo".toList e) ∧
    outcome (run (es ++ [.classAlias 0 .raw "ns::Foo".toList])).ret "const ::ns::Foo*".toList = some (some (.own 0 .ptr)) := by
  refine ⟨?_, by decide +kernel⟩
  intro e he
  simp only [List.mem_cons, List.not_mem_nil, or_false] at he
  rcases he with rfl | rfl | rfl | rfl
  · exact ⟨cname_ex.2.1, rfl, .inl rfl⟩
  · exact ⟨cname_ex.2.2.1, by decide⟩
  · exact .inr ⟨cname_ex.2.2.2, cname_ex.2.2.2, by decide, by decide⟩
  · intro k h
    rw [show "V*".toList = "V".toList ++ star from rfl, norm_ptr cname_ex.2.2.1] at h
    injection h with h
    cases k <;> revert h <;> decide

/-- `const ::ns::Foo *` is a way to write `ns::Foo *`. -/
example : Writes "const ::ns::Foo*".toList "ns::Foo".toList .ptr := by
  refine ⟨[.tok ⟨.name, "const".toList⟩, .tok ⟨.name, "ns::Foo".toList⟩, .tok ⟨.syntax_, ['*']⟩],
    ⟨[⟨.name, "const".toList⟩, ⟨.name, "::ns::Foo".toList⟩, ⟨.syntax_, ['*']⟩], by unfold Spells; decide +kernel, ?_⟩, ?_⟩
  · exact .plain (by unfold Plain; decide) (.plain (by unfold Plain; decide) (.plain (by unfold Plain; decide) .nil))
  · exact .refl _

/-- Non-vacuity for `C101_enum_partial`. -/
example : (match (step (run [.classNew 0 .raw "Foo".toList]) (.enumModule 1 "E".toList "ns::E".toList)).2 with
    | .ok _ => true | _ => false) = true := by decide +kernel

end Verif.Register
