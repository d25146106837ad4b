import Verif.CppClass.HelperCodeProps

/-!
# C106: statements
-/
namespace Verif.HelperCode
open Verif Verif.Utils Verif.Overload

/-! ## Specification -/

/-- The methods a helper class overrides, of those added: of methods with the same signature the first,
and none that could not be wrapped. -/
def overridden (seen : List VMeth) : List VMeth → List VMeth
  | [] => []
  | m :: ms =>
    if m.dummy = true ∨ seen.any (fun e => m.matches e) = true then overridden seen ms
    else m :: overridden (seen ++ [m]) ms

/-- The Python name of a parent caller. -/
def pyName (dep : Bool) (n : Str) : Str := if dep then '_' :: n else n

/-- What makes C++ take two declarations for the same member function. -/
def Fn.key (f : Fn) : Str × List Str × Bool := (f.name, f.types, f.isConst)

/-- The override of a method, spelled out: the same result, name, parameters, constness and exceptions. -/
def overriding (m : VMeth) : Fn :=
  { kind := .virt, ret := m.ret, name := m.name, types := m.params.map Prod.fst, names := m.params.map Prod.snd,
    isConst := m.isConst, throws := m.throws }

/-- The methods whose inherited implementation exists and that Python subclasses have to reach through a function of
the helper class: the protected ones, with `deprecated_virtuals` also the public ones. -/
def Inherited (dep : Bool) (m : VMeth) : Prop := m.isPure = false ∧ (m.vis = .prot ∨ (dep = true ∧ m.vis = .pub))

theorem hasCaller_iff (dep : Bool) (m : VMeth) : hasCaller dep m = true ↔ Inherited dep m := by
  unfold hasCaller Inherited
  cases m.isPure <;> cases dep <;> cases m.vis <;> decide

/-! ## What has been added -/

structure Built (dep : Bool) (H : Helper) : Prop where
  proxies : H.proxies = H.methods.map (fun m => ⟨m, false⟩)
  nodup : (H.sets.map (·.name)).Nodup
  wrappers : ∀ s ∈ H.sets, ∀ m ∈ s.wrappers, m ∈ H.methods ∧ m.name = s.name ∧ hasCaller dep m = true
  reached : ∀ m ∈ H.methods, hasCaller dep m = true →
    ∃ s ∈ H.sets, s.name = m.name ∧ ∃ m' ∈ s.wrappers, m'.params.map (·.1) = m.params.map (·.1)
  distinct : ∀ s ∈ H.sets, (s.wrappers.map fun m => m.params.map (·.1)).Nodup

theorem addCaller_names (m : VMeth) (sets : List PSet) :
    (addCaller m sets).map (·.name) = if m.name ∈ sets.map (·.name) then sets.map (·.name)
      else sets.map (·.name) ++ [m.name] := by
  induction sets with
  | nil => rfl
  | cons s rest ih =>
    unfold addCaller
    by_cases h : s.name = m.name
    · rw [if_pos h]
      by_cases h2 : s.wrappers.any (fun e => m.callerMatches e) = true
      · rw [if_pos h2]; simp [h]
      · rw [if_neg h2]; simp [h]
    · rw [if_neg h]
      simp only [List.map_cons, ih, List.mem_cons]
      by_cases h2 : m.name ∈ rest.map (·.name)
      · rw [if_pos h2, if_pos (.inr h2)]
      · rw [if_neg h2, if_neg (by rintro (h3 | h3); exacts [h h3.symm, h2 h3])]; rfl

theorem addCaller_mem {m : VMeth} {sets : List PSet} {s : PSet} (h : s ∈ addCaller m sets) :
    s ∈ sets ∨ (s = { name := m.name, wrappers := [m] }) ∨
      ∃ s0 ∈ sets, s0.name = m.name ∧ s = { s0 with wrappers := s0.wrappers ++ [m] } ∧
        s0.wrappers.any (fun e => m.callerMatches e) = false := by
  induction sets with
  | nil => exact .inr (.inl (List.mem_singleton.1 h))
  | cons x rest ih =>
    unfold addCaller at h
    by_cases hx : x.name = m.name
    · rw [if_pos hx] at h
      rcases List.mem_cons.1 h with h | h
      · by_cases h2 : x.wrappers.any (fun e => m.callerMatches e) = true
        · rw [if_pos h2] at h; exact .inl (by simp [h])
        · rw [if_neg h2] at h
          exact .inr (.inr ⟨x, by simp, hx, h, Bool.eq_false_iff.2 h2⟩)
      · exact .inl (by simp [h])
    · rw [if_neg hx] at h
      rcases List.mem_cons.1 h with h | h
      · exact .inl (by simp [h])
      · rcases ih h with h | h | ⟨s0, h1, h2⟩
        · exact .inl (by simp [h])
        · exact .inr (.inl h)
        · exact .inr (.inr ⟨s0, by simp [h1], h2⟩)

theorem addCaller_keeps (m : VMeth) {sets : List PSet} {s : PSet} (h : s ∈ sets) :
    ∃ s' ∈ addCaller m sets, s'.name = s.name ∧ ∀ x ∈ s.wrappers, x ∈ s'.wrappers := by
  induction sets with
  | nil => cases h
  | cons x rest ih =>
    unfold addCaller
    by_cases hx : x.name = m.name
    · rw [if_pos hx]
      rcases List.mem_cons.1 h with rfl | h
      · by_cases h2 : s.wrappers.any (fun e => m.callerMatches e) = true
        · rw [if_pos h2]; exact ⟨s, by simp, rfl, fun _ h => h⟩
        · rw [if_neg h2]; exact ⟨_, List.mem_cons_self, rfl, fun _ h => List.mem_append_left _ h⟩
      · exact ⟨s, by simp [h], rfl, fun _ h => h⟩
    · rw [if_neg hx]
      rcases List.mem_cons.1 h with rfl | h
      · exact ⟨s, by simp, rfl, fun _ h => h⟩
      · obtain ⟨s', h1, h2⟩ := ih h
        exact ⟨s', by simp [h1], h2⟩

theorem addCaller_new (m : VMeth) (sets : List PSet) :
    ∃ s ∈ addCaller m sets, s.name = m.name ∧ ∃ m' ∈ s.wrappers, m'.params.map (·.1) = m.params.map (·.1) := by
  induction sets with
  | nil => exact ⟨_, List.mem_singleton.2 rfl, rfl, m, by simp, rfl⟩
  | cons x rest ih =>
    unfold addCaller
    by_cases hx : x.name = m.name
    · rw [if_pos hx]
      by_cases h2 : x.wrappers.any (fun e => m.callerMatches e) = true
      · rw [if_pos h2]
        obtain ⟨e, he, hm⟩ := List.any_eq_true.1 h2
        simp only [VMeth.callerMatches, decide_eq_true_eq] at hm
        exact ⟨x, by simp, hx, e, he, hm.2.symm⟩
      · rw [if_neg h2]
        exact ⟨_, List.mem_cons_self, hx, m, List.mem_append_right _ (List.mem_singleton.2 rfl), rfl⟩
    · rw [if_neg hx]
      obtain ⟨s, h1, h2⟩ := ih
      exact ⟨s, by simp [h1], h2⟩

theorem Built.add {dep : Bool} {H : Helper} (h : Built dep H) (m : VMeth) : Built dep (H.add dep m) := by
  unfold Helper.add
  split
  · exact h
  · split
    · split
      · exact ⟨h.proxies, h.nodup, h.wrappers, h.reached, h.distinct⟩
      · exact h
    · by_cases hc : hasCaller dep m = true
      · simp only [hc, if_true]
        constructor
        · simp [h.proxies]
        · simp only [addCaller_names]
          split
          · exact h.nodup
          · next hn =>
            rw [List.nodup_append]
            exact ⟨h.nodup, by simp, fun a ha b hb => by rw [List.mem_singleton.1 hb]; rintro rfl; exact hn ha⟩
        · intro s hs x hx
          rcases addCaller_mem hs with hs | hs | ⟨s0, h0, hn, hs, _⟩
          · have := h.wrappers s hs x hx
            exact ⟨by simp [this.1], this.2⟩
          · subst hs
            rw [List.mem_singleton.1 hx]
            exact ⟨by simp, rfl, hc⟩
          · subst hs
            rcases List.mem_append.1 hx with hx | hx
            · have := h.wrappers s0 h0 x hx
              exact ⟨by simp [this.1], this.2⟩
            · rw [List.mem_singleton.1 hx]
              exact ⟨by simp, hn.symm, hc⟩
        · intro x hx hcx
          rcases List.mem_append.1 hx with hx | hx
          · obtain ⟨s, hs, hn, m', hm', ht⟩ := h.reached x hx hcx
            obtain ⟨s', hs', hn', hw⟩ := addCaller_keeps m hs
            exact ⟨s', hs', hn'.trans hn, m', hw _ hm', ht⟩
          · rw [List.mem_singleton.1 hx]
            exact addCaller_new m H.sets
        · intro s hs
          rcases addCaller_mem hs with hs | hs | ⟨s0, h0, hn, hs, ha⟩
          · exact h.distinct s hs
          · subst hs; simp
          · subst hs
            simp only [List.map_append, List.map_cons, List.map_nil]
            rw [List.nodup_append]
            refine ⟨h.distinct s0 h0, by simp, ?_⟩
            intro a ha' b hb hab
            rw [List.mem_singleton.1 hb] at hab
            obtain ⟨e, he, rfl⟩ := List.mem_map.1 ha'
            rw [List.any_eq_false] at ha
            refine ha e he ?_
            simp only [VMeth.callerMatches, decide_eq_true_eq]
            exact ⟨by rw [(h.wrappers s0 h0 e he).2.1, hn], hab.symm⟩
      · simp only [hc, if_false, Bool.false_eq_true]
        constructor
        · simp [h.proxies]
        · exact h.nodup
        · intro s hs x hx
          have := h.wrappers s hs x hx
          exact ⟨by simp [this.1], this.2⟩
        · intro x hx hcx
          rcases List.mem_append.1 hx with hx | hx
          · exact h.reached x hx hcx
          · rw [List.mem_singleton.1 hx] at hcx; exact absurd hcx hc
        · exact h.distinct

theorem foldl_built {dep : Bool} (ms : List VMeth) {H : Helper} (h : Built dep H) :
    Built dep (ms.foldl (Helper.add dep) H) := by
  induction ms generalizing H with
  | nil => exact h
  | cons m ms ih => exact ih (h.add m)

theorem foldl_methods {dep : Bool} (ms : List VMeth) (H : Helper) :
    (ms.foldl (Helper.add dep) H).methods = H.methods ++ overridden H.methods ms := by
  induction ms generalizing H with
  | nil => simp [overridden]
  | cons m ms ih =>
    rw [List.foldl_cons, ih, show overridden H.methods (m :: ms) =
      if m.dummy = true ∨ H.methods.any (fun e => m.matches e) = true then overridden H.methods ms
      else m :: overridden (H.methods ++ [m]) ms from rfl]
    unfold Helper.add
    by_cases h1 : H.methods.any (fun e => m.matches e) = true
    · rw [if_pos h1, if_pos (.inr h1)]
    · rw [if_neg h1]
      by_cases h2 : m.dummy = true
      · rw [if_pos h2, if_pos (show m.dummy = true ∨ H.methods.any (fun e => m.matches e) = true from Or.inl h2)]
        split <;> rfl
      · rw [if_neg h2, if_neg (show ¬ (m.dummy = true ∨ H.methods.any (fun e => m.matches e) = true) from by
          rintro (h | h); exacts [h2 h, h1 h])]
        simp

theorem built (dep : Bool) (ms : List VMeth) : Built dep (build dep ms) :=
  foldl_built ms ⟨rfl, by simp, by simp, by simp, by simp⟩

theorem build_methods (dep : Bool) (ms : List VMeth) : (build dep ms).methods = overridden [] ms := by
  rw [build, foldl_methods]; rfl

/-! ## All sets, all overrides -/

theorem setFns_wrapper (E : Env) (n : Str) (mu : Bool) (l : List VMeth) : ∀ f ∈ setFns E n mu l, f.kind = .wrapper := by
  intro f hf
  unfold setFns at hf
  split at hf
  · cases hf
  · rw [List.mem_singleton.1 hf]; rfl
  · rcases List.mem_cons.1 hf with rfl | hf
    · rfl
    · obtain ⟨p, _, rfl⟩ := List.mem_map.1 hf; rfl

theorem filter_all {α : Type} {p : α → Bool} {l : List α} (h : ∀ x ∈ l, p x = true) : l.filter p = l :=
  List.filter_eq_self.2 h

theorem filter_none {α : Type} {p : α → Bool} {l : List α} (h : ∀ x ∈ l, p x = false) : l.filter p = [] := by
  rw [List.filter_eq_nil_iff]
  intro x hx; rw [h x hx]; simp

def outside (f : Fn) : Bool := decide (f.kind ≠ .inl)
def isInl (f : Fn) : Bool := decide (f.kind = .inl)
def isVirt (f : Fn) : Bool := decide (f.kind = .virt)

theorem inline_not_outside (l : List VMeth) : (l.map inlineFn).filter outside = [] :=
  filter_none (by intro x hx; obtain ⟨m, _, rfl⟩ := List.mem_map.1 hx; rfl)

/-- What came of the sets. -/
structure SetsDone (E : Env) (dep : Bool) (sets : List PSet) (l : List Fn) (d : List Def) (t : List Entry) : Prop where
  perm : (d.map (·.fn)).Perm (l.filter outside)
  copies : ∀ x ∈ d, x.copies = 1
  table : ∀ e ∈ t, e.2 ∈ d.map (·.fn) ∧ e.2.kind = .wrapper
  names : (t.map (·.1)).Sublist (sets.map fun s => pyName dep s.name)
  sound : ∀ f ∈ l, f.kind ≠ .virt ∧ (f.kind = .inl → ∃ s ∈ sets, ∃ m ∈ s.wrappers, works m = true ∧ f = inlineFn m)
  complete : ∀ s ∈ sets, s.wrappers ≠ [] → (∀ m ∈ s.wrappers, works m = true) →
    (∀ m ∈ s.wrappers, inlineFn m ∈ l) ∧ pyName dep s.name ∈ t.map (·.1)

theorem generate_works {E : Env} {s : PSet} (hne : s.wrappers ≠ []) (hw : ∀ m ∈ s.wrappers, works m = true) :
    ∃ out, s.generate E = .ok out := by
  unfold PSet.generate Overload.generate
  rw [normalize_works s.wrappers hw]
  match hws : s.wrappers, hne, hw with
  | [m], _, hw =>
    simp only [ops, Bool.false_eq_true, if_false]
    have := gen_works (E := E) (hw m (by simp))
    simp only [ops] at this
    rw [this, call_ok]
    exact ⟨_, rfl⟩
  | m :: m2 :: ms, _, hw =>
    simp only [generateMany, flags_ok (E := E) (hw m (by simp))]
    obtain ⟨ds, hd, hlen⟩ := genDelegates_works (E := E) (wrapName s.name) 0 (m :: m2 :: ms) hw
    rw [hd]
    match ds, hlen with
    | d :: ds, _ => exact ⟨_, rfl⟩

theorem sets_done {E : Env} (dep : Bool) {sets sets' : List PSet} {l : List Fn}
    (h : declareSets E sets = .ok (l, sets')) :
    ∃ d t, defineSets E dep sets' = .ok (d, t) ∧ SetsDone E dep sets l d t := by
  induction sets generalizing l sets' with
  | nil =>
    cases h
    exact ⟨[], [], rfl, by simp, by simp, by simp, by simp, by simp, by simp⟩
  | cons s rest ih =>
    unfold declareSets at h
    cases h1 : declareSet E s with
    | error e => rw [h1] at h; cases h
    | ok r1 =>
      obtain ⟨l1, s1⟩ := r1
      rw [h1] at h
      simp only at h
      cases h2 : declareSets E rest with
      | error e => rw [h2] at h; cases h
      | ok r2 =>
        obtain ⟨l2, s2⟩ := r2
        rw [h2] at h
        simp only [Except.ok.injEq, Prod.mk.injEq] at h
        obtain ⟨rfl, rfl⟩ := h
        obtain ⟨d2, t2, hd2, D2⟩ := ih h2
        rcases declareSet_spec h1 with ⟨rfl, hskip, hname, hgen⟩ | ⟨k, out, hk, hgen, hs', hl⟩
        · have hdef : defineSet E dep s1 = .ok ([], []) := by
            have : guardSet E s1 (s1.generate E) = .error .skipWrapper := by
              rw [hgen]; unfold guardSet at hskip ⊢; rw [hname]; exact hskip
            unfold defineSet; rw [this]
          refine ⟨d2, t2, ?_, ?_⟩
          · unfold defineSets; simp only [hdef, hd2, List.nil_append]
          · refine ⟨by simpa using D2.perm, D2.copies, D2.table, ?_, ?_, ?_⟩
            · exact D2.names.trans (by simp)
            · intro f hf
              obtain ⟨h1, h2⟩ := D2.sound f (by simpa using hf)
              refine ⟨h1, fun hi => ?_⟩
              obtain ⟨s', hs', m, hm⟩ := h2 hi
              exact ⟨s', by simp [hs'], m, hm⟩
            · intro s' hs' hne hw
              rcases List.mem_cons.1 hs' with rfl | hs'
              · obtain ⟨out, ho⟩ := generate_works (E := E) hne hw
                rw [ho] at hskip
                unfold guardSet at hskip
                rw [call_ok] at hskip; cases hskip
              · simpa using D2.complete s' hs' hne hw
        · obtain ⟨d1, main, hdef, hperm, hcop, hmain⟩ := defineSet_spec dep hk hgen s1 hs'
          refine ⟨d1 ++ d2, (pyName dep s.name, main) :: t2, ?_, ?_⟩
          · unfold defineSets; simp only [hdef, hd2]; rfl
          · subst hl
            constructor
            · rw [List.map_append, List.filter_append]
              refine List.Perm.append ?_ D2.perm
              rw [List.filter_append, inline_not_outside, List.append_nil, filter_all (fun f hf => by
                rw [outside, setFns_wrapper _ _ _ _ f hf]; rfl)]
              exact hperm
            · intro x hx
              rcases List.mem_append.1 hx with hx | hx
              · exact hcop x hx
              · exact D2.copies x hx
            · intro e he
              rcases List.mem_cons.1 he with rfl | he
              · exact ⟨by rw [List.map_append]; exact List.mem_append_left _ hmain,
                  setFns_wrapper _ _ _ _ _ (hperm.mem_iff.1 hmain)⟩
              · exact ⟨by rw [List.map_append]; exact List.mem_append_right _ (D2.table e he).1, (D2.table e he).2⟩
            · simpa using D2.names
            · intro f hf
              rcases List.mem_append.1 hf with hf | hf
              · rcases List.mem_append.1 hf with hf | hf
                · have := setFns_wrapper _ _ _ _ f hf
                  rw [this]; exact ⟨nofun, nofun⟩
                · obtain ⟨m, hm, rfl⟩ := List.mem_map.1 hf
                  refine ⟨nofun, fun _ => ⟨s, by simp, m, ?_, hk.works m hm, rfl⟩⟩
                  rw [hk.eq] at hm; exact (List.mem_filter.1 hm).1
              · obtain ⟨h1, h2⟩ := D2.sound f hf
                refine ⟨h1, fun hi => ?_⟩
                obtain ⟨s', hs', m, hm⟩ := h2 hi
                exact ⟨s', by simp [hs'], m, hm⟩
            · intro s' hs' hne hw
              rcases List.mem_cons.1 hs' with rfl | hs'
              · have : k = s'.wrappers := by rw [hk.eq]; exact filter_all hw
                refine ⟨fun m hm => ?_, by simp⟩
                apply List.mem_append_left
                apply List.mem_append_right
                rw [this]; exact List.mem_map_of_mem hm
              · obtain ⟨h1, h2⟩ := D2.complete s' hs' hne hw
                exact ⟨fun m hm => List.mem_append_right _ (h1 m hm), by simp only [List.map_cons, List.mem_cons]; exact .inr h2⟩

def proxyWorks (m : VMeth) : Bool := m.proxyFails.isNone

theorem virt_outside (l : List VMeth) : (l.map virtFn).filter outside = l.map virtFn :=
  filter_all (by intro x hx; obtain ⟨m, _, rfl⟩ := List.mem_map.1 hx; rfl)

theorem proxies_done {E : Env} {ms : List VMeth} {r : Option (List Fn)} {ps : List Proxy}
    (h : declareProxies E (ms.map fun m => ⟨m, false⟩) = .ok (r, ps)) :
    (r = none ↔ ∃ m ∈ ms, m.isPure = true ∧ proxyWorks m = false) ∧
    (∀ l, r = some l → l = (ms.filter proxyWorks).map virtFn ∧
      defineProxies E ps = .ok ((ms.filter proxyWorks).map fun m => ⟨virtFn m, 1⟩)) := by
  induction ms generalizing r ps with
  | nil => cases h; exact ⟨by simp, by intro l hl; cases hl; exact ⟨rfl, rfl⟩⟩
  | cons m ms ih =>
    rw [List.map_cons] at h
    unfold declareProxies at h
    simp only at h
    have hgen : (Proxy.mk m false).generate = outcome m.proxyFails := rfl
    rw [hgen] at h
    cases hf : m.proxyFails with
    | none =>
      have hw : proxyWorks m = true := by simp [proxyWorks, hf]
      have hg : guardProxy E ⟨m, false⟩ (outcome m.proxyFails) = .ok () := by rw [hf]; exact call_ok _ _ _
      rw [hg] at h
      simp only at h
      cases h2 : declareProxies E (ms.map fun m => ⟨m, false⟩) with
      | error e => rw [h2] at h; cases h
      | ok q =>
        obtain ⟨r2, p2⟩ := q
        rw [h2] at h
        simp only [Except.ok.injEq, Prod.mk.injEq] at h
        obtain ⟨rfl, rfl⟩ := h
        obtain ⟨h3, h4⟩ := ih h2
        constructor
        · constructor
          · intro hn
            obtain ⟨x, hx, hp⟩ := h3.1 (by cases r2 with | none => rfl | some l => cases hn)
            exact ⟨x, by simp [hx], hp⟩
          · rintro ⟨x, hx, hp⟩
            rcases List.mem_cons.1 hx with rfl | hx
            · rw [hw] at hp; cases hp.2
            · rw [h3.2 ⟨x, hx, hp⟩]; rfl
        · intro l hl
          cases r2 with
          | none => cases hl
          | some l2 =>
            cases hl
            obtain ⟨h5, h6⟩ := h4 l2 rfl
            simp only [List.filter_cons_of_pos hw, List.map_cons]
            refine ⟨by rw [h5], ?_⟩
            unfold defineProxies
            rw [hgen, hg]
            simp only [h6]
    | some e =>
      have hw : proxyWorks m = false := by simp [proxyWorks, hf]
      cases hg : guardProxy E ⟨m, false⟩ (outcome m.proxyFails) with
      | ok u => rw [hf] at hg; exact absurd (call_inv hg) nofun
      | error x =>
        rw [hg] at h
        have hx : x = .skipWrapper := by
          cases x <;> first | rfl | (cases h)
        subst hx
        simp only at h
        by_cases hp : m.isPure = true
        · rw [if_pos hp] at h
          cases h
          exact ⟨⟨fun _ => ⟨m, by simp, hp, hw⟩, fun _ => rfl⟩, nofun⟩
        · rw [if_neg hp] at h
          cases h2 : declareProxies E (ms.map fun m => ⟨m, false⟩) with
          | error e => rw [h2] at h; cases h
          | ok q =>
            obtain ⟨r2, p2⟩ := q
            rw [h2] at h
            simp only [Except.ok.injEq, Prod.mk.injEq] at h
            obtain ⟨rfl, rfl⟩ := h
            obtain ⟨h3, h4⟩ := ih h2
            constructor
            · rw [h3]
              constructor
              · rintro ⟨x, hx, hp⟩; exact ⟨x, by simp [hx], hp⟩
              · rintro ⟨x, hx, hpx⟩
                rcases List.mem_cons.1 hx with rfl | hx
                · exact absurd hpx.1 hp
                · exact ⟨x, hx, hpx⟩
            · intro l hl
              obtain ⟨h5, h6⟩ := h4 l hl
              rw [List.filter_cons_of_neg (by simp [hw])]
              refine ⟨h5, ?_⟩
              unfold defineProxies
              rw [hgen, hg]
              simp only [hp, if_false, Bool.false_eq_true]
              exact h6

/-! ## C106 -/

section
variable {E : Env} {dep : Bool} {ms : List VMeth} {decls : List Fn} {H' : Helper}

/-- Both parts at once. -/
theorem done (h : declare E (build dep ms) = .ok (some decls, H')) :
    ∃ l d t, decls = l ++ ((overridden [] ms).filter proxyWorks).map virtFn ∧
      SetsDone E dep (build dep ms).sets l d t ∧
      (∀ m ∈ overridden [] ms, m.isPure = true → proxyWorks m = true) ∧
      define E dep H' = .ok (d ++ ((overridden [] ms).filter proxyWorks).map (fun m => ⟨virtFn m, 1⟩), t) := by
  unfold declare at h
  cases h1 : declareSets E (build dep ms).sets with
  | error e => rw [h1] at h; cases h
  | ok q =>
    obtain ⟨l, sets⟩ := q
    rw [h1, (built dep ms).proxies, build_methods] at h
    simp only at h
    cases h2 : declareProxies E ((overridden [] ms).map fun m => ⟨m, false⟩) with
    | error e => rw [h2] at h; cases h
    | ok q =>
      obtain ⟨r, ps⟩ := q
      rw [h2] at h
      cases r with
      | none => cases h
      | some l2 =>
        simp only [Except.ok.injEq, Prod.mk.injEq, Option.some.injEq] at h
        obtain ⟨rfl, rfl⟩ := h
        obtain ⟨h3, h4⟩ := proxies_done h2
        obtain ⟨h5, h6⟩ := h4 l2 rfl
        obtain ⟨d, t, h7, h8⟩ := sets_done dep h1
        refine ⟨l, d, t, by rw [h5], h8, ?_, ?_⟩
        · intro m hm hp
          by_contra hc
          exact absurd (h3.2 ⟨m, hm, hp, Bool.eq_false_iff.2 hc⟩) nofun
        · unfold define
          simp only [h7, h6]

/-- C106: declarations and definitions agree.  If the helper class is written, writing its member
functions succeeds too, and what is defined outside the class is exactly what the class declares
and does not define itself, each function once, with its body once; the method table names functions
that are defined. -/
theorem C106_defined (h : declare E (build dep ms) = .ok (some decls, H')) :
    ∃ defs table, define E dep H' = .ok (defs, table) ∧
      (defs.map (·.fn)).Perm (decls.filter fun f => f.kind ≠ .inl) ∧
      (∀ d ∈ defs, d.copies = 1) ∧
      (∀ e ∈ table, e.2 ∈ defs.map (·.fn) ∧ e.2.kind = .wrapper) := by
  obtain ⟨l, d, t, rfl, D, _, hd⟩ := done h
  refine ⟨_, _, hd, ?_, ?_, ?_⟩
  · rw [List.map_append, List.map_map, List.filter_append]
    refine List.Perm.append D.perm ?_
    have := virt_outside ((overridden [] ms).filter proxyWorks)
    unfold outside at this
    rw [this]
    exact List.Perm.refl _
  · intro x hx
    rcases List.mem_append.1 hx with hx | hx
    · exact D.copies x hx
    · obtain ⟨m, _, rfl⟩ := List.mem_map.1 hx; rfl
  · intro e he
    exact ⟨by rw [List.map_append]; exact List.mem_append_left _ (D.table e he).1, (D.table e he).2⟩

/-- C106: the overrides.  The helper class declares, in the order they were added, an override for each
method it should override and that can be generated, with the same result, parameters, constness and
exceptions; every pure virtual method is one of them. -/
theorem C106_overrides (h : declare E (build dep ms) = .ok (some decls, H')) :
    decls.filter (fun f => f.kind = .virt) = ((overridden [] ms).filter fun m => m.proxyFails.isNone).map overriding ∧
    ∀ m ∈ overridden [] ms, m.isPure = true → overriding m ∈ decls := by
  obtain ⟨l, d, t, rfl, D, hp, _⟩ := done h
  constructor
  · rw [List.filter_append, filter_none (fun f hf => by simp [(D.sound f hf).1]), List.nil_append, filter_all]
    · rfl
    · intro x hx; obtain ⟨m, _, rfl⟩ := List.mem_map.1 hx; rfl
  · intro m hm hpu
    exact List.mem_append_right _ (List.mem_map_of_mem (List.mem_filter.2 ⟨hm, hp m hm hpu⟩))

/-- C106: no helper class is written, and the class is marked, exactly when the override of a pure virtual
method cannot be generated. -/
theorem C106_abandoned {r : Option (List Fn)} (h : declare E (build dep ms) = .ok (r, H')) :
    (r = none ↔ ∃ m ∈ overridden [] ms, m.isPure = true ∧ m.proxyFails.isSome = true) ∧
    (r = none → H'.cannot = true) := by
  unfold declare at h
  cases h1 : declareSets E (build dep ms).sets with
  | error e => rw [h1] at h; cases h
  | ok q =>
    obtain ⟨l, sets⟩ := q
    rw [h1, (built dep ms).proxies, build_methods] at h
    simp only at h
    cases h2 : declareProxies E ((overridden [] ms).map fun m => ⟨m, false⟩) with
    | error e => rw [h2] at h; cases h
    | ok q =>
      obtain ⟨r2, ps⟩ := q
      rw [h2] at h
      have h3 := (proxies_done h2).1
      have hw : ∀ m : VMeth, proxyWorks m = false ↔ m.proxyFails.isSome = true := by
        intro m; unfold proxyWorks; cases m.proxyFails <;> simp
      simp only [hw] at h3
      cases r2 with
      | none =>
        simp only [Except.ok.injEq, Prod.mk.injEq] at h
        obtain ⟨rfl, rfl⟩ := h
        exact ⟨h3, fun _ => rfl⟩
      | some l2 =>
        simp only [Except.ok.injEq, Prod.mk.injEq] at h
        obtain ⟨rfl, rfl⟩ := h
        refine ⟨⟨nofun, fun hx => absurd (h3.2 hx) nofun⟩, nofun⟩

/-- C106: the functions by which Python subclasses reach the inherited implementation.  Each function
defined in the class calls the method of the same name of the class that declares it, with the
parameters in order, and returns the result; and each protected method (with `deprecated_virtuals` also
each public one) that is not pure has such a function and an entry in the method table, if the wrappers
for all methods of that name can be generated. -/
theorem C106_callers (h : declare E (build dep ms) = .ok (some decls, H')) :
    ∃ defs table, define E dep H' = .ok (defs, table) ∧
    (∀ f ∈ decls, f.kind = .inl → ∃ m ∈ overridden [] ms, Inherited dep m ∧
      f = { kind := .inl, ret := m.ret, name := m.name ++ "__parent_caller".toList, types := m.params.map (·.1),
            names := m.params.map (·.2),
            body := some (m.owner, m.name, m.params.map (·.2), decide (m.ret ≠ "void".toList)) }) ∧
    (∀ m ∈ overridden [] ms, Inherited dep m →
      (∀ m' ∈ overridden [] ms, m'.name = m.name → Inherited dep m' → m'.callerFails = none) →
      (∃ f ∈ decls, f.kind = .inl ∧ f.name = m.name ++ "__parent_caller".toList ∧ f.types = m.params.map (·.1)) ∧
      pyName dep m.name ∈ table.map (·.1)) ∧
    (table.map (·.1)).Nodup := by
  simp only [← hasCaller_iff]
  obtain ⟨l, d, t, rfl, D, hp, hd⟩ := done h
  have B := built dep ms
  have hme := build_methods dep ms
  refine ⟨_, _, hd, ?_, ?_, ?_⟩
  · intro f hf hk
    rcases List.mem_append.1 hf with hf | hf
    · obtain ⟨s, hs, m, hm, _, rfl⟩ := (D.sound f hf).2 hk
      have := B.wrappers s hs m hm
      rw [hme] at this
      exact ⟨m, this.1, this.2.2, rfl⟩
    · obtain ⟨m, _, rfl⟩ := List.mem_map.1 hf; cases hk
  · intro m hm hc hall
    obtain ⟨s, hs, hn, m', hm', ht⟩ := B.reached m (by rw [hme]; exact hm) hc
    have hw : ∀ x ∈ s.wrappers, works x = true := by
      intro x hx
      have := B.wrappers s hs x hx
      rw [hme] at this
      unfold works
      rw [hall x this.1 (this.2.1.trans hn) this.2.2]; rfl
    have hne : s.wrappers ≠ [] := by intro h0; rw [h0] at hm'; cases hm'
    obtain ⟨h1, h2⟩ := D.complete s hs hne hw
    refine ⟨⟨inlineFn m', List.mem_append_left _ (h1 m' hm'), rfl, ?_, ht⟩, hn ▸ h2⟩
    have := (B.wrappers s hs m' hm').2.1
    show m'.name ++ _ = _
    rw [this, hn]
  · refine D.names.nodup ?_
    have : (build dep ms).sets.map (fun s => pyName dep s.name) =
        ((build dep ms).sets.map (·.name)).map (pyName dep) := by rw [List.map_map]; rfl
    rw [this]
    refine B.nodup.map ?_
    intro a b hab
    unfold pyName at hab
    split at hab
    · exact (List.cons.inj hab).2
    · exact hab

end

end Verif.HelperCode
