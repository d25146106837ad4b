import Verif.DeclScope.Model
import Mathlib.Data.List.Induction

/-!
# C09, C10, C11: variable names and declarations
-/
namespace Verif.DeclScope
open Verif

/-! ## C11 -/

theorem joinScan_spec (name : Str) (rev stars : Str) :
    (rev.all (· == '*') = true ∧ joinScan name rev stars = .error .valueError) ∨
    ∃ (body : Str) (c : Char) (st : Str), rev.reverse = body ++ [c] ++ st ∧ c ≠ '*' ∧
      (∀ x ∈ st, x = '*') ∧
      joinScan name rev stars =
        .ok (body ++ [c] ++ (if c = ' ' then [] else [' ']) ++ st ++ stars ++ name) := by
  induction rev generalizing stars with
  | nil => exact .inl ⟨rfl, rfl⟩
  | cons c cs ih =>
    unfold joinScan
    by_cases hc : c = '*'
    · subst hc
      simp only [ne_eq, not_true_eq_false, if_false]
      rcases ih ('*' :: stars) with ⟨h1, h2⟩ | ⟨body, d, st, h1, h2, h3, h4⟩
      · exact .inl ⟨by simpa using h1, h2⟩
      · refine .inr ⟨body, d, st ++ ['*'], by simp [h1], h2, ?_, by simp [h4]⟩
        intro x hx
        rcases List.mem_append.1 hx with hx | hx
        · exact h3 x hx
        · simpa using hx
    · refine .inr ⟨cs.reverse, c, [], by simp, hc, by simp, ?_⟩
      by_cases hs : c = ' '
      · simp [hs]
      · simp [hc, hs]

/-- C11: the three outcomes of `join_ctype_and_name`.  An empty type raises `IndexError`, a type
made of stars only `ValueError`, and any other type `body ++ stars` (with `body` not ending in a
star) gives the type followed by the name, with one blank inserted before the stars unless there
are stars and the body already ends in a blank. -/
theorem C11_join (ctype name : Str) :
    (ctype = [] → joinCtypeAndName ctype name = .error .indexError) ∧
    (ctype ≠ [] → (∀ c ∈ ctype, c = '*') → joinCtypeAndName ctype name = .error .valueError) ∧
    (∀ (body stars : Str) (c : Char), ctype = body ++ [c] ++ stars → c ≠ '*' →
      (∀ x ∈ stars, x = '*') →
      joinCtypeAndName ctype name =
        .ok (body ++ [c] ++ (if c = ' ' ∧ stars ≠ [] then [] else [' ']) ++ stars ++ name)) := by
  have hsplit : ∀ (a b : Str) (x y : Char) (s t : Str), a ++ [x] ++ s = b ++ [y] ++ t →
      x ≠ '*' → y ≠ '*' → (∀ z ∈ s, z = '*') → (∀ z ∈ t, z = '*') → a = b ∧ x = y ∧ s = t := by
    intro a b x y s t h hx hy hs ht
    have hrev := congrArg List.reverse h
    simp only [List.reverse_append, List.reverse_cons, List.reverse_nil, List.nil_append] at hrev
    have key : ∀ (s' t' : Str) (a' b' : Str), (∀ z ∈ s', z = '*') → (∀ z ∈ t', z = '*') →
        s' ++ x :: a' = t' ++ y :: b' → s' = t' ∧ x = y ∧ a' = b' := by
      intro s'
      induction s' with
      | nil =>
        intro t' a' b' _ ht' h
        cases t' with
        | nil => simpa using h
        | cons z zs =>
          simp only [List.nil_append, List.cons_append, List.cons.injEq] at h
          exact absurd (h.1.trans (ht' z (by simp))) hx
      | cons w ws ih =>
        intro t' a' b' hs' ht' h
        cases t' with
        | nil =>
          simp only [List.nil_append, List.cons_append, List.cons.injEq] at h
          exact absurd (h.1.symm.trans (hs' w (by simp))) hy
        | cons z zs =>
          simp only [List.cons_append, List.cons.injEq] at h
          obtain ⟨h1, h2, h3⟩ := ih zs a' b' (fun u hu => hs' u (List.mem_cons_of_mem _ hu))
            (fun u hu => ht' u (List.mem_cons_of_mem _ hu)) h.2
          exact ⟨by rw [h.1, h1], h2, h3⟩
    obtain ⟨h1, h2, h3⟩ := key s.reverse t.reverse a.reverse b.reverse
      (fun z hz => hs z (by simpa using hz)) (fun z hz => ht z (by simpa using hz)) (by simpa using hrev)
    exact ⟨by simpa using h3, h2, by simpa using h1⟩
  refine ⟨?_, ?_, ?_⟩
  · rintro rfl; rfl
  · intro hne hall
    have hr : ∃ cs, ctype.reverse = '*' :: cs := by
      cases hrv : ctype.reverse with
      | nil => simp at hrv; exact absurd hrv hne
      | cons c cs => exact ⟨cs, by rw [hall c (by rw [← List.mem_reverse, hrv]; simp)]⟩
    obtain ⟨cs, hcs⟩ := hr
    unfold joinCtypeAndName
    simp only [hcs]
    rw [← hcs]
    rcases joinScan_spec name ctype.reverse [] with ⟨_, h2⟩ | ⟨body, d, st, h1, h2, _⟩
    · exact h2
    · exfalso
      rw [List.reverse_reverse] at h1
      exact h2 (hall d (by rw [h1]; simp))
  · intro body stars c hct hc hst
    cases stars with
    | nil =>
      have hr : ctype.reverse = c :: body.reverse := by simp [hct]
      unfold joinCtypeAndName
      rw [hr]
      split
      · next h => cases h
      · next h => simp only [List.cons.injEq] at h; exact absurd h.1 hc
      · simp [hct]
    | cons z zs =>
      have hr : ∃ cs, ctype.reverse = '*' :: cs := by
        have hne : (z :: zs).reverse ≠ [] := by simp
        obtain ⟨w, ws, hw⟩ := List.exists_cons_of_ne_nil hne
        have : w = '*' := hst w (by rw [← List.mem_reverse, hw]; simp)
        exact ⟨ws ++ (body ++ [c]).reverse, by rw [hct, List.reverse_append, hw, this]; simp⟩
      obtain ⟨cs, hcs⟩ := hr
      unfold joinCtypeAndName
      simp only [hcs]
      rw [← hcs]
      rcases joinScan_spec name ctype.reverse [] with ⟨h1, _⟩ | ⟨b2, d, st, h1, h2, h3, h4⟩
      · exfalso
        rw [List.all_eq_true] at h1
        have := h1 c (by rw [hct]; simp)
        exact hc (by simpa using this)
      · rw [List.reverse_reverse, hct] at h1
        obtain ⟨e1, e2, e3⟩ := hsplit _ _ _ _ _ _ h1 hc h2 hst h3
        subst e1 e2 e3
        rw [h4]
        by_cases hsp : c = ' ' <;> simp [hsp]

/-- The text without blanks. -/
def noBlanks (s : Str) : Str := s.filter (· ≠ ' ')

/-- C11 (nothing lost): whenever it succeeds, the result without blanks is the type without
blanks followed by the name without blanks, and it ends with the name. -/
theorem C11_join_keeps_both {ctype name s : Str} (h : joinCtypeAndName ctype name = .ok s) :
    noBlanks s = noBlanks ctype ++ noBlanks name ∧ name <:+ s := by
  obtain ⟨h1, h2, h3⟩ := C11_join ctype name
  by_cases he : ctype = []
  · rw [h1 he] at h; cases h
  · by_cases hs : ∀ c ∈ ctype, c = '*'
    · rw [h2 he hs] at h; cases h
    · rcases joinScan_spec name ctype.reverse [] with ⟨h5, _⟩ | ⟨body, c, st, h5, h6, h7, _⟩
      · exfalso; apply hs; intro c hc
        rw [List.all_eq_true] at h5
        simpa using h5 c (by simpa using hc)
      · rw [List.reverse_reverse] at h5
        rw [h3 body st c h5 h6 h7] at h
        cases h
        subst h5
        refine ⟨?_, List.suffix_append _ _⟩
        unfold noBlanks
        split <;> simp only [List.filter_append] <;> simp

example : joinCtypeAndName "void**".toList "foo".toList = .ok "void **foo".toList ∧
    joinCtypeAndName "void *".toList "foo".toList = .ok "void *foo".toList ∧
    joinCtypeAndName "int".toList "foo".toList = .ok "int foo".toList := by decide

/-! ## C10 -/

/-- How often a base name was asked for. -/
def uses (rs : List Req) (name : Str) : Nat := rs.countP (fun r => r.base == name)

theorem counts_step (f : Family) (r : Req) (n : Str) :
    (f.step r).1.counts n = f.counts n + (if r.base = n then 1 else 0) := by
  cases r with
  | reserve name =>
    simp only [Family.step, Family.reserve, Family.pick, Req.base]
    by_cases h : n = name
    · simp [h]
    · simp [h, Ne.symm h]
  | declare i t name x a =>
    simp only [Family.step, Family.declare, Family.pick, Req.base]
    have e : name = n ↔ n = name := eq_comm
    split <;> by_cases h : n = name <;> simp [h, e]

theorem counts_after (f : Family) (rs : List Req) (n : Str) :
    (f.after rs).counts n = f.counts n + uses rs n := by
  induction rs generalizing f with
  | nil => rfl
  | cons r rs ih =>
    simp only [Family.after, ih, counts_step, uses, List.countP_cons]
    by_cases h : r.base = n <;> simp [h]; omega

/-- The name due for the `k`-th use of a base name. -/
def nthName (base : Str) (k : Nat) : Str := if k = 1 then base else base ++ natStr k

/-- C10: after any requests `rs` on a new family of scopes, `declare_variable(type, base, init,
array)` on scope `i` with a type that can be joined returns the base name if this is its first use
(by any scope of the family), otherwise the base name followed by the number of uses; it appends
to scope `i` exactly the declaration `<type joined with that name><array> = <init>;` (the optional
parts only if given) and leaves the declarations of all other scopes alone. -/
theorem C10_declare (rs : List Req) (i : Nat) (type base decl : Str) (init arr : Option Str)
    (hj : joinCtypeAndName type (nthName base (uses rs base + 1)) = .ok decl) :
    let f := Family.after {} rs
    let r := f.declare i type base init arr
    r.2 = .ok (nthName base (uses rs base + 1)) ∧
    r.1.sinks i = (f.sinks i).writeln (decl ++ arr.getD [] ++
      (match init with | some x => " = ".toList ++ x | none => []) ++ [';']) ∧
    ∀ j, j ≠ i → r.1.sinks j = f.sinks j := by
  intro f r
  have hc : f.counts base = uses rs base := by
    simpa using counts_after {} rs base
  have hv : (f.pick base).2 = nthName base (uses rs base + 1) := by
    simp [Family.pick, nthName, hc]
  have hr : r = f.declare i type base init arr := rfl
  simp only [Family.declare, hv, hj] at hr
  rw [hr]
  refine ⟨rfl, ?_, ?_⟩
  · cases arr <;> cases init <;> simp [Family.pick]
  · intro j hj'; simp [hj', Family.pick]

/-- C10 (failure): `declare_variable` raises exactly for a type that is empty or made of stars only,
and then emits no declaration in any scope. -/
theorem C10_declare_fails (f : Family) (i : Nat) (type base : Str) (init arr : Option Str) :
    ((∃ e, (f.declare i type base init arr).2 = .error e) ↔ ∀ c ∈ type, c = '*') ∧
    ((∃ e, (f.declare i type base init arr).2 = .error e) →
      (f.declare i type base init arr).1.sinks = f.sinks) := by
  unfold Family.declare
  simp only
  generalize hp : f.pick base = p
  obtain ⟨f1, v⟩ := p
  have hs : f1.sinks = f.sinks := by
    unfold Family.pick at hp; simp only [Prod.mk.injEq] at hp; rw [← hp.1]
  obtain ⟨h1, h2, h3⟩ := C11_join type v
  have hiff : (∃ e, joinCtypeAndName type v = .error e) ↔ ∀ c ∈ type, c = '*' := by
    constructor
    · rintro ⟨e, he⟩
      rcases joinScan_spec v type.reverse [] with ⟨h5, _⟩ | ⟨body, c, st, h5, h6, h7, _⟩
      · intro c hc
        rw [List.all_eq_true] at h5
        simpa using h5 c (by simpa using hc)
      · rw [List.reverse_reverse] at h5
        rw [h3 body st c h5 h6 h7] at he
        cases he
    · intro h
      by_cases he : type = []
      · exact ⟨_, h1 he⟩
      · exact ⟨_, h2 he h⟩
  cases hj : joinCtypeAndName type v with
  | error e =>
    rw [hj] at hiff
    refine ⟨⟨fun _ => hiff.1 ⟨e, rfl⟩, fun _ => ⟨e, rfl⟩⟩, fun _ => hs⟩
  | ok d =>
    rw [hj] at hiff
    refine ⟨⟨fun ⟨e, h⟩ => (by cases h), fun h => ?_⟩, fun ⟨e, h⟩ => (by cases h)⟩
    obtain ⟨e, h⟩ := hiff.2 h
    cases h

example : (Family.declare {} 0 "**".toList "x".toList none none).2 = .error .valueError := by decide

/-- C10 (reserve): `reserve_variable` chooses names by the same rule and emits nothing. -/
theorem C10_reserve (rs : List Req) (base : Str) :
    ((Family.after {} rs).reserve base).2 = nthName base (uses rs base + 1) ∧
    ((Family.after {} rs).reserve base).1.sinks = (Family.after {} rs).sinks := by
  have hc : (Family.after {} rs).counts base = uses rs base := by
    simpa using counts_after {} rs base
  simp [Family.reserve, Family.pick, nthName, hc]

/-- C10: `clear` on scope `i` drops its declarations and no others, and all names of the family are
free again: any further requests are answered as by a new family. -/
theorem C10_clear (f : Family) (i : Nat) (rs : List Req) :
    (f.clear i).sinks i = {} ∧ (∀ j, j ≠ i → (f.clear i).sinks j = f.sinks j) ∧
    (f.clear i).answers rs = Family.answers {} rs := by
  refine ⟨by simp [Family.clear], fun j hj => by simp [Family.clear, hj], ?_⟩
  have key : ∀ (rs : List Req) (f g : Family), f.counts = g.counts → f.answers rs = g.answers rs := by
    intro rs
    induction rs with
    | nil => intros; rfl
    | cons r rs ih =>
      intro f g h
      have hs : (f.step r).2 = (g.step r).2 ∧ (f.step r).1.counts = (g.step r).1.counts := by
        refine ⟨?_, funext fun n => by rw [counts_step, counts_step, h]⟩
        cases r with
        | reserve name => simp only [Family.step, Family.reserve, Family.pick, h]
        | declare j t n x a =>
          simp only [Family.step, Family.declare, Family.pick, h]
          cases joinCtypeAndName t (if g.counts n + 1 = 1 then n else n ++ natStr (g.counts n + 1)) <;> rfl
      simp only [Family.answers]
      rw [hs.1, ih _ _ hs.2]
  exact key rs _ _ rfl

example : (Family.answers {} [.declare 0 "int".toList "foo".toList none none,
      .declare 1 "char*".toList "foo".toList none none, .reserve "bar".toList,
      .declare 0 "int".toList "foo".toList (some ['1']) none]) =
    [.ok "foo".toList, .ok "foo2".toList, .ok "bar".toList, .ok "foo3".toList] := by decide

/-! ## C09 -/

/-- C09 (finding): the claim is false in general.  Asking for `foo`, `foo` and `foo2` hands out
`foo2` twice, so the generated C declares the same variable twice. -/
theorem C09_clash_counterexample :
    names (Family.answers {} [.declare 0 "int".toList "foo".toList none none,
      .declare 0 "int".toList "foo".toList none none,
      .declare 0 "int".toList "foo2".toList none none]) =
    ["foo".toList, "foo2".toList, "foo2".toList] := by decide

theorem answers_append (f : Family) (a b : List Req) :
    f.answers (a ++ b) = f.answers a ++ (f.after a).answers b := by
  induction a generalizing f with
  | nil => rfl
  | cons r rs ih => simp [Family.answers, Family.after, ih]

theorem step_name {f : Family} {r : Req} {s : Str} (h : (f.step r).2 = .ok s) :
    s = nthName r.base (f.counts r.base + 1) := by
  cases r with
  | reserve n =>
    simp only [Family.step, Family.reserve, Family.pick, Except.ok.injEq] at h
    rw [← h]; rfl
  | declare i t n x a =>
    simp only [Family.step, Family.declare] at h
    split at h
    · cases h
    · cases h; rfl

theorem mem_names_answers {rs : List Req} {s : Str} (h : s ∈ names (Family.answers {} rs)) :
    ∃ r ∈ rs, ∃ k, 1 ≤ k ∧ k ≤ uses rs r.base ∧ s = nthName r.base k := by
  induction rs using List.reverseRecOn with
  | nil => simp [Family.answers, names] at h
  | append_singleton rs r ih =>
    unfold names at h
    rw [answers_append, List.filterMap_append, List.mem_append] at h
    have hu : ∀ b, uses (rs ++ [r]) b = uses rs b + if r.base = b then 1 else 0 := by
      intro b; simp [uses, List.countP_append, List.countP_cons]
    rcases h with h | h
    · obtain ⟨r', hr', k, h1, h2, h3⟩ := ih h
      refine ⟨r', by simp [hr'], k, h1, ?_, h3⟩
      have := hu r'.base
      omega
    · simp only [Family.answers, List.mem_filterMap, List.mem_singleton, exists_eq_left] at h
      refine ⟨r, by simp, uses rs r.base + 1, by omega, by rw [hu]; simp, ?_⟩
      split at h
      · next s' hs' =>
        cases h
        have := step_name hs'
        rw [counts_after] at this
        simpa using this
      · cases h

/-- C09 (partial): if no requested base name is another requested base name followed by decimal
digits only, then all names handed out are pairwise distinct — over any number of requests and
scopes.  (Missing from the full claim: base names that extend one another by digits, for which it
is false, see `C09_clash_counterexample`.) -/
theorem C09_names_distinct_partial (rs : List Req)
    (hb : ∀ r ∈ rs, ∀ r' ∈ rs, ∀ d : Str, d ≠ [] → (∀ c ∈ d, c.isDigit = true) →
      r.base ≠ r'.base ++ d) :
    (names (Family.answers {} rs)).Nodup := by
  -- equal names come from the same base and the same use count
  have inj : ∀ r ∈ rs, ∀ r' ∈ rs, ∀ k k', 1 ≤ k → 1 ≤ k' →
      nthName r.base k = nthName r'.base k' → r.base = r'.base ∧ k = k' := by
    intro r hr r' hr' k k' hk hk' he
    have form : ∀ (b : Str) (k : Nat), ∃ d : Str, nthName b k = b ++ d ∧
        (∀ c ∈ d, c.isDigit = true) := by
      intro b k
      unfold nthName
      split
      · exact ⟨[], by simp, by simp⟩
      · exact ⟨natStr k, rfl, fun c hc => isDigit_of_mem_natStr hc⟩
    obtain ⟨d, h1, h2⟩ := form r.base k
    obtain ⟨d', h1', h2'⟩ := form r'.base k'
    have happ : r.base ++ d = r'.base ++ d' := by rw [← h1, ← h1', he]
    have hbase : r.base = r'.base := by
      rcases List.append_eq_append_iff.1 happ with ⟨m, e1, e2⟩ | ⟨m, e1, e2⟩
      · cases m with
        | nil => simpa using e1.symm
        | cons x xs =>
          exact absurd e1 (hb r' hr' r hr (x :: xs) (by simp)
            (fun c hc => h2 c (by rw [e2]; exact List.mem_append_left _ hc)))
      · cases m with
        | nil => simpa using e1
        | cons x xs =>
          exact absurd e1 (hb r hr r' hr' (x :: xs) (by simp)
            (fun c hc => h2' c (by rw [e2]; exact List.mem_append_left _ hc)))
    refine ⟨hbase, ?_⟩
    rw [hbase] at he
    unfold nthName at he
    by_cases e1 : k = 1 <;> by_cases e2 : k' = 1
    · omega
    · simp only [e1, e2, if_true, if_false] at he
      have := congrArg List.length he
      have h0 := List.length_pos_iff.2 (natStr_ne_nil k')
      simp at this; exact absurd this (natStr_ne_nil k')
    · simp only [e1, e2, if_true, if_false] at he
      have := congrArg List.length he
      simp at this; exact absurd this (natStr_ne_nil k)
    · simp only [e1, e2, if_false] at he
      exact natStr_injective (List.append_cancel_left he)
  clear hb
  induction rs using List.reverseRecOn with
  | nil => simp [Family.answers, names]
  | append_singleton rs r ih =>
    unfold names
    rw [answers_append, List.filterMap_append, List.nodup_append]
    refine ⟨ih (fun r hr r' hr' => inj r (by simp [hr]) r' (by simp [hr'])), ?_, ?_⟩
    · simp only [Family.answers, List.filterMap_cons, List.filterMap_nil]
      split
      · exact List.nodup_nil
      · simp
    · intro a ha b hb hab
      subst hab
      obtain ⟨r', hr', k, h1, h2, h3⟩ := mem_names_answers (rs := rs) ha
      simp only [Family.answers, List.mem_filterMap, List.mem_singleton, exists_eq_left] at hb
      split at hb
      · next s' hs' =>
        cases hb
        have h4 := step_name hs'
        rw [counts_after] at h4
        simp only [Nat.zero_add] at h4
        obtain ⟨e1, e2⟩ := inj r' (by simp [hr']) r (by simp) k (uses rs r.base + 1) h1 (by omega)
          (h3.symm.trans h4)
        rw [e1] at h2
        omega
      · cases hb

/-- Non-vacuity: `foo`, `foo`, `bar` satisfy the hypothesis and give three names. -/
example : (∀ r ∈ [Req.reserve "foo".toList, .reserve "foo".toList, .reserve "bar".toList],
    ∀ r' ∈ [Req.reserve "foo".toList, .reserve "foo".toList, .reserve "bar".toList],
    ∀ d : Str, d ≠ [] → (∀ c ∈ d, c.isDigit = true) → r.base ≠ r'.base ++ d) := by
  intro r hr r' hr' d hd _ h
  have : r.base.length = 3 ∧ r'.base.length = 3 := by
    constructor
    · simp at hr; rcases hr with rfl | rfl <;> rfl
    · simp at hr'; rcases hr' with rfl | rfl <;> rfl
  have hl := congrArg List.length h
  simp [this] at hl
  exact hd hl

end Verif.DeclScope
