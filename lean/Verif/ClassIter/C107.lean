import Verif.ClassIter.Runs

/-!
# C107: iterating instances of classes with container traits
-/
namespace Verif.ClassIter
open Verif Verif.Wrap Verif.Params
open Verif.Flow (Op)
open _root_.Verif.Lifetime (upd upd_same upd_ne)

variable {Val Py : Type}

/-! ## Specification -/

/-- What Python gets for one value, by its handler. -/
def whole (S : Sem' Val Py) (d : RDesc) (x : Val) : List (Option Py) :=
  match S.early d.ops x with
  | some p => [some p]
  | none => d.gives S.sem x

/-- What iteration shows of an element: the value, or the key followed by the value. -/
def shown (t : Traits) (S : Sem' Val Py) (e : Elem Val) : List (Option Py) :=
  match t.key with
  | none => whole S (t.value "(*iter)".toList) e.val
  | some k => whole S (k "iter->first".toList) e.key ++ whole S (t.value "iter->second".toList) e.val

/-- What the `k`-th call of `next` gives (counted from 0), for an object with elements `l`. -/
def expected (t : Traits) (S : Sem' Val Py) (l : List (Elem Val)) (k : Nat) : Out Py :=
  match l[k]? with
  | some e => .value (shown t S e)
  | none => .stop

/-- For mappings: the key's handler puts its value in front, and no handler returns from the function by
itself. -/
def Fine (t : Traits) (S : Sem' Val Py) (l : List (Elem Val)) : Prop :=
  ∀ k, t.key = some k → (k "iter->first".toList).prepend = true ∧
    ∀ e ∈ l, S.early (k "iter->first".toList).ops e.key = none ∧ S.early (t.value "iter->second".toList).ops e.val = none

/-- The results of the calls `next(i)` in a history. -/
def nexts (i : Nat) : List (Ev Val × Out Py) → List (Out Py)
  | [] => []
  | (.next j, o) :: h => if j = i then o :: nexts i h else nexts i h
  | _ :: h => nexts i h

/-- The C++ object of wrapper `w` is the one at `a`, alive, and has not changed since its version was `v` and
its elements `l`. -/
def Still (w a v : Nat) (l : List (Elem Val)) (s : World Val) : Prop :=
  (s.base.ws w).obj = some a ∧ s.base.heap a ≠ none ∧ s.objs a = (v, l)

/-! ## Iteration -/

theorem convert_shown {t : Traits} {S : Sem' Val Py} {l : List (Elem Val)} (hf : Fine t S l) {e : Elem Val} (he : e ∈ l) :
    convert t S e = shown t S e := by
  unfold convert shown whole
  cases hk : t.key with
  | none =>
    simp only [Option.isSome_none, Bool.false_eq_true, if_false]
    cases S.early (t.value "(*iter)".toList).ops e.val <;> rfl
  | some k =>
    obtain ⟨h1, h2⟩ := hf k hk
    obtain ⟨h3, h4⟩ := h2 e he
    simp only [Option.isSome_some, if_true, h3, h4, h1]

/-- The iterator made by `iter(w)` in this state, `k` elements later. -/
structure At (s : World Val) (i w a v : Nat) (n : Nat) : Prop where
  lt : i < s.next
  con : (s.its i).live = true → (s.its i).container = some w
  pos : (s.its i).live = true → (s.its i).iter = some (a, v, n)

theorem at_next {c : Lifetime.Cls} {t : Traits} {S : Sem' Val Py} {s : World Val} {i w a v n : Nat} {l : List (Elem Val)}
    (hf : Fine t S l) (h : At s i w a v n) (hl : (s.its i).live = true) (hs : Still w a v l s) (hn : n ≤ l.length) :
    ∃ s', step c t S (loopOps t) s (.next i) = .ok (s', expected t S l n) ∧ At s' i w a v (min (n + 1) l.length) := by
  obtain ⟨h1, h2, h3⟩ := hs
  rw [step_next, h.pos hl]
  have ha : atEnd s (s.its i).container (a, v, n) = .ok (decide (n = l.length)) := by
    unfold atEnd
    rw [h.con hl]
    simp only [h1]
    cases hh : s.base.heap a with
    | none => exact absurd hh h2
    | some x => simp only [h3, and_self, if_true]
  simp only [ha]
  by_cases e : n = l.length
  · rw [e]
    simp only [decide_true]
    refine ⟨s, ?_, ?_⟩
    · unfold expected
      rw [List.getElem?_eq_none (Nat.le_refl _)]
    · rw [Nat.min_eq_right (by omega)]
      rw [e] at h
      exact h
  · simp only [e, decide_false]
    have hlt : n < l.length := by omega
    have hg : (s.objs a).2[n]? = some l[n] := by rw [h3]; exact List.getElem?_eq_getElem hlt
    simp only [hg]
    refine ⟨afterNext s i (a, v, n), ?_, ?_⟩
    · unfold expected
      rw [List.getElem?_eq_getElem hlt]
      simp only [convert_shown hf (List.getElem_mem hlt)]
    · rw [Nat.min_eq_left (by omega)]
      refine ⟨h.lt, ?_, ?_⟩
      · intro _
        show (upd s.its i _ i).container = _
        rw [upd_same]
        exact h.con hl
      · intro _
        show (upd s.its i _ i).iter = _
        rw [upd_same]

/-- Any other step leaves the iterator where it is. -/
theorem at_other {c : Lifetime.Cls} {t : Traits} {S : Sem' Val Py} {s s' : World Val} {i w a v n : Nat} {e : Ev Val}
    {o : Out Py} (h : At s i w a v n) (he : e ≠ .next i) (hs : step c t S (loopOps t) s e = .ok (s', o)) :
    At s' i w a v n ∧ ((s.its i).live = false → (s'.its i).live = false) := by
  have same : ∀ {u : World Val}, i < u.next → u.its i = s.its i →
      At u i w a v n ∧ ((s.its i).live = false → (u.its i).live = false) := by
    intro u hu hi
    exact ⟨⟨hu, by rw [hi]; exact h.con, by rw [hi]; exact h.pos⟩, by rw [hi]; exact id⟩
  cases e with
  | life e fill => cases hs; exact same h.lt rfl
  | change b l => cases hs; exact same h.lt rfl
  | iter u =>
    rw [step_iter] at hs
    split at hs
    · cases hs
    · split at hs
      · cases hs
      · cases hs
        exact same (Nat.lt_succ_of_lt h.lt) (upd_ne _ _ (Nat.ne_of_lt h.lt))
  | newIter => cases hs; exact same (Nat.lt_succ_of_lt h.lt) (upd_ne _ _ (Nat.ne_of_lt h.lt))
  | next j =>
    have hj : i ≠ j := fun e => he (by rw [e])
    rw [step_next] at hs
    split at hs
    · cases hs
    · split at hs
      · cases hs
      · cases hs; exact same h.lt rfl
      · split at hs
        · cases hs
        · cases hs; exact same h.lt (upd_ne _ _ hj)
  | drop j =>
    rw [step_drop] at hs
    cases hs
    by_cases hj : i = j
    · subst hj
      have : (afterDrop s i).its i = ⟨false, none, none⟩ := upd_same _ _ _
      refine ⟨⟨h.lt, ?_, ?_⟩, ?_⟩
      · rw [this]; intro hh; cases hh
      · rw [this]; intro hh; cases hh
      · rw [this]; exact fun _ => rfl
    · exact same h.lt (upd_ne _ _ hj)

theorem nexts_skip {i : Nat} {e : Ev Val} {o : Out Py} {h : List (Ev Val × Out Py)} (he : e ≠ .next i) :
    nexts i ((e, o) :: h) = nexts i h := by
  cases e with
  | next j =>
    have : j ≠ i := fun hh => he (by rw [hh])
    show (if j = i then _ else _) = _
    rw [if_neg this]
  | _ => rfl

/-- A dead iterator is not used again. -/
theorem nexts_dead {c : Lifetime.Cls} {t : Traits} {S : Sem' Val Py} {Q : World Val → Ev Val → Prop} {s s' : World Val}
    {i w a v n : Nat} {h : List (Ev Val × Out Py)} (hr : Run c t S (loopOps t) Q s h s') :
    At s i w a v n → (s.its i).live = false → nexts i h = [] := by
  induction hr with
  | nil => exact fun _ _ => rfl
  | @cons s1 s2 s3 e o h hok _ hs _ ih =>
    intro ha hd
    have he : e ≠ .next i := by
      intro he
      subst he
      have : (s1.its i).live = true := hok
      rw [hd] at this
      cases this
    obtain ⟨h1, h2⟩ := at_other ha he hs
    rw [nexts_skip he]
    exact ih h1 (h2 hd)

theorem expected_min (t : Traits) (S : Sem' Val Py) (l : List (Elem Val)) (n : Nat) :
    expected t S l (min n l.length) = expected t S l n := by
  by_cases hle : n ≤ l.length
  · rw [Nat.min_eq_left hle]
  · rw [Nat.min_eq_right (by omega)]
    unfold expected
    rw [List.getElem?_eq_none (Nat.le_refl _), List.getElem?_eq_none (by omega)]

theorem nexts_at {c : Lifetime.Cls} {t : Traits} {S : Sem' Val Py} {s s' : World Val} {i w a v : Nat} {l : List (Elem Val)}
    {h : List (Ev Val × Out Py)} (hf : Fine t S l)
    (hr : Run c t S (loopOps t) (fun s _ => (s.its i).live = true → Still w a v l s) s h s') :
    ∀ {n : Nat}, At s i w a v (min n l.length) →
      nexts i h = (List.range (nexts i h).length).map (fun k => expected t S l (n + k)) ∧
      At s' i w a v (min (n + (nexts i h).length) l.length) := by
  induction hr with
  | nil => intro n ha; exact ⟨rfl, ha⟩
  | @cons s1 s2 s3 e o h hok hq hs hr ih =>
    intro n ha
    by_cases he : e = .next i
    · subst he
      have hl : (s1.its i).live = true := hok
      obtain ⟨s', h1, h2⟩ := at_next (c := c) hf ha hl (hq hl) (Nat.min_le_right _ _)
      rw [hs] at h1
      have h1 := Res.ok.inj h1
      obtain ⟨rfl, rfl⟩ := Prod.mk.inj h1
      have hmin : min (min n l.length + 1) l.length = min (n + 1) l.length := by omega
      rw [hmin] at h2
      obtain ⟨h3, h4⟩ := ih h2
      have hx := expected_min t S l n
      have e1 : nexts i ((.next i, expected t S l (min n l.length)) :: h) = expected t S l n :: nexts i h := by
        show (if i = i then _ else _) = _
        rw [if_pos rfl, hx]
      rw [e1]
      refine ⟨?_, ?_⟩
      · rw [List.length_cons, List.range_succ_eq_map, List.map_cons, List.map_map]
        congr 1
        rw [h3]
        simp only [List.length_map, List.length_range]
        apply List.map_congr_left
        intro k _
        show expected t S l (n + 1 + k) = expected t S l (n + (k + 1))
        congr 1
        omega
      · rw [List.length_cons]
        have : n + ((nexts i h).length + 1) = n + 1 + (nexts i h).length := by omega
        rw [this]
        exact h4
    · obtain ⟨h1, -⟩ := at_other ha he hs
      rw [nexts_skip he]
      exact ih h1

theorem at_iter {c : Lifetime.Cls} {t : Traits} {S : Sem' Val Py} {code : List Op} {s s' : World Val} {w i a v : Nat}
    {l : List (Elem Val)} (hs : Still w a v l s) (h : step c t S code s (.iter w) = .ok (s', .iter i)) :
    At s' i w a v 0 ∧ s' = afterIter s w a ∧ i = s.next := by
  obtain ⟨h1, h2, h3⟩ := hs
  rw [step_iter] at h
  simp only [h1] at h
  cases hh : s.base.heap a with
  | none => exact absurd hh h2
  | some x =>
    rw [hh] at h
    have h := Res.ok.inj h
    obtain ⟨rfl, hi⟩ := Prod.mk.inj h
    cases hi
    refine ⟨⟨Nat.lt_succ_self _, fun _ => ?_, fun _ => ?_⟩, rfl, rfl⟩
    · show (upd s.its s.next _ s.next).container = _
      rw [upd_same]
    · show (upd s.its s.next _ s.next).iter = _
      rw [upd_same, h3]

theorem code_eq {t : Traits} {g : W} (hg : iternext t = .ok g) : onBlock 1 g.ops = loopOps t := (C107_text hg).2.1

/-- C107 (iteration): in every history, an iterator made for an object shows exactly its elements, in order, each
once, and then stops for good, whatever else happens in between (other iterators, other objects, other
wrappers), as long as, while the iterator exists, its object stays the same, alive and unchanged. -/
theorem C107_iteration_partial {c : Lifetime.Cls} {t : Traits} {S : Sem' Val Py} {g : W} (hg : iternext t = .ok g)
    {before after : List (Ev Val × Out Py)} {s0 s1 s2 : World Val} {w i a v : Nat} {l : List (Elem Val)}
    (_hr : Run c t S (onBlock 1 g.ops) (fun _ _ => True) (World.init Val) before s0)
    (hs : Still w a v l s0) (hi : step c t S (onBlock 1 g.ops) s0 (.iter w) = .ok (s1, .iter i)) (hf : Fine t S l)
    (hr : Run c t S (onBlock 1 g.ops) (fun s _ => (s.its i).live = true → Still w a v l s) s1 after s2) :
    nexts i after = (List.range (nexts i after).length).map (expected t S l) := by
  rw [code_eq hg] at hi hr
  obtain ⟨h1, -, -⟩ := at_iter hs hi
  have := (nexts_at (n := 0) hf hr (by rw [Nat.zero_min]; exact h1)).1
  simpa using this

/-- C107 (no crash): under the same conditions `iter` and `next` are defined. -/
theorem C107_defined_partial {c : Lifetime.Cls} {t : Traits} {S : Sem' Val Py} {g : W} (hg : iternext t = .ok g)
    {before after : List (Ev Val × Out Py)} {s0 : World Val} {w a v : Nat} {l : List (Elem Val)}
    (_hr : Run c t S (onBlock 1 g.ops) (fun _ _ => True) (World.init Val) before s0)
    (hs : Still w a v l s0) (hf : Fine t S l) :
    ∃ s1 i, step c t S (onBlock 1 g.ops) s0 (.iter w) = .ok (s1, .iter i) ∧
      ∀ s2, Run c t S (onBlock 1 g.ops) (fun s _ => (s.its i).live = true → Still w a v l s) s1 after s2 →
        (s2.its i).live = true → Still w a v l s2 →
        ∃ s3, step c t S (onBlock 1 g.ops) s2 (.next i) = .ok (s3, expected t S l (nexts i after).length) := by
  rw [code_eq hg]
  obtain ⟨h1, h2, h3⟩ := hs
  cases hh : s0.base.heap a with
  | none => exact absurd hh h2
  | some x =>
    have e : step c t S (loopOps t) s0 (.iter w) = .ok (afterIter s0 w a, .iter s0.next) := by
      rw [step_iter]; simp only [h1, hh]
    refine ⟨_, _, e, ?_⟩
    intro s2 hr hl hst
    obtain ⟨ha, -, -⟩ := at_iter ⟨h1, h2, h3⟩ e
    have := (nexts_at (n := 0) hf hr (by rw [Nat.zero_min]; exact ha)).2
    obtain ⟨s3, h4, -⟩ := at_next (c := c) hf this hl hst (Nat.min_le_right _ _)
    refine ⟨s3, ?_⟩
    rw [h4]
    rw [Nat.zero_add, expected_min]

end Verif.ClassIter
