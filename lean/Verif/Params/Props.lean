import Verif.Params.Model

/-!
# C06, C07, C08: argument parsing and value building parameter lists
-/
namespace Verif.Params
open Verif

/-! ## Specification -/

/-- Order in which items end up: the prepended ones, latest first, then the others in call
order. -/
def finalOrder {α : Type} (calls : List (α × Bool)) : List α :=
  ((calls.filter (·.2)).reverse ++ calls.filter (fun c => !c.2)).map (·.1)

/-! ## Helper lemmas -/

theorem foldl_order {α : Type} (calls : List (α × Bool)) (init : List α) :
    calls.foldl (fun items c => if c.2 then c.1 :: items else items ++ [c.1]) init =
      ((calls.filter (·.2)).reverse.map (·.1)) ++ init ++
        (calls.filter (fun c => !c.2)).map (·.1) := by
  induction calls generalizing init with
  | nil => simp
  | cons c cs ih =>
    rw [List.foldl_cons, ih]
    cases hc : c.2 <;> simp [List.filter_cons, hc]

theorem templateLoop_true {items : List PItem} (h : ∀ it ∈ items, it.optional = true) :
    templateLoop true items = .ok (items.flatMap (·.template)) := by
  induction items with
  | nil => rfl
  | cons it rest ih =>
    have h1 := h it (by simp)
    have h2 := ih (fun x hx => h x (List.mem_cons_of_mem _ hx))
    simp [templateLoop, h1, h2, pure, Except.pure, bind, Except.bind]

theorem templateLoop_false {req opt : List PItem} (h1 : ∀ it ∈ req, it.optional = false)
    (h2 : ∀ it ∈ opt, it.optional = true) :
    templateLoop false (req ++ opt) = .ok (req.flatMap (·.template) ++
      (if opt = [] then [] else '|' :: opt.flatMap (·.template))) := by
  induction req with
  | nil =>
    cases opt with
    | nil => rfl
    | cons it rest =>
      have h3 := h2 it (by simp)
      simp [templateLoop, h3, templateLoop_true (fun x hx => h2 x (List.mem_cons_of_mem _ hx)),
        pure, Except.pure, bind, Except.bind]
  | cons it rest ih =>
    have h3 := h1 it (by simp)
    have h4 := ih (fun x hx => h1 x (List.mem_cons_of_mem _ hx))
    simp [templateLoop, h3, h4, pure, Except.pure, bind, Except.bind]

theorem templateLoop_err {l : Bool} {items : List PItem} {e : PyErr}
    (h : templateLoop l items = .error e) : e = .valueError := by
  induction items generalizing l with
  | nil => cases h
  | cons it rest ih =>
    unfold templateLoop at h
    split at h
    · cases h; rfl
    · split at h
      · cases hr : templateLoop true rest with
        | error e' => simp [hr, bind, Except.bind] at h; exact ih (h ▸ hr)
        | ok t => simp [hr, bind, Except.bind, pure, Except.pure] at h
      · cases hr : templateLoop l rest with
        | error e' => simp [hr, bind, Except.bind] at h; exact ih (h ▸ hr)
        | ok t => simp [hr, bind, Except.bind, pure, Except.pure] at h

theorem templateLoop_true_ok {items : List PItem} {t : Str}
    (h : templateLoop true items = .ok t) : ∀ it ∈ items, it.optional = true := by
  induction items generalizing t with
  | nil => simp
  | cons it rest ih =>
    unfold templateLoop at h
    cases ho : it.optional with
    | false => simp [ho] at h
    | true =>
      simp only [ho, Bool.not_true, Bool.and_false, Bool.false_eq_true, if_false, Bool.and_true,
        Bool.true_and] at h
      cases hr : templateLoop true rest with
      | error e => simp [hr, bind, Except.bind] at h
      | ok t' =>
        intro x hx
        rcases List.mem_cons.1 hx with rfl | hx
        · exact ho
        · exact ih hr x hx

theorem templateLoop_false_ok {items : List PItem} {t : Str}
    (h : templateLoop false items = .ok t) : ∃ req opt, items = req ++ opt ∧
      (∀ it ∈ req, it.optional = false) ∧ (∀ it ∈ opt, it.optional = true) := by
  induction items generalizing t with
  | nil => exact ⟨[], [], rfl, by simp, by simp⟩
  | cons it rest ih =>
    unfold templateLoop at h
    cases ho : it.optional with
    | true =>
      simp only [ho, Bool.not_true, Bool.and_false, Bool.false_eq_true, if_false, Bool.and_true,
        Bool.not_false, if_true] at h
      cases hr : templateLoop true rest with
      | error e => simp [hr, bind, Except.bind] at h
      | ok t' =>
        refine ⟨[], it :: rest, rfl, by simp, ?_⟩
        intro x hx
        rcases List.mem_cons.1 hx with rfl | hx
        · exact ho
        · exact templateLoop_true_ok hr x hx
    | false =>
      simp only [ho, Bool.not_false, Bool.and_false, Bool.false_eq_true, if_false,
        Bool.and_true] at h
      cases hr : templateLoop false rest with
      | error e => simp [hr, bind, Except.bind] at h
      | ok t' =>
        obtain ⟨req, opt, h1, h2, h3⟩ := ih hr
        refine ⟨it :: req, opt, by simp [h1], ?_, h3⟩
        intro x hx
        rcases List.mem_cons.1 hx with rfl | hx
        · exact ho
        · exact h2 x hx

/-! ## C06 -/

/-- C06 (order): after any calls, the items stand in the documented order, and each call returns
the number of calls so far. -/
theorem C06_item_order (calls : List PCall) :
    pRun calls = finalOrder (calls.map (fun c => (c.item, c.prepend))) ∧
    ∀ c : PCall, (addParam (pRun calls) c.item c.prepend).2 = calls.length + 1 := by
  have hlen : ∀ (calls : List PCall) (init : List PItem),
      (calls.foldl (fun items c => (addParam items c.item c.prepend).1) init).length =
        init.length + calls.length := by
    intro calls
    induction calls with
    | nil => simp
    | cons c cs ih =>
      intro init
      rw [List.foldl_cons, ih]
      cases hp : c.prepend <;> simp [addParam] <;> omega
  constructor
  · have := foldl_order (calls.map (fun c => (c.item, c.prepend))) []
    rw [List.foldl_map] at this
    simpa [finalOrder, pRun, addParam] using this
  · intro c
    have h0 : (pRun calls).length = calls.length := by simpa [pRun] using hlen calls []
    cases hp : c.prepend <;> simp [addParam, h0]

/-- C06 (accepted lists): when all required items come before all optional ones, the result is
the quoted format — required templates, then one `|` and the optional templates if there are
any — followed by all values in item order. -/
theorem C06_format (req opt : List PItem) (h1 : ∀ it ∈ req, it.optional = false)
    (h2 : ∀ it ∈ opt, it.optional = true) :
    getParameters (req ++ opt) = .ok
      ((['"'] ++ (req.map (·.template)).flatten ++
        (if opt = [] then [] else ['|'] ++ (opt.map (·.template)).flatten) ++ ['"'])
        :: ((req ++ opt).map (·.values)).flatten) := by
  unfold getParameters
  rw [templateLoop_false h1 h2]
  simp [bind, Except.bind, pure, Except.pure, List.flatMap_def]

/-- C06 (rejected lists): `get_parameters` raises exactly when some required item stands after
an optional one, and then it raises `ValueError`. -/
theorem C06_raises_iff (items : List PItem) :
    (getParameters items = .error .valueError ↔
      ∃ a x b y c, items = a ++ x :: b ++ y :: c ∧ x.optional = true ∧ y.optional = false) ∧
    (∀ e, getParameters items = .error e → e = .valueError) := by
  have hge : ∀ e, getParameters items = .error e ↔ templateLoop false items = .error e := by
    intro e
    unfold getParameters
    cases templateLoop false items <;> simp [bind, Except.bind, pure, Except.pure]
  constructor
  · rw [hge]
    constructor
    · intro h
      by_contra hno
      have split : ∀ l : List PItem, (∃ req opt, l = req ++ opt ∧
          (∀ it ∈ req, it.optional = false) ∧ (∀ it ∈ opt, it.optional = true)) ∨
          (∃ a x b y c, l = a ++ x :: b ++ y :: c ∧ x.optional = true ∧ y.optional = false) := by
        intro l
        induction l with
        | nil => exact .inl ⟨[], [], rfl, by simp, by simp⟩
        | cons it rest ih =>
          rcases ih with ⟨req, opt, h1, h2, h3⟩ | ⟨a, x, b, y, c, h1, h2, h3⟩
          · cases ho : it.optional with
            | false =>
              refine .inl ⟨it :: req, opt, by simp [h1], ?_, h3⟩
              intro x hx
              rcases List.mem_cons.1 hx with rfl | hx
              · exact ho
              · exact h2 x hx
            | true =>
              cases req with
              | nil =>
                refine .inl ⟨[], it :: opt, by simp [h1], by simp, ?_⟩
                intro x hx
                rcases List.mem_cons.1 hx with rfl | hx
                · exact ho
                · exact h3 x hx
              | cons r rs =>
                exact .inr ⟨[], it, [], r, rs ++ opt, by simp [h1], ho, h2 r (by simp)⟩
          · exact .inr ⟨it :: a, x, b, y, c, by simp [h1], h2, h3⟩
      rcases split items with ⟨req, opt, rfl, h2, h3⟩ | hx
      · rw [templateLoop_false h2 h3] at h; cases h
      · exact hno hx
    · rintro ⟨a, x, b, y, c, rfl, hx, hy⟩
      cases ht : templateLoop false (a ++ x :: b ++ y :: c) with
      | error e => rw [templateLoop_err ht]
      | ok t =>
        exfalso
        obtain ⟨req, opt, h1, h2, h3⟩ := templateLoop_false_ok ht
        -- x is in opt, so everything after it is in opt
        have hpos : req.length ≤ a.length := by
          by_contra hlt
          have hlt : a.length < req.length := by omega
          have e1 : (a ++ x :: b ++ y :: c)[a.length]? = some x := by simp
          rw [h1, List.getElem?_append_left hlt] at e1
          have := h2 x (List.mem_of_getElem? e1)
          simp [hx] at this
        have e2 : (a ++ x :: b ++ y :: c)[a.length + (b.length + 1)]? = some y := by
          simp only [List.append_assoc, List.cons_append]
          rw [List.getElem?_append_right (by omega)]
          simp
        rw [h1, List.getElem?_append_right (by omega)] at e2
        have := h3 y (List.mem_of_getElem? e2)
        simp [hy] at this
  · intro e he
    exact templateLoop_err ((hge e).1 he)

/-- C06 (`is_empty`): true exactly for lists that contribute neither a format nor values. -/
theorem C06_is_empty_iff (items : List PItem) :
    isEmpty items = .ok true ↔ ∀ it ∈ items, it.template = [] ∧ it.values = [] ∧ it.optional = false := by
  constructor
  · intro h
    unfold isEmpty at h
    cases hg : getParameters items with
    | error e => simp [hg, bind, Except.bind] at h
    | ok ps =>
      simp only [hg, bind, Except.bind, pure, Except.pure, Except.ok.injEq, beq_iff_eq] at h
      unfold getParameters at hg
      cases ht : templateLoop false items with
      | error e => simp [ht, bind, Except.bind] at hg
      | ok t =>
        obtain ⟨req, opt, rfl, h2, h3⟩ := templateLoop_false_ok ht
        rw [templateLoop_false h2 h3] at hg
        simp only [bind, Except.bind, pure, Except.pure, Except.ok.injEq] at hg
        rw [← hg] at h
        simp only [List.cons_append, List.cons.injEq, List.append_eq_cons_iff, true_and] at h
        obtain ⟨hf, hv⟩ := h
        have hlen : (req.flatMap (·.template) ++
            (if opt = [] then [] else '|' :: opt.flatMap (·.template))) = [] := by
          rcases hf with ⟨h, _⟩ | ⟨a, _, h⟩
          · exact h
          · simp at h
        rw [List.append_eq_nil_iff] at hlen
        have hopt : opt = [] := by
          by_contra hne; simp [hne] at hlen
        subst hopt
        rw [List.append_nil] at hv ⊢
        intro it hit
        exact ⟨List.flatMap_eq_nil_iff.1 hlen.1 it hit, List.flatMap_eq_nil_iff.1 hv it hit, h2 it hit⟩
  · intro h
    have := C06_format items [] (fun it hit => (h it hit).2.2) (by simp)
    rw [List.append_nil] at this
    unfold isEmpty
    rw [this]
    have e1 : (items.map (·.template)).flatten = [] := by
      rw [← List.flatMap_def, List.flatMap_eq_nil_iff]; exact fun it hit => (h it hit).1
    have e2 : (items.map (·.values)).flatten = [] := by
      rw [← List.flatMap_def, List.flatMap_eq_nil_iff]; exact fun it hit => (h it hit).2.1
    rw [e1, e2]
    rfl

/-- Non-vacuity (doctest base.py:249-267, with a prepended item). -/
example : getParameters (pRun [⟨⟨['i'], [['&','a']], none, false⟩, false⟩,
      ⟨⟨['s'], [['&','b']], none, true⟩, false⟩, ⟨⟨['O'], [['&','c']], none, false⟩, true⟩])
    = .ok ["\"Oi|s\"".toList, ['&','c'], ['&','a'], ['&','b']] := by decide

/-! ## C07 -/

theorem keywordsLoop_none (items : List PItem) (h : ∀ it ∈ items, it.name = none) :
    keywordsLoop [] items = .ok [] := by
  induction items with
  | nil => rfl
  | cons it rest ih =>
    unfold keywordsLoop
    rw [h it (by simp)]
    simpa using ih (fun x hx => h x (List.mem_cons_of_mem _ hx))

theorem keywordsLoop_spec (kw : List Str) (hkw : kw ≠ []) (items : List PItem) :
    ((∀ it ∈ items, it.name ≠ none) ∧
        keywordsLoop kw items = .ok (kw ++ items.filterMap (·.name))) ∨
    ((∃ it ∈ items, it.name = none) ∧ keywordsLoop kw items = .error .valueError) := by
  induction items generalizing kw with
  | nil => exact .inl ⟨by simp, by simp [keywordsLoop]⟩
  | cons it rest ih =>
    unfold keywordsLoop
    cases hn : it.name with
    | none => exact .inr ⟨⟨it, by simp, hn⟩, by simp [hkw]⟩
    | some n =>
      rcases ih (kw ++ [n]) (by simp) with ⟨h1, h2⟩ | ⟨⟨x, hx, h1⟩, h2⟩
      · refine .inl ⟨?_, ?_⟩
        · intro x hx
          rcases List.mem_cons.1 hx with rfl | hx
          · simp [hn]
          · exact h1 x hx
        · simp [h2, hn]
      · exact .inr ⟨⟨x, List.mem_cons_of_mem _ hx, h1⟩, h2⟩

theorem keywordsLoop_nil_spec (items : List PItem) :
    (keywordsLoop [] items = .ok (items.filterMap (·.name))) ∨
    ((∃ it ∈ items, it.name = none) ∧ (∃ it ∈ items, it.name ≠ none) ∧
      keywordsLoop [] items = .error .valueError) := by
  induction items with
  | nil => exact .inl rfl
  | cons it rest ih =>
    unfold keywordsLoop
    cases hn : it.name with
    | none =>
      simp only [if_true]
      rcases ih with h | ⟨⟨x, hx, h1⟩, ⟨y, hy, h2⟩, h3⟩
      · exact .inl (by simp [h, hn])
      · exact .inr ⟨⟨x, List.mem_cons_of_mem _ hx, h1⟩, ⟨y, List.mem_cons_of_mem _ hy, h2⟩, h3⟩
    | some n =>
      rcases keywordsLoop_spec [n] (by simp) rest with ⟨_, h2⟩ | ⟨⟨x, hx, h1⟩, h2⟩
      · exact .inl (by simp [h2, hn])
      · exact .inr ⟨⟨x, List.mem_cons_of_mem _ hx, h1⟩, ⟨it, by simp, by simp [hn]⟩, h2⟩

/-- C07: the three outcomes of `get_keywords()`: `None` when no item is named, the names in
order when all (and at least one) are, `ValueError` for every mixture. -/
theorem C07_keywords (items : List PItem) :
    ((∀ it ∈ items, it.name = none) → getKeywords items = .ok none) ∧
    (items ≠ [] → (∀ it ∈ items, it.name ≠ none) →
      ∃ kw, getKeywords items = .ok (some kw) ∧ items.map (·.name) = kw.map some) ∧
    ((∃ it ∈ items, it.name = none) → (∃ it ∈ items, it.name ≠ none) →
      getKeywords items = .error .valueError) := by
  refine ⟨?_, ?_, ?_⟩
  · intro h
    simp [getKeywords, keywordsLoop_none items h, bind, Except.bind, pure, Except.pure]
  · intro hne h
    have hmap : items.map (·.name) = (items.filterMap (·.name)).map some := by
      clear hne
      induction items with
      | nil => rfl
      | cons it rest ih =>
        have := h it (by simp)
        obtain ⟨n, hn⟩ := Option.ne_none_iff_exists'.1 this
        simp [hn, ih (fun x hx => h x (List.mem_cons_of_mem _ hx))]
    have hlen : (items.filterMap (·.name)).length = items.length := by
      simpa using (congrArg List.length hmap).symm
    refine ⟨items.filterMap (·.name), ?_, hmap⟩
    rcases keywordsLoop_nil_spec items with hk | ⟨⟨x, hx, h1⟩, _⟩
    · have hne' : items.filterMap (·.name) ≠ [] := by
        intro h0; rw [h0] at hlen; exact hne (List.length_eq_zero_iff.1 hlen.symm)
      simp [getKeywords, hk, bind, Except.bind, pure, Except.pure, hne', hlen]
    · exact absurd h1 (h x hx)
  · rintro ⟨x, hx, h1⟩ ⟨y, hy, h2⟩
    rcases keywordsLoop_nil_spec items with hk | ⟨_, _, hk⟩
    · obtain ⟨n, hn⟩ := Option.ne_none_iff_exists'.1 h2
      have hne' : items.filterMap (·.name) ≠ [] := by
        intro h0
        have : n ∈ items.filterMap (·.name) := List.mem_filterMap.2 ⟨y, hy, hn⟩
        rw [h0] at this; simp at this
      have hlen : (items.filterMap (·.name)).length ≠ items.length := by
        intro heq
        have : ∀ (l : List PItem), x ∈ l → (l.filterMap (·.name)).length < l.length := by
          intro l
          induction l with
          | nil => simp
          | cons a as ih =>
            intro hm
            have hle := List.length_filterMap_le (fun it : PItem => it.name) as
            rcases List.mem_cons.1 hm with rfl | hm
            · simp [h1]; omega
            · have := ih hm
              cases ha : a.name
              · simp [ha]; omega
              · simpa [ha] using this
        have := this items hx
        omega
      simp [getKeywords, hk, bind, Except.bind, hne', hlen]
    · simp [getKeywords, hk, bind, Except.bind]

/-- Non-vacuity: each of the three cases occurs. -/
example : getKeywords [⟨['i'], [], some ['a'], false⟩, ⟨['s'], [], some ['b'], false⟩]
      = .ok (some [['a'], ['b']]) ∧
    getKeywords [⟨['i'], [], none, false⟩] = .ok none ∧
    getKeywords [⟨['i'], [], none, false⟩, ⟨['s'], [], some ['b'], false⟩] = .error .valueError := by
  decide

/-! ## C08 -/

theorem buildParameters_foldl (items : List BItem) (t : Str) (ps : List Str) :
    items.foldl (fun st it => (st.1 ++ it.template, st.2 ++ it.values)) (t, ps) =
      (t ++ (items.map (·.template)).flatten, ps ++ (items.map (·.values)).flatten) := by
  induction items generalizing t ps with
  | nil => simp
  | cons it rest ih => rw [List.foldl_cons, ih]; simp

/-- C08: after any `add_parameter` calls, `get_parameters` is the quoted concatenation of the
templates in the documented order (prepended first, latest prepended foremost), parenthesised
exactly when a tuple is forced, followed by all the values in the same order; cleanup handles come
in that order too. -/
theorem C08_build_value (calls : List BCall) (force : Bool) :
    let items := finalOrder (calls.map (fun c => (c.item, c.prepend)))
    buildParameters (bRun calls) force =
      (['"'] ++ (if force then ['('] else []) ++ (items.map (·.template)).flatten ++
        (if force then [')'] else []) ++ ['"']) :: (items.map (·.values)).flatten ∧
    buildCleanups (bRun calls) = items.map (·.cancels) := by
  intro items
  have hb : bRun calls = items := by
    have := foldl_order (calls.map (fun c => (c.item, c.prepend))) []
    rw [List.foldl_map] at this
    simpa [items, finalOrder, bRun, addBuild] using this
  rw [hb]
  refine ⟨?_, rfl⟩
  unfold buildParameters
  simp only [buildParameters_foldl]
  simp

example : buildParameters (bRun [⟨⟨['i'], [['1'], ['2']], none⟩, false⟩, ⟨⟨['s'], [['h']], none⟩, true⟩]) true
    = ["\"(si)\"".toList, ['h'], ['1'], ['2']] := by decide

end Verif.Params
