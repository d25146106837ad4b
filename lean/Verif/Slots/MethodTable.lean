import Verif.Slots.LayoutProps

/-!
# C68: methods reach Python through the method table or a slot

`CppClass._generate_methods` (cppclass.py:2395-2430) and `_generate_sequence_methods` (2161-2191).
-/
namespace Verif.Slots
open Verif

/-- How generating an overload set ended (`call_with_error_handling`, C28): with the C function's
name, with `SkipWrapper`, or with an error that stops the generation. -/
inductive Gen where
  | ok (actualName : Str)
  | skip
  | fail (e : PyErr)
  deriving DecidableEq, Repr

/-- An overload set of a class, `self.methods.items()`. -/
structure MethodSet where
  name : Str
  gen : Gen
  /-- number of wrappers left after generation -/
  wrappers : Nat := 1
  /-- some wrapper is a `Function` -/
  someFunction : Bool := false
  /-- the line of `get_py_method_def` -/
  entry : Str := []
  deriving DecidableEq, Repr

/-- `valid_sequence_methods`, cppclass.py:654-663. -/
def sequenceNames : List (String × String) :=
  [("__len__", "sq_length"), ("__add__", "sq_concat"), ("__mul__", "sq_repeat"),
   ("__getitem__", "sq_item"), ("__getslice__", "sq_slice"), ("__setitem__", "sq_ass_item"),
   ("__setslice__", "sq_ass_slice"), ("__contains__", "sq_contains"),
   ("__iadd__", "sq_inplace_concat"), ("__imul__", "sq_inplace_repeat")]

/-- `['__call__'] + list(self.valid_sequence_methods)`, cppclass.py:2406. -/
def isSpecial (n : Str) : Bool :=
  decide (n = "__call__".toList) || sequenceNames.any (fun p => decide (n = p.1.toList))

/-- The loop over the methods, cppclass.py:2398-2408. -/
def ownEntries : List MethodSet → PyRes (List (Str × Str))
  | [] => .ok []
  | m :: ms =>
    match m.gen with
    | .fail e => .error e
    | .skip => ownEntries ms
    | .ok _ =>
      if isSpecial m.name then ownEntries ms
      else
        match ownEntries ms with
        | .error e => .error e
        | .ok r => .ok ((m.name, m.entry) :: r)

/-- A function written for a sequence slot: the template, and what it calls. -/
structure SeqFn where
  slot : Str
  function : Str
  withArgs : Bool
  calls : Str
  deriving DecidableEq, Repr

/-- `overload.wrapper_actual_name` as `%s` shows it: `None` if it was never set.  (For an overload set
of several wrappers it is set before the wrappers are generated, overloading.py:165, so a skipped set
may also show a name nobody defines.) -/
def MethodSet.actual (m : MethodSet) : Str :=
  match m.gen with
  | .ok n => n
  | _ => "None".toList

/-- `try_wrap_sequence_method` for every name, cppclass.py:2170-2188. -/
def sequenceFns (mangled : Str) (ms : List MethodSet) : List SeqFn :=
  sequenceNames.filterMap fun p =>
    (ms.find? (fun m => decide (m.name = p.1.toList))).map fun m =>
      { slot := p.2.toList, function := mangled ++ "__".toList ++ p.2.toList
        withArgs := decide (p.1 = "__len__") && (decide (1 < m.wrappers) || m.someFunction)
        calls := m.actual }

/-- `pysequencemethods.slots`, cppclass.py:2164-2165, 2176. -/
def sequenceSlots (mangled : Str) (ms : List MethodSet) : Dict Str Str :=
  (sequenceFns mangled ms).foldl (fun d f => d.set f.slot f.function)
    [("variable".toList, mangled ++ "__py_sequence_methods".toList)]

/-! ## Proofs -/

theorem inj_of_nodup {ms : List MethodSet} (hn : (ms.map MethodSet.name).Nodup) :
    ∀ {a b : MethodSet}, a ∈ ms → b ∈ ms → a.name = b.name → a = b := by
  induction ms with
  | nil => intro a b ha; cases ha
  | cons m ms ih =>
    intro a b ha hb e
    simp only [List.map_cons, List.nodup_cons] at hn
    rcases List.mem_cons.mp ha with ha | ha <;> rcases List.mem_cons.mp hb with hb | hb
    · rw [ha, hb]
    · exact absurd (List.mem_map.mpr ⟨b, hb, by rw [← e, ha]⟩) hn.1
    · exact absurd (List.mem_map.mpr ⟨a, ha, by rw [e, hb]⟩) hn.1
    · exact ih hn.2 ha hb e

theorem ownEntries_cons (m : MethodSet) (ms : List MethodSet) : ownEntries (m :: ms) =
    match m.gen with
    | .fail e => .error e
    | .skip => ownEntries ms
    | .ok _ =>
      if isSpecial m.name then ownEntries ms
      else
        match ownEntries ms with
        | .error e => .error e
        | .ok r => .ok ((m.name, m.entry) :: r) := rfl

theorem ownEntries_ok : ∀ {ms : List MethodSet} {t : List (Str × Str)}, ownEntries ms = .ok t →
    t = (ms.filter (fun m => (match m.gen with | .ok _ => true | _ => false) && !isSpecial m.name)).map
      (fun m => (m.name, m.entry))
  | [], t, h => by cases h; rfl
  | m :: ms, t, h => by
    rw [ownEntries_cons] at h
    cases hg : m.gen with
    | fail e => rw [hg] at h; cases h
    | skip =>
      rw [hg] at h
      simp [ownEntries_ok h, hg]
    | ok n =>
      rw [hg] at h
      dsimp only at h
      by_cases hs : isSpecial m.name = true
      · rw [if_pos hs] at h
        simp [ownEntries_ok h, hg, hs]
      · rw [if_neg hs] at h
        cases hr : ownEntries ms with
        | error e => rw [hr] at h; cases h
        | ok r =>
          rw [hr] at h
          have h := (Except.ok.inj h).symm
          rw [h, ownEntries_ok hr]
          simp [hg, hs]

/-- **C68, method table.**  If generation is not stopped by an error, the class's own part of the
method table has, in the order of the declarations, one entry for each method that could be generated
and has no slot, and no other entry. -/
theorem C68_table (ms : List MethodSet) (t : List (Str × Str)) (h : ownEntries ms = .ok t)
    (hn : (ms.map MethodSet.name).Nodup) :
    (∀ m ∈ ms, ((m.name, m.entry) ∈ t ↔ (∃ f, m.gen = .ok f) ∧ isSpecial m.name = false)) ∧
    (t.map Prod.fst).Nodup ∧ (t.map Prod.fst).Sublist (ms.map MethodSet.name) := by
  have ht := ownEntries_ok h
  have hsub : (t.map Prod.fst).Sublist (ms.map MethodSet.name) := by
    rw [ht, List.map_map]
    exact List.filter_sublist.map _
  refine ⟨fun m hm => ?_, hsub.nodup hn, hsub⟩
  rw [ht, List.mem_map]
  constructor
  · rintro ⟨m', hm', he⟩
    rw [List.mem_filter] at hm'
    have e : m' = m := by
      exact inj_of_nodup hn hm'.1 hm (Prod.mk.inj he).1
    subst e
    obtain ⟨-, h2⟩ := hm'
    simp only [Bool.and_eq_true, Bool.not_eq_true'] at h2
    refine ⟨?_, h2.2⟩
    cases hg : m'.gen with
    | ok f => exact ⟨f, rfl⟩
    | skip => rw [hg] at h2; simp at h2
    | fail e => rw [hg] at h2; simp at h2
  · rintro ⟨⟨f, hf⟩, hs⟩
    exact ⟨m, List.mem_filter.mpr ⟨hm, by simp [hf, hs]⟩, rfl⟩

/-- **C68, names with a slot.**  The names kept out of the table are these, and no others. -/
theorem C68_special (n : Str) : isSpecial n = true ↔
    n ∈ ["__call__".toList, "__len__".toList, "__getitem__".toList, "__setitem__".toList, "__getslice__".toList,
      "__setslice__".toList, "__contains__".toList, "__add__".toList, "__mul__".toList, "__iadd__".toList,
      "__imul__".toList] := by
  have h : isSpecial n = (["__call__".toList, "__len__".toList, "__add__".toList, "__mul__".toList, "__getitem__".toList,
      "__getslice__".toList, "__setitem__".toList, "__setslice__".toList, "__contains__".toList,
      "__iadd__".toList, "__imul__".toList].any (fun k => decide (n = k))) := rfl
  have hp : ["__call__".toList, "__len__".toList, "__add__".toList, "__mul__".toList, "__getitem__".toList,
      "__getslice__".toList, "__setitem__".toList, "__setslice__".toList, "__contains__".toList,
      "__iadd__".toList, "__imul__".toList].isPerm ["__call__".toList, "__len__".toList, "__getitem__".toList,
      "__setitem__".toList, "__getslice__".toList, "__setslice__".toList, "__contains__".toList, "__add__".toList,
      "__mul__".toList, "__iadd__".toList, "__imul__".toList] = true := by decide +kernel
  rw [h, List.any_eq_true, ← (List.isPerm_iff.mp hp).mem_iff]
  constructor
  · rintro ⟨k, hk, e⟩
    rwa [of_decide_eq_true e]
  · intro hk
    exact ⟨n, hk, decide_eq_true rfl⟩

/-- An error of one method that is not handled stops the class. -/
theorem C68_error (ms : List MethodSet) : (∃ e, ownEntries ms = .error e) ↔ ∃ m ∈ ms, ∃ e, m.gen = .fail e := by
  induction ms with
  | nil => simp [ownEntries]
  | cons m ms ih =>
    simp only [List.mem_cons, exists_eq_or_imp, ← ih]
    rw [ownEntries_cons]
    cases hg : m.gen with
    | fail e => simp
    | skip => simp
    | ok n =>
      dsimp only
      split
      · simp
      · cases ownEntries ms <;> simp

theorem get_foldl_set (fs : List SeqFn) (d : Dict Str Str) (k : Str) :
    (fs.foldl (fun d f => d.set f.slot f.function) d).get k =
      ((fs.reverse.find? (fun f => decide (f.slot = k))).map SeqFn.function).or (d.get k) := by
  induction fs generalizing d with
  | nil => simp
  | cons f fs ih =>
    rw [List.foldl_cons, ih, List.reverse_cons, List.find?_append]
    cases hf : fs.reverse.find? (fun f => decide (f.slot = k)) with
    | some g => simp
    | none =>
      rw [Dict.get_set]
      by_cases hk : f.slot = k <;> simp [hk]

/-- The slot for a special name. -/
theorem mem_sequenceFns {mangled : Str} {ms : List MethodSet} {f : SeqFn} :
    f ∈ sequenceFns mangled ms ↔ ∃ p ∈ sequenceNames, ∃ m,
      ms.find? (fun m => decide (m.name = p.1.toList)) = some m ∧
      f = { slot := p.2.toList, function := mangled ++ "__".toList ++ p.2.toList
            withArgs := decide (p.1 = "__len__") && (decide (1 < m.wrappers) || m.someFunction)
            calls := m.actual } := by
  unfold sequenceFns
  simp only [List.mem_filterMap, Option.map_eq_some_iff]
  constructor
  · rintro ⟨p, hp, m, hm, rfl⟩; exact ⟨p, hp, m, hm, rfl⟩
  · rintro ⟨p, hp, m, hm, rfl⟩; exact ⟨p, hp, m, hm, rfl⟩

theorem find_of_mem {ms : List MethodSet} (hn : (ms.map MethodSet.name).Nodup) {m : MethodSet} (hm : m ∈ ms) :
    ms.find? (fun x => decide (x.name = m.name)) = some m := by
  have h : ∃ x, ms.find? (fun x => decide (x.name = m.name)) = some x := by
    cases h : ms.find? (fun x => decide (x.name = m.name)) with
    | some x => exact ⟨x, rfl⟩
    | none => rw [List.find?_eq_none] at h; exact absurd (h m hm) (by simp)
  obtain ⟨x, hx⟩ := h
  have h1 := List.find?_some hx
  have h2 := List.mem_of_find?_eq_some hx
  simp only [decide_eq_true_eq] at h1
  rw [hx, inj_of_nodup hn h2 hm h1]

/-- The slot names are different from each other. -/
theorem slot_inj : ∀ p ∈ sequenceNames, ∀ q ∈ sequenceNames, p.2 = q.2 → p = q := by decide +kernel

theorem slot_ne_variable : ∀ p ∈ sequenceNames, p.2.toList ≠ "variable".toList := by decide +kernel

/-- What the slot dictionary holds. -/
theorem sequenceSlots_get (mangled : Str) (ms : List MethodSet) (p : String × String) (hp : p ∈ sequenceNames) :
    (sequenceSlots mangled ms).get p.2.toList =
      if ms.any (fun m => decide (m.name = p.1.toList)) then some (mangled ++ "__".toList ++ p.2.toList)
      else none := by
  unfold sequenceSlots
  rw [get_foldl_set]
  have hv : Dict.get [("variable".toList, mangled ++ "__py_sequence_methods".toList)] p.2.toList = none := by
    have e : ([("variable".toList, mangled ++ "__py_sequence_methods".toList)] : Dict Str Str) =
        Dict.set [] "variable".toList (mangled ++ "__py_sequence_methods".toList) := rfl
    rw [e, Dict.get_set, if_neg (slot_ne_variable p hp).symm]
    rfl
  rw [hv, Option.or_none]
  cases hf : (sequenceFns mangled ms).reverse.find? (fun f => decide (f.slot = p.2.toList)) with
  | some f =>
    have h1 := List.find?_some hf
    have h2 := List.mem_of_find?_eq_some hf
    simp only [decide_eq_true_eq] at h1
    rw [List.mem_reverse, mem_sequenceFns] at h2
    obtain ⟨q, hq, m, hm, rfl⟩ := h2
    have : q = p := slot_inj q hq p hp (String.toList_inj.mp h1)
    subst this
    have hany : ms.any (fun m => decide (m.name = q.1.toList)) = true := by
      rw [List.any_eq_true]
      exact ⟨m, List.mem_of_find?_eq_some hm, by have := List.find?_some hm; exact this⟩
    rw [if_pos hany]; rfl
  | none =>
    rw [if_neg]
    · rfl
    · intro hany
      rw [List.any_eq_true] at hany
      obtain ⟨m, hm, hmn⟩ := hany
      cases hfind : ms.find? (fun m => decide (m.name = p.1.toList)) with
      | none => rw [List.find?_eq_none] at hfind; exact absurd hmn (hfind m hm)
      | some m' =>
        rw [List.find?_eq_none] at hf
        have := mem_sequenceFns (mangled := mangled).mpr ⟨p, hp, m', hfind, rfl⟩
        exact hf _ (List.mem_reverse.mpr this) (by simp)

/-- The sequence structure of the class can always be written. -/
theorem sequence_generated (mangled : Str) (ms : List MethodSet) :
    ∃ os, generateSequence (sequenceSlots mangled ms) = .ok os := by
  rw [(C64_methods_required _).2.1]
  unfold sequenceSlots
  rw [get_foldl_set]
  have : Dict.get [("variable".toList, mangled ++ "__py_sequence_methods".toList)] "variable".toList =
      some (mangled ++ "__py_sequence_methods".toList) := rfl
  rw [this]
  cases ((sequenceFns mangled ms).reverse.find? fun f => decide (f.slot = "variable".toList)).map SeqFn.function <;> simp

/-- The members of `PySequenceMethods` on Python 3 with the method that serves them. -/
def servedBy : List (String × String) :=
  [("sq_length", "__len__"), ("sq_concat", "__add__"), ("sq_repeat", "__mul__"), ("sq_item", "__getitem__"),
   ("sq_ass_item", "__setitem__"), ("sq_contains", "__contains__"), ("sq_inplace_concat", "__iadd__"),
   ("sq_inplace_repeat", "__imul__")]

/-- **C68, sequence operations (partial: Python 3, and the method could be generated).**  On Python 3
the structure written for the class has, in the member for a sequence operation, the function written
for it exactly when the class has the method that serves it, and `NULL` otherwise; the function
calls the method's wrapper. -/
theorem C68_sequence_partial (mangled : Str) (ms : List MethodSet) (hn : (ms.map MethodSet.name).Nodup)
    (hex : Nat) (hv : 0x03000000 ≤ hex) (member method : String) (hs : (member, method) ∈ servedBy) :
    ∃ (os : List OLine) (i : Nat), generateSequence (sequenceSlots mangled ms) = .ok os ∧ cpythonSequence3[i]? = some member ∧
      (initializers hex [] os)[i]? = some
        (if method.toList ∈ ms.map MethodSet.name then mangled ++ "__".toList ++ member.toList else "NULL".toList) ∧
      ∀ m ∈ ms, m.name = method.toList → ∀ f, m.gen = .ok f →
        ∃ fn ∈ sequenceFns mangled ms, fn.function = mangled ++ "__".toList ++ member.toList ∧ fn.calls = f := by
  obtain ⟨os, hos⟩ := sequence_generated mangled ms
  have hp : (method, member) ∈ sequenceNames := by
    revert hs; simp only [servedBy, List.mem_cons, List.not_mem_nil, or_false, Prod.mk.injEq]
    rintro (⟨rfl, rfl⟩ | ⟨rfl, rfl⟩ | ⟨rfl, rfl⟩ | ⟨rfl, rfl⟩ | ⟨rfl, rfl⟩ | ⟨rfl, rfl⟩ | ⟨rfl, rfl⟩ | ⟨rfl, rfl⟩) <;>
      decide
  have hi : ∃ i : Nat, cpythonSequence3[i]? = some member := by
    rw [← List.mem_iff_getElem?]
    revert hs; simp only [servedBy, List.mem_cons, List.not_mem_nil, or_false, Prod.mk.injEq]
    rintro (⟨rfl, -⟩ | ⟨rfl, -⟩ | ⟨rfl, -⟩ | ⟨rfl, -⟩ | ⟨rfl, -⟩ | ⟨rfl, -⟩ | ⟨rfl, -⟩ | ⟨rfl, -⟩) <;> decide
  obtain ⟨i, hi⟩ := hi
  refine ⟨os, i, hos, hi, ?_, ?_⟩
  · rw [C64_sequence_layout _ os hex hv hos, List.getElem?_map, hi, Option.map_some, Option.some.injEq]
    have hmem : methodMember true (sequenceSlots mangled ms) member =
        ((sequenceSlots mangled ms).get member.toList).getD "NULL".toList := by
      revert hs; simp only [servedBy, List.mem_cons, List.not_mem_nil, or_false, Prod.mk.injEq]
      rintro (⟨rfl, -⟩ | ⟨rfl, -⟩ | ⟨rfl, -⟩ | ⟨rfl, -⟩ | ⟨rfl, -⟩ | ⟨rfl, -⟩ | ⟨rfl, -⟩ | ⟨rfl, -⟩) <;> rfl
    rw [hmem, sequenceSlots_get mangled ms _ hp]
    by_cases hm : method.toList ∈ ms.map MethodSet.name
    · rw [if_pos hm, if_pos]
      · rfl
      · rw [List.any_eq_true]
        obtain ⟨m, h1, h2⟩ := List.mem_map.mp hm
        exact ⟨m, h1, by simpa using h2⟩
    · rw [if_neg hm, if_neg]
      · rfl
      · intro h
        rw [List.any_eq_true] at h
        obtain ⟨m, h1, h2⟩ := h
        exact hm (List.mem_map.mpr ⟨m, h1, by simpa using h2⟩)
  · intro m hm hname f hf
    have hfind := find_of_mem hn hm
    rw [hname] at hfind
    exact ⟨_, mem_sequenceFns.mpr ⟨_, hp, m, hfind, rfl⟩, rfl, by simp [MethodSet.actual, hf]⟩

/-- Slicing methods are out of reach on Python 3: they are left out of the method table, and their
slots are gone. -/
theorem C68_slice_counterexample : ∃ ms : List MethodSet, (ms.map MethodSet.name).Nodup ∧
    ms.all (fun m => decide (m.gen = .ok "f".toList)) = true ∧ ms.map MethodSet.name = ["__getslice__".toList] ∧
    ownEntries ms = .ok [] ∧
    ∀ (mangled : Str) (os : List OLine) (hex : Nat), 0x03000000 ≤ hex →
      generateSequence (sequenceSlots mangled ms) = .ok os →
      mangled ++ "__sq_slice".toList ∉ initializers hex [] os := by
  refine ⟨[{ name := "__getslice__".toList, gen := .ok "f".toList }], by decide, by decide, by decide, by decide +kernel, ?_⟩
  intro mangled os hex hv h hm
  rw [C64_sequence_layout _ os hex hv h, List.mem_map] at hm
  obtain ⟨member, hmem, he⟩ := hm
  have hnull : methodMember true (sequenceSlots mangled
      [{ name := "__getslice__".toList, gen := .ok "f".toList }]) member = "NULL".toList := by
    have hs : sequenceSlots mangled [{ name := "__getslice__".toList, gen := .ok "f".toList }] =
        [("sq_slice".toList, mangled ++ "__".toList ++ "sq_slice".toList),
         ("variable".toList, mangled ++ "__py_sequence_methods".toList)] := rfl
    rw [hs]
    have hcase : member ∈ cpythonSequence3 := hmem
    simp only [cpythonSequence3, List.mem_cons, List.not_mem_nil, or_false] at hcase
    rcases hcase with rfl | rfl | rfl | rfl | rfl | rfl | rfl | rfl | rfl | rfl <;> rfl
  rw [hnull] at he
  have := congrArg List.getLast? he
  rw [List.getLast?_append] at this
  simp at this

/-- A sequence method whose wrapper was skipped is still put into its slot, calling `None`, which is
not defined: the module does not compile. -/
theorem C68_skipped_counterexample : ∃ ms : List MethodSet, ownEntries ms = .ok [] ∧
    ∃ fn ∈ sequenceFns "Zoo".toList ms, fn.slot = "sq_item".toList ∧ fn.calls = "None".toList :=
  ⟨[{ name := "__getitem__".toList, gen := .skip }], rfl, _, List.mem_singleton.mpr rfl, rfl, rfl⟩

/-! Non-vacuity. -/

example : ∃ t, ownEntries
    [{ name := "__len__".toList, gen := .ok "_wrap_len".toList },
     { name := "area".toList, gen := .ok "_wrap_area".toList, entry := "{...}".toList },
     { name := "bad".toList, gen := .skip }] = .ok t ∧ t.map Prod.fst = ["area".toList] :=
  ⟨_, rfl, rfl⟩

end Verif.Slots
