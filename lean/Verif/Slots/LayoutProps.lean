import Verif.Slots.Layout

/-!
# C64: type structures are laid out as CPython reads them
-/
namespace Verif.Slots
open Verif

/-- Syntactic correspondence for type structures. -/
def typeOk (i : Item) (m : String) : Bool :=
  match i with
  | .lit s => decide (fixedType.lookup m = some (String.ofList s))
  | .slot b k a =>
    decide (fixedType.lookup m = none) && decide (k = m.toList) &&
    (if m = "tp_name" then decide (b = "(char *) \"".toList ∧ a = "\"".toList) else decide (b = [] ∧ a = [])) &&
    (decide (typeDefaults.lookup k = some (memberDefault m).toList) || decide (typeDefaults.lookup k = none))

theorem itemIs_type {i : Item} {m : String} (h : typeOk i m = true) :
    ItemIs typeDefaults typeMember i m := by
  intro d s hs
  unfold typeOk at h
  cases i with
  | lit t =>
    simp only [decide_eq_true_eq] at h
    simp only [Item.value, Option.some.injEq] at hs
    subst hs
    simp [typeMember, h]
  | slot b k a =>
    simp only [Bool.and_eq_true, decide_eq_true_eq, Bool.or_eq_true] at h
    obtain ⟨⟨⟨h1, rfl⟩, h3⟩, h4⟩ := h
    have hv : s = b ++ (d.get m.toList).getD (memberDefault m).toList ++ a := by
      unfold Item.value at hs
      dsimp only at hs
      rcases h4 with h4 | h4 <;> rw [h4] at hs
      · exact (Option.some.inj hs).symm
      · cases hg : d.get m.toList with
        | none => rw [hg] at hs; cases hs
        | some v => rw [hg] at hs; exact (Option.some.inj hs).symm
    rw [hv]
    unfold typeMember
    rw [h1]
    dsimp only
    split at h3
    · simp only [decide_eq_true_eq] at h3
      rename_i hm
      rw [if_pos hm, h3.1, h3.2]
    · simp only [decide_eq_true_eq] at h3
      rename_i hm
      rw [if_neg hm, h3.1, h3.2]
      simp

/-- Syntactic correspondence for number and sequence structures. -/
def methodOk (py3 : Bool) (defs : List (Str × Str)) (i : Item) (m : String) : Bool :=
  match i with
  | .lit s => decide (s = "NULL".toList) &&
      decide (py3 = true ∧ (m = "nb_reserved" ∨ m = "was_sq_slice" ∨ m = "was_sq_ass_slice"))
  | .slot b k a =>
    decide (¬ (py3 = true ∧ (m = "nb_reserved" ∨ m = "was_sq_slice" ∨ m = "was_sq_ass_slice"))) &&
    decide (b = [] ∧ a = []) &&
    decide (k = (if py3 ∧ m = "nb_true_divide" then "nb_divide"
      else if py3 ∧ m = "nb_inplace_true_divide" then "nb_inplace_divide" else m).toList) &&
    decide (defs.lookup k = some "NULL".toList)

theorem itemIs_method {py3 : Bool} {defs : List (Str × Str)} {i : Item} {m : String}
    (h : methodOk py3 defs i m = true) : ItemIs defs (methodMember py3) i m := by
  intro d s hs
  unfold methodOk at h
  unfold methodMember
  cases i with
  | lit t =>
    simp only [Bool.and_eq_true, decide_eq_true_eq] at h
    simp only [Item.value, Option.some.injEq] at hs
    rw [if_pos h.2, ← hs, h.1]
  | slot b k a =>
    simp only [Bool.and_eq_true, decide_eq_true_eq] at h
    obtain ⟨⟨⟨h1, h2, h3⟩, h4⟩, h5⟩ := h
    subst h2 h3
    rw [if_neg h1]
    dsimp only
    simp only [Item.value, h5, List.nil_append, List.append_nil, Option.some.injEq] at hs
    rw [← h4, ← hs]

/-- Check two lists against each other. -/
def all2 (p : Item → String → Bool) : List Item → List String → Bool
  | [], [] => true
  | i :: is, m :: ms => p i m && all2 p is ms
  | _, _ => false

theorem forall2_of_all2 {p : Item → String → Bool} {R : Item → String → Prop}
    (hp : ∀ i m, p i m = true → R i m) : ∀ {is : List Item} {ms : List String},
    all2 p is ms = true → List.Forall₂ R is ms
  | [], [], _ => .nil
  | [], _ :: _, h => by simp [all2] at h
  | _ :: _, [], h => by simp [all2] at h
  | i :: is, m :: ms, h => by
    simp only [all2, Bool.and_eq_true] at h
    exact .cons (hp i m h.1) (forall2_of_all2 hp h.2)

/-- From a syntactic check of a template to all slot dictionaries and versions. -/
theorem layout_of_check {defs : List (Str × Str)} {t : List TLine} {exp : Dict Str Str → String → Str}
    {p : Item → String → Bool} (hp : ∀ i m, p i m = true → ItemIs defs exp i m) {ms : List String}
    {h1 h2 : Nat} {ns : List Nat} (hn : t.flatMap threshold = ns) (hv : ∀ n ∈ ns, n ≤ h1 ↔ n ≤ h2)
    (hc : all2 p (tInitializers h2 [] t) ms = true) {d : Dict Str Str} {os : List OLine}
    (h : renderAll (setdefaults d defs) t = .ok os) :
    initializers h1 [] os = ms.map (exp d) := by
  have h3 := initializers_render h1 defs d t [] os h
  rw [tInitializers_hex t [] (by rw [hn]; exact hv)] at h3
  exact map_eq_of_forall2 d (forall2_of_all2 hp hc) h3

/-- Generation depends on the required keys only. -/
theorem generate_iff {defs : List (Str × Str)} {t : List TLine} {ks : List Str}
    (hk : t.flatMap (required defs) = ks) (d : Dict Str Str) :
    (∃ os, renderAll (setdefaults d defs) t = .ok os) ↔ ∀ k ∈ ks, (d.get k).isSome := by
  rw [← hk]; exact renderAll_ok defs d t

/-- **C64, type structure, Python 3.**  Whatever slots were set, if the structure is generated then
the compiler initializes every member of CPython's `PyTypeObject`, in CPython's order, with the slot
of that name, with its default if it was not set, or with zero for the members that can not be
chosen. -/
theorem C64_type_layout (d : Dict Str Str) (os : List OLine) (hex : Nat) (hv : 0x03000000 ≤ hex)
    (h : generateType d = .ok os) : initializers hex [] os = cpythonType3.map (typeMember d) := by
  refine layout_of_check (p := typeOk) (fun _ _ => itemIs_type) (h2 := 0x03000000)
    (ns := [0x03000000]) (by decide +kernel) ?_ (by decide +kernel) h
  simp only [List.mem_singleton, forall_eq]; omega

/-- C64, type structure, Python 2. -/
theorem C64_type_layout2 (d : Dict Str Str) (os : List OLine) (hex : Nat) (hv : hex < 0x03000000)
    (h : generateType d = .ok os) : initializers hex [] os = cpythonType2.map (typeMember d) := by
  refine layout_of_check (p := typeOk) (fun _ _ => itemIs_type) (h2 := 0)
    (ns := [0x03000000]) (by decide +kernel) ?_ (by decide +kernel) h
  simp only [List.mem_singleton, forall_eq]; omega

/-- A type structure is generated exactly when its name, size and variable are known; otherwise
`KeyError` is raised. -/
theorem C64_type_required (d : Dict Str Str) :
    ((∃ os, generateType d = .ok os) ↔ (d.get "typestruct".toList).isSome ∧
      (d.get "tp_name".toList).isSome ∧ (d.get "tp_basicsize".toList).isSome) ∧
    ∀ e, generateType d = .error e → e = .keyError := by
  refine ⟨?_, fun e he => renderAll_err he⟩
  unfold generateType
  rw [generate_iff (ks := ["typestruct".toList, "tp_name".toList, "tp_basicsize".toList])
    (by decide +kernel)]
  simp

/-- **C64, number methods, Python 3**: every member of `PyNumberMethods` up to `nb_index`, in order,
gets the slot of its name, division being true division. -/
theorem C64_number_layout (d : Dict Str Str) (os : List OLine) (hex : Nat) (hv : 0x03000000 ≤ hex)
    (h : generateNumber d = .ok os) :
    initializers hex [] os = cpythonNumber3.map (methodMember true d) := by
  refine layout_of_check (p := methodOk true numberDefaults) (fun _ _ => itemIs_method) (h2 := 0x03000000)
    (ns := [0x03000000, 0x020500F0]) (by decide +kernel) ?_ (by decide +kernel) h
  simp only [List.mem_cons, List.not_mem_nil, or_false, forall_eq_or_imp, forall_eq]
  omega

/-- C64, number methods, Python 2.5 to 2.7. -/
theorem C64_number_layout2 (d : Dict Str Str) (os : List OLine) (hex : Nat) (hv : hex < 0x03000000)
    (hv2 : 0x020500F0 ≤ hex) (h : generateNumber d = .ok os) :
    initializers hex [] os = cpythonNumber2.map (methodMember false d) := by
  refine layout_of_check (p := methodOk false numberDefaults) (fun _ _ => itemIs_method) (h2 := 0x020500F0)
    (ns := [0x03000000, 0x020500F0]) (by decide +kernel) ?_ (by decide +kernel) h
  simp only [List.mem_cons, List.not_mem_nil, or_false, forall_eq_or_imp, forall_eq]
  omega

/-- C64, number methods, before Python 2.5, whose structure had no `nb_index` yet. -/
theorem C64_number_layout_old (d : Dict Str Str) (os : List OLine) (hex : Nat)
    (hv : hex < 0x020500F0) (h : generateNumber d = .ok os) :
    initializers hex [] os = (cpythonNumber2.filter (· ≠ "nb_index")).map (methodMember false d) := by
  refine layout_of_check (p := methodOk false numberDefaults) (fun _ _ => itemIs_method) (h2 := 0)
    (ns := [0x03000000, 0x020500F0]) (by decide +kernel) ?_ (by decide +kernel) h
  simp only [List.mem_cons, List.not_mem_nil, or_false, forall_eq_or_imp, forall_eq]
  omega

/-- **C64, sequence methods, Python 3**. -/
theorem C64_sequence_layout (d : Dict Str Str) (os : List OLine) (hex : Nat) (hv : 0x03000000 ≤ hex)
    (h : generateSequence d = .ok os) :
    initializers hex [] os = cpythonSequence3.map (methodMember true d) := by
  refine layout_of_check (p := methodOk true sequenceDefaults) (fun _ _ => itemIs_method) (h2 := 0x03000000)
    (ns := [0x03000000, 0x03000000]) (by decide +kernel) ?_ (by decide +kernel) h
  simp only [List.mem_cons, List.not_mem_nil, or_false, forall_eq_or_imp, forall_eq]
  omega

/-- C64, sequence methods, Python 2. -/
theorem C64_sequence_layout2 (d : Dict Str Str) (os : List OLine) (hex : Nat) (hv : hex < 0x03000000)
    (h : generateSequence d = .ok os) :
    initializers hex [] os = cpythonSequence2.map (methodMember false d) := by
  refine layout_of_check (p := methodOk false sequenceDefaults) (fun _ _ => itemIs_method) (h2 := 0)
    (ns := [0x03000000, 0x03000000]) (by decide +kernel) ?_ (by decide +kernel) h
  simp only [List.mem_cons, List.not_mem_nil, or_false, forall_eq_or_imp, forall_eq]
  omega

/-- The two method structures only need the name of their variable; without it `KeyError` is
raised. -/
theorem C64_methods_required (d : Dict Str Str) :
    ((∃ os, generateNumber d = .ok os) ↔ (d.get "variable".toList).isSome) ∧
    ((∃ os, generateSequence d = .ok os) ↔ (d.get "variable".toList).isSome) ∧
    (∀ e, generateNumber d = .error e → e = .keyError) ∧
    (∀ e, generateSequence d = .error e → e = .keyError) := by
  refine and_assoc.1 ⟨?_, fun e he => renderAll_err he, fun e he => renderAll_err he⟩
  unfold generateNumber generateSequence
  rw [generate_iff (ks := ["variable".toList]) (by decide +kernel),
    generate_iff (ks := ["variable".toList]) (by decide +kernel)]
  simp

/-! Non-vacuity: a type with a constructor. -/

/-- Slots of the example. -/
def exampleSlots : Dict Str Str :=
  [("tp_name".toList, "foo.Zoo".toList), ("tp_basicsize".toList, "sizeof(PyZoo)".toList),
   ("typestruct".toList, "PyZoo_Type".toList), ("tp_init".toList, "_wrap_PyZoo__tp_init".toList)]

example : ∃ os, generateType exampleSlots = .ok os ∧
    (initializers 0x03090000 [] os)[34]? = some "_wrap_PyZoo__tp_init".toList := by
  obtain ⟨os, h⟩ := (C64_type_required exampleSlots).1.mpr (by decide)
  refine ⟨os, h, ?_⟩
  rw [C64_type_layout _ os _ (by decide) h]
  decide +kernel

example : ∃ os, generateNumber [("variable".toList, "v".toList), ("nb_divide".toList, "div".toList)] = .ok os ∧
    (initializers 0x03090000 [] os)[30]? = some "div".toList := by
  obtain ⟨os, h⟩ := (C64_methods_required [("variable".toList, "v".toList),
    ("nb_divide".toList, "div".toList)]).1.mpr (by decide)
  refine ⟨os, h, ?_⟩
  rw [C64_number_layout _ os _ (by decide) h]
  decide +kernel

end Verif.Slots
