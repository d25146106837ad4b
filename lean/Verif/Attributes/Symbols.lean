import Verif.Attributes.Access
import Mathlib.Data.List.Nodup

/-!
# C76: the C functions written for a class

Names of the functions written by `CppClass.generate` for one class: method and constructor wrappers
with their overloads (cppmethod.py:233-234, 637-638, 399-401, 745-747; overloading.py:147-208),
attribute getters and setters (cppattribute.py, cppcustomattribute.py), and the functions for slots
(cppclass.py:2293, 2498, 2556, 2589).
-/
namespace Verif.Attr
open Verif

/-- An overload set: the name its wrappers are called by, how many wrappers there are, and whether a
single one can do without the dispatching function (overloading.py:147-148). -/
structure Overload where
  name : Str
  count : Nat
  plain : Bool := true

/-- The function names of an overload set without the common beginning, overloading.py:156, 165, 179,
208: the wrappers and the function that dispatches to them. -/
def Overload.functions (o : Overload) : List Str :=
  if o.count = 0 then []
  else if o.count = 1 ∧ o.plain = true then [o.name]
  else (List.range o.count).map (fun i => o.name ++ "__".toList ++ natStr i) ++ [o.name]

/-- A class: methods (those inherited from several bases included), the number of constructors,
attributes (instance and static) and which of the other functions it has. -/
structure Symbols where
  pystruct : Str
  methods : List Overload
  ctors : Nat
  attrs : List (Str × Bool)
  copy : Bool
  str : Bool
  richcompare : Bool
  iter : Bool

/-- The functions written, without the common `_wrap_<pystruct>_`; an attribute is given with whether
it has a setter. -/
def Symbols.suffixes (s : Symbols) : List Str :=
  s.methods.flatMap Overload.functions ++
  (({ name := "_tp_init".toList, count := s.ctors } : Overload).functions ++
   (s.attrs.flatMap (fun a => ("_get_".toList ++ a.1) :: (if a.2 then ["_set_".toList ++ a.1] else [])) ++
    ((if s.copy then ["_copy__".toList] else []) ++ (if s.str then ["_tp_str".toList] else []) ++
     (if s.richcompare then ["_tp_richcompare".toList] else []) ++ ["_tp_dealloc".toList] ++
     (if s.iter then ["_tp_iter".toList] else []))))

def Symbols.functions (s : Symbols) : List Str :=
  s.suffixes.map (fun x => "_wrap_".toList ++ s.pystruct ++ "_".toList ++ x)

/-- The attribute functions are those of the tables. -/
theorem names_attr (c : Cls) (d : Decl) :
    getterName c d = "_wrap_".toList ++ c.pystruct ++ "_".toList ++ ("_get_".toList ++ d.name) ∧
    setterName c d = "_wrap_".toList ++ c.pystruct ++ "_".toList ++ ("_set_".toList ++ d.name) := by
  unfold getterName setterName
  simp

theorem digit_ne_underscore {n : Nat} {ch : Char} (h : ch ∈ natStr n) : ch ≠ '_' := by
  have := Nat.isDigit_of_mem_toDigits (b := 10) (n := n) (by decide) (by decide) h
  rintro rfl
  revert this
  decide

theorem underscore_split {a b x y : Str} (h : a ++ "__".toList ++ x = b ++ "__".toList ++ y)
    (hx : ∀ ch ∈ x, ch ≠ '_') (hy : ∀ ch ∈ y, ch ≠ '_') : a = b ∧ x = y := by
  have key : ∀ (x y a b : Str), (∀ ch ∈ x, ch ≠ '_') → (∀ ch ∈ y, ch ≠ '_') →
      x ++ '_' :: a = y ++ '_' :: b → x = y ∧ a = b := by
    intro x
    induction x with
    | nil =>
      intro y a b _ hy h
      cases y with
      | nil => exact ⟨rfl, (List.cons.inj h).2⟩
      | cons c y => exact absurd (List.cons.inj h).1.symm (hy c List.mem_cons_self)
    | cons c x ih =>
      intro y a b hx hy h
      cases y with
      | nil => exact absurd (List.cons.inj h).1 (hx c List.mem_cons_self)
      | cons c' y =>
        obtain ⟨h1, h2⟩ := List.cons.inj h
        obtain ⟨h3, h4⟩ := ih y a b (fun z hz => hx z (List.mem_cons_of_mem _ hz))
          (fun z hz => hy z (List.mem_cons_of_mem _ hz)) h2
        exact ⟨by rw [h1, h3], h4⟩
  have hr := congrArg List.reverse h
  have e : "__".toList.reverse = ['_', '_'] := rfl
  simp only [List.reverse_append, e, List.append_assoc, List.cons_append, List.nil_append] at hr
  obtain ⟨h1, h2⟩ := key x.reverse y.reverse _ _ (fun c hc => hx c (List.mem_reverse.mp hc))
    (fun c hc => hy c (List.mem_reverse.mp hc)) hr
  refine ⟨List.reverse_injective (List.cons.inj h2).2, List.reverse_injective h1⟩

theorem mem_functions {o : Overload} {x : Str} (h : x ∈ o.functions) :
    x = o.name ∨ ∃ i, x = o.name ++ "__".toList ++ natStr i := by
  unfold Overload.functions at h
  split at h
  · cases h
  · split at h
    · exact Or.inl (List.mem_singleton.mp h)
    · rcases List.mem_append.mp h with h | h
      · obtain ⟨i, -, rfl⟩ := List.mem_map.mp h
        exact Or.inr ⟨i, rfl⟩
      · exact Or.inl (List.mem_singleton.mp h)

theorem functions_nodup (o : Overload) : o.functions.Nodup := by
  unfold Overload.functions
  split
  · exact List.nodup_nil
  · split
    · simp
    · refine List.nodup_append.mpr ⟨?_, by simp, ?_⟩
      · exact List.nodup_range.map (fun a b hab => natStr_injective (List.append_cancel_left hab))
      · rintro a ha b hb rfl
        obtain ⟨i, -, rfl⟩ := List.mem_map.mp ha
        have hb := List.mem_singleton.mp hb
        have := congrArg List.length hb
        simp at this

/-- A name that may begin with no underscore or with two, but not with a single one. -/
def NotPrivate (n : Str) : Prop := ∀ r, n = '_' :: r → r.head? = some '_'

/-- **C76.**  All C functions written for a class have different names if the attributes have, if no
method is called like another method with `__` and a number added, and no method name begins with a
single underscore. -/
theorem C76_distinct_partial (s : Symbols) (hm : (s.methods.map Overload.name).Nodup)
    (ha : (s.attrs.map Prod.fst).Nodup)
    (hsuf : ∀ m ∈ s.methods, ∀ m' ∈ s.methods, ∀ i, m.name ≠ m'.name ++ "__".toList ++ natStr i)
    (hpriv : ∀ m ∈ s.methods, NotPrivate m.name) (hne : ∀ m ∈ s.methods, m.name ≠ []) :
    s.functions.Nodup := by
  have hinj : Function.Injective (fun x : Str => "_wrap_".toList ++ s.pystruct ++ "_".toList ++ x) :=
    fun a b h => List.append_cancel_left h
  refine List.Nodup.map hinj ?_
  -- methods
  have h1 : (s.methods.flatMap Overload.functions).Nodup := by
    rw [List.nodup_flatMap]
    refine ⟨fun m _ => functions_nodup m, ?_⟩
    have hp : s.methods.Pairwise (fun a b => a.name ≠ b.name) := by
      have := hm
      rwa [List.Nodup, List.pairwise_map] at this
    refine hp.imp_of_mem ?_
    intro a b hain hbin hab x hxa hxb
    rcases mem_functions hxa with e1 | ⟨i, e1⟩ <;> rcases mem_functions hxb with e2 | ⟨j, e2⟩
    · exact hab (e1.symm.trans e2)
    · exact hsuf a hain b hbin j (e1.symm.trans e2)
    · exact hsuf b hbin a hain i (e2.symm.trans e1)
    · exact hab (underscore_split (e1.symm.trans e2) (fun c hc => digit_ne_underscore hc)
        (fun c hc => digit_ne_underscore hc)).1
  -- method functions do not begin with a single underscore
  have hmeth : ∀ x ∈ s.methods.flatMap Overload.functions, NotPrivate x := by
    intro x hx
    obtain ⟨m, hmm, hx⟩ := List.mem_flatMap.mp hx
    rcases mem_functions hx with rfl | ⟨i, rfl⟩
    · exact hpriv m hmm
    · intro r hr
      cases hn : m.name with
      | nil => exact absurd hn (hne m hmm)
      | cons c rest =>
        rw [hn] at hr
        simp only [List.cons_append] at hr
        obtain ⟨e1, e2⟩ := List.cons.inj hr
        have := hpriv m hmm rest (by rw [hn, e1])
        rw [← e2]
        cases rest with
        | nil => cases this
        | cons c' rest => exact this
  -- the others do
  have hothers : ∀ x, x ∈ (({ name := "_tp_init".toList, count := s.ctors } : Overload).functions ++
      (s.attrs.flatMap (fun a => ("_get_".toList ++ a.1) :: (if a.2 then ["_set_".toList ++ a.1] else [])) ++
      ((if s.copy then ["_copy__".toList] else []) ++ (if s.str then ["_tp_str".toList] else []) ++
       (if s.richcompare then ["_tp_richcompare".toList] else []) ++ ["_tp_dealloc".toList] ++
       (if s.iter then ["_tp_iter".toList] else [])))) → ¬ NotPrivate x := by
    intro x hx hnp
    have bad : ∀ (c : Char) (r : Str), x = '_' :: c :: r → c ≠ '_' → False := by
      intro c r hx hc
      have := hnp (c :: r) hx
      simp only [List.head?_cons, Option.some.injEq] at this
      exact hc this
    rcases List.mem_append.mp hx with hx | hx
    · rcases mem_functions hx with rfl | ⟨i, rfl⟩
      · exact bad 't' _ rfl (by decide)
      · exact bad 't' _ rfl (by decide)
    · rcases List.mem_append.mp hx with hx | hx
      · obtain ⟨a, -, hx⟩ := List.mem_flatMap.mp hx
        rcases List.mem_cons.mp hx with rfl | hx
        · exact bad 'g' _ rfl (by decide)
        · split at hx
          · rw [List.mem_singleton.mp hx] at bad
            exact bad 's' _ rfl (by decide)
          · cases hx
      · have : x = "_copy__".toList ∨ x = "_tp_str".toList ∨ x = "_tp_richcompare".toList ∨
            x = "_tp_dealloc".toList ∨ x = "_tp_iter".toList := by
          simp only [List.mem_append] at hx
          rcases hx with (((hx | hx) | hx) | hx) | hx
          · split at hx
            · exact Or.inl (List.mem_singleton.mp hx)
            · cases hx
          · split at hx
            · exact Or.inr (Or.inl (List.mem_singleton.mp hx))
            · cases hx
          · split at hx
            · exact Or.inr (Or.inr (Or.inl (List.mem_singleton.mp hx)))
            · cases hx
          · exact Or.inr (Or.inr (Or.inr (Or.inl (List.mem_singleton.mp hx))))
          · split at hx
            · exact Or.inr (Or.inr (Or.inr (Or.inr (List.mem_singleton.mp hx))))
            · cases hx
        rcases this with rfl | rfl | rfl | rfl | rfl
        · exact bad 'c' _ rfl (by decide)
        all_goals exact bad 't' _ rfl (by decide)
  -- attributes
  have h3 : (s.attrs.flatMap (fun a => ("_get_".toList ++ a.1) ::
      (if a.2 then ["_set_".toList ++ a.1] else []))).Nodup := by
    rw [List.nodup_flatMap]
    refine ⟨?_, ?_⟩
    · intro a _
      split
      · simp
      · simp
    · have hp : s.attrs.Pairwise (fun a b => a.1 ≠ b.1) := by
        have := ha
        rwa [List.Nodup, List.pairwise_map] at this
      refine hp.imp ?_
      intro a b hab x hxa hxb
      have get : ∀ (p : Str × Bool), x ∈ (("_get_".toList ++ p.1) :: (if p.2 then ["_set_".toList ++ p.1] else [])) →
          x = "_get_".toList ++ p.1 ∨ x = "_set_".toList ++ p.1 := by
        intro p hx
        rcases List.mem_cons.mp hx with hx | hx
        · exact Or.inl hx
        · split at hx
          · exact Or.inr (List.mem_singleton.mp hx)
          · cases hx
      rcases get a hxa with e1 | e1 <;> rcases get b hxb with e2 | e2
      · exact hab (List.append_cancel_left (e1.symm.trans e2))
      · have := e1.symm.trans e2; simp at this
      · have := e1.symm.trans e2; simp at this
      · exact hab (List.append_cancel_left (e1.symm.trans e2))
  -- the fixed ones
  have h4 : ((if s.copy then ["_copy__".toList] else []) ++ (if s.str then ["_tp_str".toList] else []) ++
       (if s.richcompare then ["_tp_richcompare".toList] else []) ++ ["_tp_dealloc".toList] ++
       (if s.iter then ["_tp_iter".toList] else [])).Nodup := by
    cases s.copy <;> cases s.str <;> cases s.richcompare <;> cases s.iter <;> decide
  -- second characters
  have third : ∀ x ∈ s.attrs.flatMap (fun a => ("_get_".toList ++ a.1) ::
      (if a.2 then ["_set_".toList ++ a.1] else [])), (x.drop 1).head? = some 'g' ∨ (x.drop 1).head? = some 's' := by
    intro x hx
    obtain ⟨a, -, hx⟩ := List.mem_flatMap.mp hx
    rcases List.mem_cons.mp hx with rfl | hx
    · exact Or.inl rfl
    · split at hx
      · rw [List.mem_singleton.mp hx]; exact Or.inr rfl
      · cases hx
  have fourth : ∀ x ∈ ((if s.copy then ["_copy__".toList] else []) ++ (if s.str then ["_tp_str".toList] else []) ++
       (if s.richcompare then ["_tp_richcompare".toList] else []) ++ ["_tp_dealloc".toList] ++
       (if s.iter then ["_tp_iter".toList] else [])),
      x ∈ ["_copy__".toList, "_tp_str".toList, "_tp_richcompare".toList, "_tp_dealloc".toList, "_tp_iter".toList] := by
    cases s.copy <;> cases s.str <;> cases s.richcompare <;> cases s.iter <;> decide
  unfold Symbols.suffixes
  refine List.nodup_append.mpr ⟨h1, ?_, ?_⟩
  · refine List.nodup_append.mpr ⟨functions_nodup _, ?_, ?_⟩
    · refine List.nodup_append.mpr ⟨h3, h4, ?_⟩
      rintro a haa b hb rfl
      have h5 := third a haa
      have h6 := fourth a hb
      revert h5
      simp only [List.mem_cons, List.not_mem_nil, or_false] at h6
      rcases h6 with rfl | rfl | rfl | rfl | rfl <;> decide
    · rintro a haa b hb rfl
      have hd : a = "_tp_init".toList ∨ ∃ i, a = "_tp_init".toList ++ "__".toList ++ natStr i := mem_functions haa
      rcases List.mem_append.mp hb with hb | hb
      · have h5 := third a hb
        rcases hd with rfl | ⟨i, rfl⟩
        · revert h5; decide
        · rcases h5 with h5 | h5 <;> cases h5
      · have h6 := fourth a hb
        simp only [List.mem_cons, List.not_mem_nil, or_false] at h6
        rcases hd with rfl | ⟨i, rfl⟩
        · revert h6; decide
        · rcases h6 with h6 | h6 | h6 | h6 | h6 <;>
            exact absurd (congrArg (fun l => l.take 7) h6) (by
              show ¬ ("_tp_init".toList.take 7 = _)
              decide)
  · rintro a haa b hb rfl
    exact hothers a hb (hmeth a haa)

/-- A method called `_get_x` beside an attribute `x`: its wrapper has the name of the attribute's
getter. -/
theorem C76_method_counterexample (s : Symbols) (x : Str) (b : Bool) (hx : (x, b) ∈ s.attrs) (k : Overload)
    (hk : k ∈ s.methods) (hn : k.name = "_get_".toList ++ x) (hc : k.count ≠ 0) : ¬ s.functions.Nodup := by
  intro h
  unfold Symbols.functions Symbols.suffixes at h
  rw [List.map_append] at h
  have hd := (List.nodup_append.mp h).2.2
  have hin : k.name ∈ k.functions := by
    unfold Overload.functions
    rw [if_neg hc]
    split
    · exact List.mem_singleton.mpr rfl
    · exact List.mem_append_right _ (List.mem_singleton.mpr rfl)
  refine hd _ (List.mem_map_of_mem (List.mem_flatMap.mpr ⟨k, hk, hin⟩)) _ (List.mem_map_of_mem
    (List.mem_append_right _ (List.mem_append_left _ (List.mem_flatMap.mpr ⟨(x, b), hx, List.mem_cons_self⟩)))) ?_
  rw [hn]

/-- An overloaded method `f` beside a method called `f__0`. -/
theorem C76_overload_counterexample (s : Symbols) (m k : Overload) (a b c : List Overload)
    (hs : s.methods = a ++ m :: b ++ k :: c) (hm : 2 ≤ m.count) (hk : k.count ≠ 0)
    (hn : k.name = m.name ++ "__0".toList) : ¬ s.functions.Nodup := by
  intro h
  unfold Symbols.functions Symbols.suffixes at h
  rw [List.map_append, hs] at h
  have h := (List.nodup_append.mp h).1
  have h := List.Nodup.of_map _ h
  rw [List.nodup_flatMap] at h
  have h := h.2
  rw [List.pairwise_append] at h
  have hin : k.name ∈ k.functions := by
    unfold Overload.functions
    rw [if_neg hk]
    split
    · exact List.mem_singleton.mpr rfl
    · exact List.mem_append_right _ (List.mem_singleton.mpr rfl)
  have hin' : k.name ∈ m.functions := by
    unfold Overload.functions
    rw [if_neg (by omega), if_neg (by omega)]
    refine List.mem_append_left _ (List.mem_map.mpr ⟨0, List.mem_range.mpr (by omega), ?_⟩)
    rw [hn, List.append_assoc]
    rfl
  exact h.2.2 m (by simp) k List.mem_cons_self hin' hin

/-- An instance attribute (through a getter function) and a static attribute of the same name. -/
theorem C76_static_counterexample :
    ∃ (c : Cls) (d e : Decl), d.access = .custom "get_x".toList [] none [] ∧ e.access = .static ∧
      d.name = e.name ∧ getterName c d = getterName c e ∧
      ∀ h0 : Heap, (addAll c { heap := h0 } [d, e]).inst = [d] ∧ (addAll c { heap := h0 } [d, e]).stat = [e] :=
  ⟨⟨"PyFoo".toList, "Foo".toList⟩, ⟨"x".toList, 0, .custom "get_x".toList [] none [], true, none⟩,
    ⟨"x".toList, 1, .static, true, none⟩, rfl, rfl, rfl, rfl, fun _ => ⟨rfl, rfl⟩⟩

/-- Two attributes of different names with the same `custom_name`: the table gets two rows for one Python
name, and no error is raised. -/
theorem C76_customName_counterexample :
    ∃ (c : Cls) (d e : Decl) (h0 : Heap), d.name ≠ e.name ∧
      (genTable none c (addAll c { heap := h0 } [d, e]).heap
          (addAll c { heap := h0 } [d, e]).inst).toOption.map (fun r => r.2.2.map (List.map Row.pyName)) =
        some (some ["z".toList, "z".toList]) :=
  ⟨⟨"PyFoo".toList, "Foo".toList⟩, ⟨"x".toList, 0, .member none none, true, some "z".toList⟩,
    ⟨"y".toList, 1, .member none none, true, some "z".toList⟩,
    fun _ => { type := inPlace "int".toList "i".toList (fun _ w => .ok w) }, by decide, by decide +kernel⟩

/-! Non-vacuity. -/
def fooSymbols : Symbols :=
  { pystruct := "PyFoo".toList
    methods := [⟨"f".toList, 2, true⟩, ⟨"__call__".toList, 1, true⟩]
    ctors := 2, attrs := [("a".toList, true), ("k".toList, false)]
    copy := true, str := true, richcompare := true, iter := false }

example : (fooSymbols.methods.map Overload.name).Nodup ∧ (fooSymbols.attrs.map Prod.fst).Nodup ∧
    ∀ m ∈ fooSymbols.methods, m.name ≠ [] := by decide

example : ∀ m ∈ fooSymbols.methods, NotPrivate m.name := by
  intro m hm
  rcases List.mem_cons.mp hm with rfl | hm
  · intro r hr; cases hr
  · rw [List.mem_singleton.mp hm]
    intro r hr
    rw [← (List.cons.inj hr).2]
    rfl

example : fooSymbols.suffixes = ["f__0".toList, "f__1".toList, "f".toList, "__call__".toList, "_tp_init__0".toList,
    "_tp_init__1".toList, "_tp_init".toList, "_get_a".toList, "_set_a".toList, "_get_k".toList, "_copy__".toList,
    "_tp_str".toList, "_tp_richcompare".toList, "_tp_dealloc".toList] := by decide +kernel

end Verif.Attr
