import Verif.ClassIter.Owner

/-!
# C107: what is generated, examples and counterexamples
-/
namespace Verif.ClassIter
open Verif Verif.Wrap Verif.Params
open Verif.Flow (Op)
open _root_.Verif.Lifetime (upd upd_same upd_ne Owns Bal Freeable GoodMem)

/-! ## Registration -/

/-- The slots of type objects that hold functions. -/
def slotFns : List Str := ["tp_iter", "tp_iternext", "tp_dealloc", "tp_traverse", "tp_clear"].map String.toList

/-- C107 (generation): for a class that is not nested in another, generation succeeds whenever the conversions of
the element can be generated.  Then the slots `tp_iternext`, `tp_iter`, `tp_dealloc`, `tp_traverse` and `tp_clear`
of the iterator type are all filled, with functions defined in the module; the type is made ready before it is
added to the module, under the name of the class followed by `Iter`; the class gets the generated `tp_iter` unless
the user has given one; and no other slot of the class changes. -/
theorem C107_generated_partial {t : Traits} (path : List Str) (slots : Dict Str Str) (hn : t.outer = none) {g : W}
    (hg : iternext t = .ok g) : ∃ e, generate t path slots = .ok e ∧ e.next = g ∧
      (∀ k ∈ slotFns, ∃ f ∈ e.functions, e.iterSlots.get k = some f) ∧
      e.iterSlots.get "tp_name".toList = some (pyJoin ".".toList (path ++ [t.pyName ++ "Iter".toList])) ∧
      e.init = ["PyType_Ready(&".toList ++ t.pystruct ++ "_IterType".toList ++ ")".toList,
        "PyModule_AddObject(m, (char *) \"".toList ++ t.pyName ++ "Iter".toList ++ "\", (PyObject *) &".toList ++
          t.pystruct ++ "_IterType".toList ++ ");".toList] ∧
      (∀ f, slots.get "tp_iter".toList = some f → e.classSlots.get "tp_iter".toList = some f) ∧
      (slots.get "tp_iter".toList = none → ∃ f ∈ e.functions, e.classSlots.get "tp_iter".toList = some f) ∧
      ∀ k, k ≠ "tp_iter".toList → e.classSlots.get k = slots.get k := by
  unfold generate
  rw [hn]
  simp only [hg]
  refine ⟨_, rfl, rfl, ?_, ?_, ?_, ?_, ?_, ?_⟩
  · intro k hk
    simp only [slotFns, List.map_cons, List.map_nil, List.mem_cons, List.not_mem_nil, or_false] at hk
    rcases hk with rfl | rfl | rfl | rfl | rfl
    · exact ⟨t.selfIterFn, by simp only [List.mem_cons, true_or, or_true], rfl⟩
    · exact ⟨t.nextFn, by simp only [List.mem_cons, true_or, or_true], rfl⟩
    · exact ⟨t.deallocFn, by simp only [List.mem_cons, true_or, or_true], rfl⟩
    · exact ⟨t.traverseFn, by simp only [List.mem_cons, true_or, or_true], rfl⟩
    · exact ⟨t.clearFn, by simp only [List.mem_cons, true_or, or_true], rfl⟩
  · rfl
  · simp only [Traits.iterTypeStruct, Traits.iterName, List.append_assoc]
  · intro f hf
    show (Slots.setdefault slots _ _).get _ = _
    unfold Slots.setdefault
    rw [hf]
    exact hf
  · intro hf
    refine ⟨t.iterFn, by simp only [List.mem_cons, true_or, or_true], ?_⟩
    show (Slots.setdefault slots _ _).get _ = _
    unfold Slots.setdefault
    rw [hf]
    rw [Dict.get_set]; simp
  · intro k hk
    show (Slots.setdefault slots _ _).get _ = _
    unfold Slots.setdefault
    split
    · rfl
    · rw [Dict.get_set, if_neg (Ne.symm hk)]

/-- Two texts with the same last `n` letters. -/
theorem drop_right {a b x y : Str} (h : a ++ x = b ++ y) (n : Nat) (hx : n ≤ x.length) (hy : n ≤ y.length) :
    x.reverse.take n = y.reverse.take n := by
  have := congrArg (fun l => l.reverse.take n) h
  simp only [List.reverse_append] at this
  rw [List.take_append_of_le_length (by simpa using hx), List.take_append_of_le_length (by simpa using hy)] at this
  exact this

/-- The functions by their ends. -/
theorem fn_form {t : Traits} {f : Str} (h : f ∈ [t.clearFn, t.traverseFn, t.deallocFn, t.iterFn, t.selfIterFn, t.nextFn]) :
    (f = t.iterStruct ++ "__tp_clear".toList) ∨ (f = t.iterStruct ++ "__tp_traverse".toList) ∨
    (f = ("_wrap_".toList ++ t.iterStruct) ++ "__tp_dealloc".toList) ∨ (f = ("_wrap_".toList ++ t.pystruct) ++ "__tp_iter".toList) ∨
    (f = ("_wrap_".toList ++ t.iterStruct) ++ "__tp_iter".toList) ∨ (f = ("_wrap_".toList ++ t.iterStruct) ++ "__tp_iternext".toList) := by
  simpa only [List.mem_cons, List.not_mem_nil, or_false, Traits.clearFn, Traits.traverseFn, Traits.deallocFn, Traits.iterFn,
    Traits.selfIterFn, Traits.nextFn] using h

/-- C107 (names): the functions generated for two classes have different names, unless one class is named like the
iterator of the other. -/
theorem C107_names_partial {t u : Traits} {p q : List Str} {s r : Dict Str Str} {e f : Emitted} (he : generate t p s = .ok e)
    (hf : generate u q r = .ok f) (h1 : t.pystruct ≠ u.pystruct) (h2 : t.pystruct ≠ u.pystruct ++ "_Iter".toList)
    (h3 : u.pystruct ≠ t.pystruct ++ "_Iter".toList) : ∀ x ∈ e.functions, x ∉ f.functions := by
  have fns : ∀ {t : Traits} {p : List Str} {s : Dict Str Str} {e : Emitted}, generate t p s = .ok e →
      e.functions = [t.clearFn, t.traverseFn, t.deallocFn, t.iterFn, t.selfIterFn, t.nextFn] := by
    intro t p s e h
    unfold generate at h
    split at h
    · cases h
    · obtain ⟨w, -, h⟩ := bind_ok.mp h
      cases h
      rfl
  have hs : t.iterStruct ≠ u.iterStruct := fun h => h1 (List.append_cancel_right h)
  intro x hx hy
  rw [fns he] at hx
  rw [fns hf] at hy
  rcases fn_form hx with rfl | rfl | rfl | rfl | rfl | rfl <;> rcases fn_form hy with hy | hy | hy | hy | hy | hy
  all_goals first
    | exact absurd (drop_right hy 5 (by decide) (by decide)) (by decide)
    | exact hs (List.append_cancel_right hy)
    | exact hs (List.append_cancel_left (List.append_cancel_right hy))
    | exact h1 (List.append_cancel_left (List.append_cancel_right hy))
    | exact h2 (List.append_cancel_left (List.append_cancel_right hy))
    | exact h3 (List.append_cancel_left (List.append_cancel_right hy)).symm

/-- `Foo`, with elements of type `int`. -/
def foo : Traits :=
  { full := "::Foo".toList, pystruct := "PyFoo".toList, pyName := "Foo".toList, value := fun v => scalarRet "i".toList v }

/-- `Map`, a mapping from `int` to `double`. -/
def mapping : Traits :=
  { full := "::Map".toList, pystruct := "PyMap".toList, pyName := "Map".toList, value := fun v => scalarRet "d".toList v,
    key := some (fun v => scalarRet "i".toList v) }

example : ∃ g, iternext foo = .ok g := by exact ⟨_, rfl⟩
example : ∃ g, iternext mapping = .ok g := by exact ⟨_, rfl⟩
example : ∃ e, generate foo ["m".toList] [] = .ok e := (C107_generated_partial _ _ rfl rfl).imp fun _ h => h.1

/-- C107: traits of a nested class end generation with an `AttributeError`. -/
theorem C107_nested_counterexample : ∃ t : Traits, (∃ g, iternext t = .ok g) ∧
    ∀ path slots, (match generate t path slots with | .error .attributeError => True | _ => False) :=
  ⟨{ foo with outer := some "PyOuter_Type".toList }, ⟨_, rfl⟩, fun _ _ => trivial⟩

/-- C107: if there is a class `Foo_Iter` beside `Foo`, both with container traits, the same function is defined
twice, and also the type object of one of them has the name of a struct of the other. -/
theorem C107_names_counterexample : ∃ t u : Traits, t.pystruct ≠ u.pystruct ∧ ∃ e f,
    generate t [] [] = .ok e ∧ generate u [] [] = .ok f ∧ ∃ x ∈ e.functions, x ∈ f.functions := by
  refine ⟨foo, { foo with full := "::Foo_Iter".toList, pystruct := "PyFoo_Iter".toList, pyName := "Foo_Iter".toList },
    by decide, _, _, rfl, rfl, foo.selfIterFn, ?_, ?_⟩
  · simp only [List.mem_cons, true_or, or_true]
  · show foo.selfIterFn ∈ [_, _, _, _, _, _]
    refine List.mem_cons_of_mem _ (List.mem_cons_of_mem _ (List.mem_cons_of_mem _ ?_))
    exact List.mem_cons.mpr (.inl rfl)

/-- The return value handler of containers with the given value expression, container.py:844-861. -/
def containerElem (ctype full pystruct pytype short value : Str) : RDesc :=
  { containerRet ctype full pystruct pytype short with
    ops := [.write [.var 1, tx " = PyObject_New(", .text pystruct, tx ", &", .text pytype, tx ");"],
      .write [.var 1, tx "->obj = new ", .text full, tx "(", .text value, tx ");"]] }

/-- C107: a mapping from a registered container to a registered container: generation ends with an
`AssertionError`. -/
theorem C107_two_containers_counterexample : ∃ t : Traits, t.outer = none ∧
    ∀ path slots, (match generate t path slots with | .error .assertionError => True | _ => False) :=
  ⟨{ mapping with
      value := containerElem "std::vector<int>".toList "std::vector<int>".toList "Pystd__vector".toList "PyV_Type".toList "V".toList
      key := some (containerElem "std::vector<int>".toList "std::vector<int>".toList "Pystd__vector".toList "PyV_Type".toList "V".toList) },
    rfl, fun _ _ => trivial⟩

/-! ## Examples of histories -/

/-- A meaning for tests: numbers are shown as they are; a handler with a null check gives 77 (`None`) for 0. -/
def sample : Sem' Nat Nat where
  sem := { conv := fun _ _ _ => none, expr := fun _ => 0, run := fun _ _ => none, post := fun _ _ => 0,
           eval := fun _ _ => none, out := fun _ _ _ => none, ret := fun _ _ x => some x }
  early := fun ops x => if ops.isEmpty then none else if x = 0 then some 77 else none

/-- Elements of an object that is not a mapping. -/
def els (l : List Nat) : List (Elem Nat) := l.map (fun x => ⟨0, x⟩)

/-- Run events, if nothing crashes. -/
def exec (t : Traits) : World Nat → List (Ev Nat) → Res (World Nat × List (Out Nat))
  | s, [] => .ok (s, [])
  | s, e :: es =>
    match step Lifetime.plain t sample (loopOps t) s e with
    | .crash => .crash
    | .ok (s, o) =>
      match exec t s es with
      | .crash => .crash
      | .ok (s, os) => .ok (s, o :: os)

def shows (t : Traits) (es : List (Ev Nat)) : Res (List (Out Nat)) :=
  match exec t (World.init Nat) es with
  | .crash => .crash
  | .ok r => .ok r.2

/-- `w = Foo()`, with elements `l` in the object at 5. -/
def build (l : List (Elem Nat)) : List (Ev Nat) :=
  [.life .pyNew (fun _ => []), .life (.pyInit 0 5 false) (fun _ => l)]

def afterNew : World Nat :=
  { World.init Nat with base := Lifetime.step Lifetime.plain Lifetime.init .pyNew,
                        objs := refill Lifetime.init (Lifetime.step Lifetime.plain Lifetime.init .pyNew) (fun _ => []) (fun _ => (0, [])) }

def afterInit (l : List (Elem Nat)) : World Nat :=
  { afterNew with base := Lifetime.step Lifetime.plain afterNew.base (.pyInit 0 5 false),
                  objs := refill afterNew.base (Lifetime.step Lifetime.plain afterNew.base (.pyInit 0 5 false)) (fun _ => l) afterNew.objs }

/-- Two iterators over one object, one of them used up while the other waits. -/
example : shows foo (build (els [10, 20]) ++ [.iter 0, .iter 0, .next 0, .next 1, .next 0, .next 0, .drop 0, .next 1, .next 1, .next 1]) =
    .ok [.unit, .unit, .iter 0, .iter 1, .value [some 10], .value [some 10], .value [some 20], .stop, .unit, .value [some 20], .stop, .stop] := by
  decide +kernel

example : shows mapping (build [⟨1, 10⟩, ⟨2, 20⟩] ++ [.iter 0, .next 0, .next 0, .next 0]) =
    .ok [.unit, .unit, .iter 0, .value [some 1, some 10], .value [some 2, some 20], .stop] := by
  decide +kernel

example : Fine foo sample (els [10, 20]) := fun _ h => by cases h
example : Fine mapping sample [⟨1, 10⟩, ⟨2, 20⟩] := by
  intro k hk
  cases hk
  exact ⟨rfl, fun _ _ => ⟨rfl, rfl⟩⟩

/-! ## Counterexamples and non-vacuity -/

/-- The first steps: `w = Foo(); i = iter(w)`. -/
theorem start_run {t : Traits} (Q : World Nat → Ev Nat → Prop) (l : List (Elem Nat)) (hQ : ∀ s e, e ∈ build l ∨ e = .iter 0 → Q s e)
    {h : List (Ev Nat × Out Nat)} {s : World Nat}
    (hr : Run Lifetime.plain t sample (loopOps t) Q (afterIter (afterInit l) 0 5) h s) :
    Run Lifetime.plain t sample (loopOps t) Q (World.init Nat)
      ((.life .pyNew (fun _ => []), .unit) :: (.life (.pyInit 0 5 false) (fun _ => l), .unit) :: (.iter 0, .iter 0) :: h) s := by
  refine .cons (s' := afterNew) ⟨trivial, fun _ _ => rfl⟩ (hQ _ _ (.inl List.mem_cons_self)) rfl
    (.cons (s' := afterInit l) ⟨⟨rfl, rfl, fun h => nomatch h⟩, fun _ _ => rfl⟩ (hQ _ _ (.inl (List.mem_cons_of_mem _ List.mem_cons_self))) rfl
    (.cons (show Ok _ (afterInit l) (.iter 0) from rfl) (hQ _ _ (.inr rfl)) ?_ hr))
  rw [step_iter]
  rfl

theorem foo_ok : ∃ g, iternext foo = .ok g := ⟨_, rfl⟩

/-- What a program does with the process whose generated `next` is `code`: a legal history after which calling
`next` on a live iterator is undefined behaviour. -/
def NextCrashes (t : Traits) (bad : Ev Nat → Prop) : Prop := ∃ g h s i, iternext t = .ok g ∧
  Run Lifetime.plain t sample (onBlock 1 g.ops) (fun _ _ => True) (World.init Nat) h s ∧ (s.its i).live = true ∧
  (∃ e ∈ h.map Prod.fst, bad e) ∧ step Lifetime.plain t sample (onBlock 1 g.ops) s (.next i) = .crash

/-- C107: changing the object while it is iterated makes the next call of `next` use an invalid C++ iterator. -/
theorem C107_changed_counterexample : NextCrashes foo (fun e => e = .change 5 (els [10, 20, 30])) := by
  obtain ⟨g, hg⟩ := foo_ok
  refine ⟨g, _, _, 0, hg, (code_eq hg).symm ▸ start_run _ (els [10, 20]) (fun _ _ _ => trivial)
    (.cons (e := .change 5 (els [10, 20, 30])) (o := .unit) (fun h => nomatch h) trivial rfl (.nil _)), ?_, ⟨_, ?_, rfl⟩, ?_⟩
  · rfl
  · simp
  · rw [code_eq hg, step_next]
    rfl

/-- C107: an object given away while it is iterated (`transfer_ownership` makes the wrapper empty) has no end to
compare with. -/
theorem C107_transferred_counterexample : NextCrashes foo (fun e => ∃ f, e = .life (.transfer 0) f) := by
  obtain ⟨g, hg⟩ := foo_ok
  refine ⟨g, _, _, 0, hg, (code_eq hg).symm ▸ start_run _ (els [10, 20]) (fun _ _ _ => trivial)
    (.cons (e := .life (.transfer 0) (fun _ => [])) (o := .unit)
      ⟨⟨rfl, 5, rfl, fun h => nomatch h⟩, fun w h => by rcases h with h | h <;> cases h⟩ trivial rfl (.nil _)), ?_,
    ⟨.life (.transfer 0) (fun _ => []), ?_, _, rfl⟩, ?_⟩
  · rfl
  · exact List.mem_cons_of_mem _ (List.mem_cons_of_mem _ (List.mem_cons_of_mem _ List.mem_cons_self))
  · rw [code_eq hg, step_next]
    rfl

/-- C107: an iterator made by calling its type (`FooIter()`, the type is an attribute of the module) has neither
container nor position. -/
theorem C107_made_by_hand_counterexample : NextCrashes foo (fun e => e = .newIter) := by
  obtain ⟨g, hg⟩ := foo_ok
  refine ⟨g, _, _, 0, hg, .cons (e := .newIter) trivial trivial rfl (.nil _), rfl, ⟨_, List.mem_cons_self, rfl⟩, ?_⟩
  rw [code_eq hg, step_next]
  rfl

/-- C107: iterating an instance whose `__init__` did not run (a Python subclass that does not call it) uses a null
pointer. -/
theorem C107_uninitialised_counterexample : ∃ g h s, iternext foo = .ok g ∧
    Run Lifetime.plain foo sample (onBlock 1 g.ops) (fun _ _ => True) (World.init Nat) h s ∧ (s.base.ws 0).live = true ∧
    step Lifetime.plain foo sample (onBlock 1 g.ops) s (.iter 0) = .crash := by
  refine ⟨_, _, _, rfl, .cons (e := .life .pyNew (fun _ => [])) (o := .unit) (s' := afterNew) ⟨trivial, fun _ _ => rfl⟩ trivial rfl (.nil _), rfl, ?_⟩
  rw [step_iter]
  rfl

/-- A mapping with pointers to wrapped objects as values: the handler returns `None` at once for a null pointer. -/
def pointers : Traits :=
  { mapping with value := fun v => { ops := [.write [tx "if (!(", .text v, tx ")) return None;"]], out := some ("N".toList, [[.text v]]) } }

/-- C107: a null pointer in a mapping: `next` gives `None`, and the key is lost. -/
theorem C107_null_value_counterexample : ∃ e : Elem Nat,
    convert pointers sample e = [some 77] ∧ shown pointers sample e = [some e.key, some 77] :=
  ⟨⟨3, 0⟩, by decide +kernel, by decide +kernel⟩

/-- A mapping with keys of type `char`. -/
def chars : Traits := { mapping with key := some charRet }

/-- C107: a mapping with `char` keys: `next` gives the value in front of the key. -/
theorem C107_char_key_counterexample : (∃ g, iternext chars = .ok g) ∧ ∃ e : Elem Nat,
    convert chars sample e = [some e.val, some e.key] ∧ shown chars sample e = [some e.key, some e.val] :=
  ⟨⟨_, rfl⟩, ⟨3, 4⟩, by decide +kernel, by decide +kernel⟩

/-- The hypotheses of `C107_owner_partial` are met. -/
example : ∃ g h s, iternext foo = .ok g ∧
    Run Lifetime.plain foo sample (onBlock 1 g.ops) (Good Lifetime.plain) (World.init Nat) h s ∧
    Owns s.base 0 5 = true ∧ (s.objs 5).2 = els [10, 20] ∧ Freeable Lifetime.plain := by
  obtain ⟨g, hg⟩ := foo_ok
  refine ⟨g, [(.life .pyNew (fun _ => []), .unit), (.life (.pyInit 0 5 false) (fun _ => els [10, 20]), .unit)],
    afterInit (els [10, 20]), hg, ?_, rfl, rfl, ⟨rfl, fun _ => rfl⟩⟩
  rw [code_eq hg]
  exact .cons (s' := afterNew) (e := .life .pyNew (fun _ => [])) (o := .unit) ⟨trivial, fun _ _ => rfl⟩ trivial rfl
    (.cons (s' := afterInit (els [10, 20])) (e := .life (.pyInit 0 5 false) (fun _ => els [10, 20])) (o := .unit)
      ⟨⟨rfl, rfl, fun h => nomatch h⟩, fun _ _ => rfl⟩ rfl rfl (.nil _))

/-- A run after `iter` as in `C107_owner_partial`. -/
example : ∃ h s, Run Lifetime.plain foo sample (loopOps foo)
      (fun s e => Good Lifetime.plain s e ∧ ((s.its 0).live = true → Quiet Lifetime.plain 0 5 e))
      (afterIter (afterInit (els [10, 20])) 0 5) h s ∧
    nexts 0 h = [.value [some 10], .value [some 20], .stop] ∧ h.length = 7 :=
  ⟨_, _, .cons (e := .next 0) rfl ⟨trivial, fun _ => trivial⟩ rfl
    (.cons (e := .iter 0) rfl ⟨trivial, fun _ => trivial⟩ rfl
    (.cons (e := .next 1) rfl ⟨trivial, fun _ => trivial⟩ rfl
    (.cons (e := .next 0) rfl ⟨trivial, fun _ => trivial⟩ rfl
    (.cons (e := .drop 1) rfl ⟨trivial, fun _ => trivial⟩ rfl
    (.cons (e := .next 0) rfl ⟨trivial, fun _ => trivial⟩ rfl
    (.cons (e := .life (.cppNew 9) (fun _ => els [4])) ⟨rfl, fun w h => by rcases h with h | h <;> cases h⟩
      ⟨trivial, fun _ => (fun h => nomatch h)⟩ rfl (.nil _))))))), rfl, rfl⟩

end Verif.ClassIter
