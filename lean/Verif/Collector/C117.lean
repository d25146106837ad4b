import Verif.Collector.Steps

/-!
# C117: the garbage collector clears exactly what is no longer in use

The statements; what the words mean is in `Verif/Collector/Spec.lean`.
-/
namespace Verif.Collector

/-- Never is an object visited more often than it is referred to: the collector's counts do not become negative. -/
theorem C117_truthful (os : List Op) (h : Legal .empty os) (x : Nat) :
    (State.empty.run os).visits x ≤ (State.empty.run os).refcnt x :=
  visits_le (WF.init.run os h) x

/-- What is in use (referred to from elsewhere, the Python part of an object C++ holds, or referred to by what is in
use) is not cleared.  Missing: classes whose counts cannot be read, see the counterexample below. -/
theorem C117_keeps_partial (os : List Op) (h : Legal .empty os) (x : Nat) (hx : Live (State.empty.run os) x) :
    ¬ Garbage (State.empty.run os) x :=
  fun hg => ((garbage_iff (WF.init.run os h)).mp hg).2 (live_hidden hx)

/-- Exactly what is cleared: what the collector looks at and neither is in use nor is referred to, directly or not,
by an object the collector does not look at. -/
theorem C117_clears (os : List Op) (h : Legal .empty os) (x : Nat) :
    Garbage (State.empty.run os) x ↔
      x ∈ (State.empty.run os).objects ∧ ¬ LiveOrHidden (State.empty.run os) x :=
  garbage_iff (WF.init.run os h)

/-- So if the collector looks at every object that refers to others, it clears exactly what is not in use.  Missing:
wrappers C++ returned and iterators, see the counterexample below. -/
theorem C117_clears_unused_partial (os : List Op) (h : Legal .empty os)
    (ht : ∀ y ∈ (State.empty.run os).ids, (((State.empty.run os).node y).refs) ≠ [] → ((State.empty.run os).node y).tracked = true)
    (x : Nat) : Garbage (State.empty.run os) x ↔ x ∈ (State.empty.run os).objects ∧ ¬ Live (State.empty.run os) x := by
  rw [C117_clears os h x]
  have key : ∀ x, LiveOrHidden (State.empty.run os) x ↔ Live (State.empty.run os) x := by
    intro x
    refine ⟨?_, live_hidden⟩
    intro hl
    induction hl with
    | ext h => exact .ext h
    | held a b c => exact .held a b c
    | @hidden x y hy hf hr =>
      have := ht y hy (List.ne_nil_of_mem hr)
      rw [hf] at this; cases this
    | ref _ hy hr ih => exact .ref ih hy hr
  rw [key x]

/-- What is cleared is freed: afterwards nothing refers to it any more, neither other objects nor instances of helper
classes.  Missing: as for `C117_keeps_partial`. -/
theorem C117_freed_partial (os : List Op) (h : Legal .empty os) (U : Nat → Bool)
    (hU : ∀ x, U x = true ↔ Garbage (State.empty.run os) x) (x : Nat) (hx : U x = true) :
    ((State.empty.run os).collect U).refcnt x = 0 := by
  have hw := WF.init.run os h
  generalize State.empty.run os = s at *
  have hg := (garbage_iff hw).mp ((hU x).mp hx)
  have hh := harmless_garbage hw hU
  have hext : s.ext x = 0 := by
    by_contra hn
    exact hg.2 (.ext (Nat.pos_of_ne_zero hn))
  unfold State.refcnt
  have h1 : ¬ 0 < ((s.collect U).ids.map (fun o => (((s.collect U).node o).refs).count x)).sum := by
    rw [sum_pos_iff]
    rintro ⟨y, hy, hc⟩
    have hc := List.count_pos_iff.mp hc
    by_cases hUy : U y = true
    · rw [show (s.collect U).node y = (s.node y).clear from by
        show (if U y = true then _ else _) = _; rw [if_pos hUy], clear_refs] at hc
      cases hc
    · rw [show (s.collect U).node y = s.node y from by
        show (if U y = true then _ else _) = _; rw [if_neg hUy]] at hc
      apply hg.2
      by_cases ht : (s.node y).tracked = true
      · have hl : LiveOrHidden s y := by
          by_contra hn
          exact hUy ((hU y).mpr ((garbage_iff hw).mpr ⟨mem_objects.mpr ⟨hy, ht⟩, hn⟩))
        exact .ref hl hy hc
      · exact .hidden hy (by simpa using ht) hc
  have h2 : ¬ 0 < ((s.collect U).cids.map (fun c => if ((s.collect U).cobj c).pyself = some x then 1 else 0)).sum := by
    rw [sum_pos_iff]
    rintro ⟨c, hc, hp⟩
    obtain ⟨hc1, hc2⟩ := List.mem_filter.mp hc
    have hp : (s.cobj c).pyself = some x := by
      by_contra hn
      rw [show ((s.collect U).cobj c).pyself = (s.cobj c).pyself from rfl, if_neg hn] at hp
      omega
    rw [destroyed_of hw hh hx hc1 hp] at hc2
    cases hc2
  have h3 : (s.collect U).ext x = 0 := hext
  omega

/-- All other objects are left as they are, and so are the C++ instances of helper classes they belong to. -/
theorem C117_untouched (os : List Op) (h : Legal .empty os) (U : Nat → Bool)
    (hU : ∀ x, U x = true ↔ Garbage (State.empty.run os) x) (x : Nat) (hx : ¬ Garbage (State.empty.run os) x) :
    ((State.empty.run os).collect U).node x = (State.empty.run os).node x ∧
    ∀ c ∈ (State.empty.run os).cids, ((State.empty.run os).cobj c).pyself = some x →
      c ∈ ((State.empty.run os).collect U).cids := by
  have hw := WF.init.run os h
  generalize State.empty.run os = s at *
  have hn : U x ≠ true := fun h => hx ((hU x).mp h)
  refine ⟨by show (if U x = true then _ else _) = _; rw [if_neg hn], ?_⟩
  intro c hc hp
  refine List.mem_filter.mpr ⟨hc, ?_⟩
  cases hd : s.destroyed U c with
  | false => rfl
  | true =>
    exfalso
    obtain ⟨y, hy, hUy, ho⟩ := destroyed_elim hd
    obtain ⟨-, i, -, ⟨k, -, hdy⟩, -⟩ := hw.pyIn c hc x hp
    cases hny : s.node y with
    | inst j =>
      rw [hny] at ho
      have := (hw.owner y hy j hny c ho k hdy).2.1
      rw [hp] at this
      injection this with this
      exact hn (this ▸ hUy)
    | iter t z => rw [hny] at ho; cases ho
    | other r => rw [hny] at ho; cases ho

/-- An object that C++ got from Python, and of which Python has nothing left but what C++ needs, keeps its Python
part: the wrapper is in use. -/
theorem C117_given (os : List Op) (h : Legal .empty os) (x c h' : Nat) (i : Inst) (hx : x ∈ (State.empty.run os).ids)
    (hi : (State.empty.run os).node x = .inst i) (ho : i.obj = some c) (hd : ((State.empty.run os).cobj c).dyn = some h')
    (hs : i.k.policy.counted = false) : Live ((State.empty.run os).step (.transfer x)) x ∧
      ¬ Garbage ((State.empty.run os).step (.transfer x)) x := by
  have hw := WF.init.run os h
  generalize State.empty.run os = s at *
  obtain ⟨a1, a2, -, -⟩ := hw.owner x hx i hi c ho h' hd
  have hw2 : WF (s.step (.transfer x)) := hw.step (o := .transfer x) hx
  have hl : Live (s.step (.transfer x)) x := by
    have e : s.step (.transfer x) = s.give x i c := by
      show (match s.node x with
        | .inst i => match i.obj with
          | some c => s.give x i c
          | none => s
        | _ => s) = _
      rw [hi]; dsimp only; rw [ho]
    rw [e]
    refine .held (c := c) ?_ ?_ ?_
    · unfold State.give; simp only [hs]; exact a1
    · unfold State.give; simp only [hs]; simpa [upd_same] using a2
    · unfold State.give; simp only [hs]; simp [upd_same]
  exact ⟨hl, fun hg => ((garbage_iff hw2).mp hg).2 (live_hidden hl)⟩

/-! ## A history

A Python subclass instance (1) of a class with a helper class keeps itself in its dictionary (2) and is collected;
a second one (3) with the same cycle is given to C++ before. -/

def cls : GCls := ⟨true, some 7, .none, false, true⟩

def story : List Op :=
  [.construct 1 10 cls true, .other 2, .dict 1 (some 2), .change 2 [1],
   .construct 3 30 cls true, .other 4, .dict 3 (some 4), .change 4 [3], .transfer 3,
   .ext 1 0, .ext 2 0, .ext 3 0, .ext 4 0]

theorem cls_sound : cls.Sound := fun _ => ⟨rfl, fun _ => rfl, fun h => by cases h⟩

theorem story_legal : Legal .empty story :=
  ⟨⟨by decide, by decide, by decide, cls_sound⟩, (by decide : 2 ∉ _), ⟨by decide, fun r h => by cases h; decide⟩,
   ⟨by decide, ⟨[], rfl⟩, by decide⟩, ⟨by decide, by decide, by decide, cls_sound⟩, (by decide : 4 ∉ _),
   ⟨by decide, fun r h => by cases h; decide⟩, ⟨by decide, ⟨[], rfl⟩, by decide⟩, (by decide : 3 ∈ _),
   (by decide : 1 ∈ _), (by decide : 2 ∈ _), (by decide : 3 ∈ _), (by decide : 4 ∈ _), trivial⟩

/-- What a collection after this finds. -/
example : (State.empty.run story).objects = [4, 3, 2, 1] ∧
    (State.empty.run story).refcnt 1 = 2 ∧ (State.empty.run story).visits 1 = 2 ∧
    (State.empty.run story).refcnt 3 = 2 ∧ (State.empty.run story).visits 3 = 1 := by decide

example : Live (State.empty.run story) 3 :=
  .held (c := 30) (by decide) (by decide) (by decide)

example : Live (State.empty.run story) 4 :=
  .ref (.held (c := 30) (x := 3) (by decide) (by decide) (by decide)) (by decide) (by decide)

theorem story_live {x : Nat} (h : LiveOrHidden (State.empty.run story) x) : x = 3 ∨ x = 4 := by
  induction h with
  | @ext x h =>
    have hx := (WF.init.run story story_legal).extIn x h
    have : x = 4 ∨ x = 3 ∨ x = 2 ∨ x = 1 := by
      have e : (State.empty.run story).ids = [4, 3, 2, 1] := by decide
      rw [e] at hx; simpa using hx
    rcases this with rfl | rfl | rfl | rfl <;> exact absurd h (by decide)
  | @held x c hc hp hh =>
    have : c = 30 ∨ c = 10 := by
      have e : (State.empty.run story).cids = [30, 10] := by decide
      rw [e] at hc; simpa using hc
    rcases this with rfl | rfl
    · left
      have : ((State.empty.run story).cobj 30).pyself = some 3 := by decide
      rw [this] at hp; injection hp with hp; exact hp.symm
    · exact absurd hh (by decide)
  | @hidden x y hy ht hr =>
    have : y = 4 ∨ y = 3 ∨ y = 2 ∨ y = 1 := by
      have e : (State.empty.run story).ids = [4, 3, 2, 1] := by decide
      rw [e] at hy; simpa using hy
    rcases this with rfl | rfl | rfl | rfl <;> exact absurd ht (by decide)
  | @ref x y _ hy hr ih =>
    rcases ih with rfl | rfl
    · right
      have : ((State.empty.run story).node 3).refs = [4] := by decide
      rw [this] at hr; simpa using hr
    · left
      have : ((State.empty.run story).node 4).refs = [3] := by decide
      rw [this] at hr; simpa using hr

/-- The first object and its dictionary are cleared, the second and its dictionary are not. -/
example : Garbage (State.empty.run story) 1 ∧ Garbage (State.empty.run story) 2 ∧
    ¬ Garbage (State.empty.run story) 3 ∧ ¬ Garbage (State.empty.run story) 4 := by
  have h := story_legal
  refine ⟨(C117_clears _ h 1).mpr ⟨by decide, ?_⟩, (C117_clears _ h 2).mpr ⟨by decide, ?_⟩, ?_, ?_⟩
  · intro hl; rcases story_live hl with h | h <;> cases h
  · intro hl; rcases story_live hl with h | h <;> cases h
  · exact C117_keeps_partial _ h 3 (.held (c := 30) (by decide) (by decide) (by decide))
  · exact C117_keeps_partial _ h 4 (.ref (.held (c := 30) (x := 3) (by decide) (by decide) (by decide)) (by decide) (by decide))

/-- The collector looks at every object of the history. -/
example : ∀ y ∈ (State.empty.run story).ids, ((State.empty.run story).node y).tracked = true := by decide

/-- Before the transfer the second object is as `C117_given` asks. -/
example : ∃ i, (State.empty.run (story.take 8)).node 3 = .inst i ∧ i.obj = some 30 ∧
    ((State.empty.run (story.take 8)).cobj 30).dyn = some 7 ∧ i.k.policy.counted = false :=
  ⟨_, rfl, rfl, rfl, rfl⟩

/-! ## Where it fails -/

/-- `incref_function`, `decref_function` and a `peekref_function`. -/
def counted : GCls := ⟨true, some 7, .functions true, false, true⟩

/-- A Python subclass instance, held by C++ too, that Python no longer refers to. -/
def counting : List Op := [.construct 1 10 counted true, .hold 10 1, .ext 1 0]

/-- The peekref function of `ReferenceCountingFunctionsPolicy` is not used by `tp_traverse` (cppclass.py:2476 looks
only for `ReferenceCountingMethodsPolicy`): although C++ holds the object, and so its Python part is in use, the
collector clears it — the wrapper loses its dictionary and its C++ object.  (Every event is as it should be, but for
the class, whose count `tp_traverse` does not read.) -/
theorem C117_peekref_counterexample :
    Live (State.empty.run counting) 1 ∧ Garbage (State.empty.run counting) 1 ∧
    ((State.empty.run counting).node 1).clear = .inst ⟨counted, true, none, none, true⟩ := by
  refine ⟨.held (c := 10) (by decide) (by decide) (by decide), ⟨by decide, ?_⟩, by decide⟩
  intro hk
  have key : ∀ x, Kept (State.empty.run counting) x → False := by
    intro x hk
    induction hk with
    | @root x hx h =>
      have : x = 1 := by
        have : (State.empty.run counting).objects = [1] := by decide
        rw [this] at hx; simpa using hx
      subst this
      exact absurd h (by decide)
    | visit _ _ _ ih => exact ih
  exact key 1 hk

/-- The only thing wrong with that history is the class. -/
example : ¬ counted.Sound := by
  intro h
  exact absurd ((h rfl).2.2 rfl) (by decide)

/-- A wrapper of an object that C++ returned, kept by its own dictionary. -/
def returned : List Op := [.wrap 1 10 cls true, .other 2, .dict 1 (some 2), .change 2 [1], .ext 1 0, .ext 2 0]

/-- Wrappers that are made with `PyObject_GC_New` are never tracked: a cycle through one is never collected. -/
theorem C117_untracked_counterexample :
    Legal .empty returned ∧ ¬ Live (State.empty.run returned) 1 ∧ ¬ Live (State.empty.run returned) 2 ∧
    (∀ x, ¬ Garbage (State.empty.run returned) x) ∧ (State.empty.run returned).refcnt 1 = 1 ∧
    (State.empty.run returned).refcnt 2 = 1 := by
  have hl : Legal .empty returned :=
    ⟨⟨by decide, by decide, cls_sound⟩, (by decide : 2 ∉ _), ⟨by decide, fun r h => by cases h; decide⟩,
     ⟨by decide, ⟨[], rfl⟩, by decide⟩, (by decide : 1 ∈ _), (by decide : 2 ∈ _), trivial⟩
  have dead : ∀ x, Live (State.empty.run returned) x → False := by
    intro x h
    induction h with
    | @ext x h =>
      have hx := (WF.init.run returned hl).extIn x h
      have : x = 2 ∨ x = 1 := by
        have e : (State.empty.run returned).ids = [2, 1] := by decide
        rw [e] at hx; simpa using hx
      rcases this with rfl | rfl <;> exact absurd h (by decide)
    | held hc _ _ =>
      have e : (State.empty.run returned).cids = [] := by decide
      rw [e] at hc; cases hc
    | ref _ _ _ ih => exact ih
  refine ⟨hl, dead 1, dead 2, ?_, by decide, by decide⟩
  intro x hg
  have hx : x = 2 := by
    have : (State.empty.run returned).objects = [2] := by decide
    have h := hg.1
    rw [this] at h; simpa using h
  subst hx
  exact ((C117_clears _ hl 2).mp hg).2 (.hidden (y := 1) (by decide) (by decide) (by decide))

/-- `tp_dealloc` (cppclass.py:2549-2585) does not untrack the object: while it releases the instance dictionary the
object has no references left and is still seen; a collection started then, by the finalizer of something in the
dictionary, clears it and so releases it a second time.  This is so for every object that is seen. -/
theorem C117_dying_counterexample (os : List Op) (h : Legal .empty os) (x : Nat) (hx : x ∈ (State.empty.run os).objects)
    (hr : (State.empty.run os).refcnt x = 0) :
    x ∈ ((State.empty.run os).collect (fun y => y == x)).objects ∧
    Garbage ((State.empty.run os).collect (fun y => y == x)) x := by
  have hw := WF.init.run os h
  generalize State.empty.run os = s at *
  obtain ⟨hx1, hx2⟩ := mem_objects.mp hx
  have hn : (s.collect (fun y => y == x)).node x = (s.node x).clear := by
    show (if (x == x) = true then _ else _) = _; rw [if_pos (beq_self_eq_true x)]
  have hobj : x ∈ (s.collect (fun y => y == x)).objects := by
    refine mem_objects.mpr ⟨hx1, ?_⟩
    rw [hn]
    cases hnx : s.node x <;> rw [hnx] at hx2 <;> exact hx2
  refine ⟨hobj, ?_⟩
  have hw2 := hw.collect (harmless_free hx1 hr)
  refine (garbage_iff hw2).mpr ⟨hobj, ?_⟩
  obtain ⟨z1, z2, z3⟩ := refcnt_zero hr
  have sub : ∀ y ∈ s.ids, x ∈ ((s.collect (fun y => y == x)).node y).refs → False := by
    intro y hy hm
    by_cases hyx : y = x
    · subst hyx; rw [hn, clear_refs] at hm; cases hm
    · rw [show (s.collect (fun y => y == x)).node y = s.node y from by
        show (if (y == x) = true then _ else _) = _; rw [if_neg (by simpa using hyx)]] at hm
      exact z2 y hy hm
  intro hl
  cases hl with
  | ext h => have : 0 < s.ext x := h; omega
  | held hc hp _ => exact z3 _ (List.mem_filter.mp hc).1 hp
  | hidden hy _ hm => exact sub _ hy hm
  | ref _ hy hm => exact sub _ hy hm

example : 1 ∈ (State.empty.run [.construct 1 10 cls false, .ext 1 0]).objects ∧
    (State.empty.run [.construct 1 10 cls false, .ext 1 0]).refcnt 1 = 0 := by decide

end Verif.Collector
