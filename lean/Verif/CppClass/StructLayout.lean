import Verif.CppClass.Inherit

/-!
# C66: instance structures along inheritance

The C structure of the instances of a wrapped class (cppclass.py:1812-1841).  Methods wrapped for a
class receive, as `self`, instances of any derived class and read them through the structure of the
class the method was wrapped for, so the members must be where that structure says they are.
-/
namespace Verif.CppClass
open Verif

/-- Members of an instance structure.  The type of `obj` is a plain pointer, or the pointer type of
a memory policy that overrides `get_pointer_type` (cppclass.py:101-105; smart_ptr.py), identified by
the policy; the class pointed to is left out (all plain pointers have one size). -/
inductive Member where
  | head
  | obj (pointer : Option Nat)
  | instDict
  | flags
  deriving DecidableEq, Repr

/-- `memory_policy.get_pointer_type`, cppclass.py:1818-1821 and 101-105. -/
def pointerKind : Option Policy → Option Nat
  | some (.custom id) => some id
  | _ => none

/-- The structure written by `generate_forward_declarations`, cppclass.py:1823-1841. -/
def instanceStruct (c : Cls) : List Member :=
  if c.allowSubclassing then [.head, .obj (pointerKind c.policy), .instDict, .flags]
  else [.head, .obj (pointerKind c.policy), .flags]

/-! ## Specification: where a C compiler puts the members -/

/-- Offset of a member: the sizes (padding included) of the members before it. -/
def offsetOf (size : Member → Nat) (m : Member) : List Member → Option Nat
  | [] => none
  | x :: xs => if x = m then some 0 else (offsetOf size m xs).map (size x + ·)

/-- Instances of `c` can be accessed through the structure of `b`: every member of the structure of
`b` is in the structure of `c`, at the same offset, whatever the sizes of the members are. -/
def ReadableAs (b c : Cls) : Prop :=
  ∀ size : Member → Nat, (∀ m, 0 < size m) → ∀ m ∈ instanceStruct b,
    offsetOf size m (instanceStruct c) = offsetOf size m (instanceStruct b)

/-- **C66, exact condition.**  Instances of `c` can be read through the structure of `b` exactly when
both or none may be subclassed from Python and they use the same kind of pointer. -/
theorem C66_exact (b c : Cls) : ReadableAs b c ↔
    c.allowSubclassing = b.allowSubclassing ∧ pointerKind c.policy = pointerKind b.policy := by
  constructor
  · intro h
    have h1 := h (fun _ => 1) (by simp) (.obj (pointerKind b.policy))
      (by unfold instanceStruct; split <;> simp)
    have h2 := h (fun _ => 1) (by simp) .flags (by unfold instanceStruct; split <;> simp)
    refine ⟨?_, ?_⟩
    · cases hb : b.allowSubclassing <;> cases hc : c.allowSubclassing <;>
        simp [instanceStruct, hb, hc, offsetOf] at h2 ⊢
    · cases hb : b.allowSubclassing <;> cases hc : c.allowSubclassing <;>
        simp only [instanceStruct, hb, hc, offsetOf, if_true, if_false, Bool.false_eq_true,
          reduceCtorEq, Member.obj.injEq] at h1 <;> split at h1 <;> first | assumption | simp at h1
  · rintro ⟨h1, h2⟩ size _ m _
    rw [show instanceStruct c = instanceStruct b by unfold instanceStruct; rw [h1, h2]]

/-- **C66, the object pointer.**  Two classes with the same kind of pointer have it at the same place,
whether or not they may be subclassed: methods find the C++ object even when other members have moved. -/
theorem C66_obj (b c : Cls) (hp : pointerKind c.policy = pointerKind b.policy) (size : Member → Nat) :
    offsetOf size (.obj (pointerKind c.policy)) (instanceStruct c) = some (size .head) ∧
    offsetOf size (.obj (pointerKind c.policy)) (instanceStruct b) = some (size .head) := by
  constructor
  · unfold instanceStruct
    split <;> simp [offsetOf]
  · rw [hp]
    unfold instanceStruct
    split <;> simp [offsetOf]

/-- Primary ancestors: the class itself and the first bases of first bases. -/
inductive Primary (w : World) : Nat → Nat → Prop where
  | refl (c : Nat) : Primary w c c
  | up {c b d : Nat} : (w.cls c).bases.head? = some b → Primary w b d → Primary w c d

/-- Constructor calls that leave `allow_subclassing` and smart pointers to the root of a hierarchy
(or repeat the choice of the first base), with a destructor that is not private. -/
def Plain (w : World) (a : CtorArgs) : Prop :=
  ∀ b, ∀ bs, basesOf a.parent = .ok (b :: bs) →
    a.destructor ≠ .priv ∧
    (a.allowSubclassing = none ∨ a.allowSubclassing = some (w.cls b).allowSubclassing) ∧
    pointerKind a.memoryPolicy = none ∧
    ∀ b' ∈ bs, pointerKind (w.cls b').policy = none ∨ (w.cls b).policy ≠ none

/-- Histories all of whose constructor calls are plain. -/
inductive PlainReachable (s : Settings) : World → Prop where
  | start : PlainReachable s []
  | step {w op} : PlainReachable s w → (∀ c ∈ op.mentions, c < w.length) →
      (∀ a, op = .new a → Plain w a) → PlainReachable s (step s w op)

theorem PlainReachable.reachable {s : Settings} {w : World} (h : PlainReachable s w) : Reachable s w := by
  induction h with
  | start => exact .start
  | step _ h1 _ ih => exact .step ih h1

/-- The pointer kind is inherited. -/
theorem pointerKind_inherit {w : World} {g p : Option Policy} (hg : pointerKind g = none) :
    ∀ {bs : List Nat}, (∀ b' ∈ bs, pointerKind (w.cls b').policy = none) →
      inheritPolicy w g bs = .ok p → pointerKind p = none
  | [], _, h => by cases h; exact hg
  | b :: bs, hb, h => by
    unfold inheritPolicy at h
    split at h
    · rename_i q hq
      split at h
      · cases h; rw [← hq]; exact hb b (by simp)
      · cases h
    · exact pointerKind_inherit hg (fun b' hb' => hb b' (by simp [hb'])) h

theorem legacy_pointerKind {a : CtorArgs} {g : Option Policy} (h : legacyPolicy a = .ok g)
    (ha : pointerKind a.memoryPolicy = none) : pointerKind g = none := by
  unfold legacyPolicy at h
  split at h
  · split at h <;> cases h; rfl
  · split at h
    · split at h <;> cases h; rfl
    · split at h
      · split at h <;> cases h; rfl
      · cases h; exact ha

/-- **C66, one declaration (partial: plain declarations).**  A class declared plainly can be read
through the structure of its first base. -/
theorem C66_declaration_partial (s : Settings) (w : World) (a : CtorArgs) (x : Cls)
    (h : newClass s w a = .ok x) (b : Nat) (hb : x.bases.head? = some b) (hp : Plain w a) :
    ReadableAs (w.cls b) x := by
  rw [C66_exact]
  obtain ⟨bs, hbs⟩ : ∃ bs, x.bases = b :: bs := by
    cases hx : x.bases with
    | nil => rw [hx] at hb; cases hb
    | cons y ys => rw [hx] at hb; cases hb; exact ⟨ys, rfl⟩
  have hbase := newClass_bases h
  rw [hbs] at hbase
  obtain ⟨hd, ha, hm, ho⟩ := hp b bs hbase
  have hdef := C52_defaults s w a x h
  refine ⟨?_, ?_⟩
  · rcases ha with ha | ha
    · exact hdef.2.2.1 hd ha b hb
    · exact hdef.2.1 hd _ ha
  · unfold newClass at h
    simp only [bind, Except.bind, hbase] at h
    cases hl : legacyPolicy a with
    | error e => simp [hl] at h
    | ok g =>
      simp only [hl] at h
      cases hi : inheritPolicy w g (b :: bs) with
      | error e => simp [hi] at h
      | ok p =>
        simp only [hi] at h
        have hxp : x.policy = p := by
          cases hs : inheritSubclassing s w (b :: bs) a.allowSubclassing a.destructor with
          | error e => simp [hs] at h
          | ok v => simp only [hs] at h; cases h; rfl
        rw [hxp]
        have hg := legacy_pointerKind hl hm
        unfold inheritPolicy at hi
        split at hi
        · rename_i q hq
          split at hi
          · cases hi; rw [hq]
          · cases hi
        · rename_i hq
          rw [hq]
          refine pointerKind_inherit hg (fun b' hb' => ?_) hi
          rcases ho b' hb' with h | h
          · exact h
          · exact absurd hq h

/-- What hooks and creation functions do not change. -/
theorem struct_of_step {s : Settings} {w : World} {op : Op} (hm : ∀ c ∈ op.mentions, c < w.length)
    (hn : ∀ a, op ≠ .new a) (c : Nat) :
    ((step s w op).cls c).bases = (w.cls c).bases ∧
    ((step s w op).cls c).allowSubclassing = (w.cls c).allowSubclassing ∧
    ((step s w op).cls c).policy = (w.cls c).policy := by
  cases op with
  | new a => exact absurd rfl (hn a)
  | addHook d f =>
    simp only [step]; rw [cls_set (hm d (by simp [Op.mentions]))]; split
    · rename_i e; subst e; exact ⟨rfl, rfl, rfl⟩
    · exact ⟨rfl, rfl, rfl⟩
  | setCreator d f =>
    simp only [step]; rw [cls_set (hm d (by simp [Op.mentions]))]; split
    · rename_i e; subst e; exact ⟨rfl, rfl, rfl⟩
    · exact ⟨rfl, rfl, rfl⟩
  | setPostCreator d f =>
    simp only [step]; rw [cls_set (hm d (by simp [Op.mentions]))]; split
    · rename_i e; subst e; exact ⟨rfl, rfl, rfl⟩
    · exact ⟨rfl, rfl, rfl⟩
  | setHelperDisabled d f =>
    simp only [step]; rw [cls_set (hm d (by simp [Op.mentions]))]; split
    · rename_i e; subst e; exact ⟨rfl, rfl, rfl⟩
    · exact ⟨rfl, rfl, rfl⟩

theorem readableAs_congr {b b' c c' : Cls} (h1 : b'.allowSubclassing = b.allowSubclassing)
    (h2 : b'.policy = b.policy) (h3 : c'.allowSubclassing = c.allowSubclassing)
    (h4 : c'.policy = c.policy) : ReadableAs b' c' ↔ ReadableAs b c := by
  rw [C66_exact, C66_exact, h1, h2, h3, h4]

/-- In plain histories every class can be read through its first base. -/
theorem readable_first_base {s : Settings} {w : World} (h : PlainReachable s w) :
    ∀ c b, (w.cls c).bases.head? = some b → ReadableAs (w.cls b) (w.cls c) := by
  induction h with
  | start => intro c b hb; simp [World.cls] at hb
  | @step w op hw hm hp ih =>
    intro c b hb
    by_cases hn : ∃ a, op = .new a
    · obtain ⟨a, rfl⟩ := hn
      simp only [step] at hb ⊢
      split at hb
      · rename_i x hx
        have hacyc := acyclic_of_reachable hw.reachable
        rcases Nat.lt_trichotomy c w.length with hc | hc | hc
        · rw [cls_append_lt hc] at hb
          have hbc : b < c := hacyc c b (List.mem_of_mem_head? hb)
          rw [cls_append_lt hc, cls_append_lt (by omega)]
          exact ih c b hb
        · subst hc
          rw [cls_append_eq] at hb
          have hbl : b < w.length :=
            hm b (mem_mentions_of_bases (newClass_bases hx) b (List.mem_of_mem_head? hb))
          rw [cls_append_eq, cls_append_lt hbl]
          exact C66_declaration_partial s w a x hx b hb (hp a rfl)
        · rw [cls_ge (by simp; omega)] at hb; simp at hb
      · exact ih c b hb
    · have hn' : ∀ a, op ≠ .new a := fun a e => hn ⟨a, e⟩
      obtain ⟨h1, h2, h3⟩ := struct_of_step (s := s) hm hn' c
      obtain ⟨-, h5, h6⟩ := struct_of_step (s := s) hm hn' b
      rw [h1] at hb
      rw [readableAs_congr h5 h6 h2 h3]
      exact ih c b hb

/-- **C66 (partial: plain declarations, primary ancestors).**  In every history of plain
declarations, instances of a class can be read through the structure of the class itself, of its
first base, of the first base of that, and so on. -/
theorem C66_readable_partial (s : Settings) (w : World) (h : PlainReachable s w) (c d : Nat)
    (hd : Primary w c d) : ReadableAs (w.cls d) (w.cls c) := by
  induction hd with
  | refl c => exact (C66_exact _ _).mpr ⟨rfl, rfl⟩
  | up hb _ ih =>
    have h1 := (C66_exact _ _).mp (readable_first_base h _ _ hb)
    have h2 := (C66_exact _ _).mp ih
    exact (C66_exact _ _).mpr ⟨h1.1.trans h2.1, h1.2.trans h2.2⟩

/-! ## Where it fails -/

/-- Allowing to subclass below a base that does not: `flags` moves, so methods of the base read and
write the instance dictionary as flags. -/
theorem C66_subclassing_counterexample : ∃ w, Reachable {} w ∧ (w.cls 1).bases = [0] ∧
    ¬ ReadableAs (w.cls 0) (w.cls 1) :=
  ⟨step {} (step {} [] (.new {})) (.new { parent := .one 0, allowSubclassing := some true }),
   .step (.step .start (by simp [Op.mentions])) (by intro c hc; simp [Op.mentions] at hc; subst hc; decide),
   by decide, by rw [C66_exact]; decide⟩

/-- A private destructor below a base that can be subclassed: the member `inst_dict` of the base is
missing. -/
theorem C66_destructor_counterexample : ∃ w, Reachable {} w ∧ (w.cls 1).bases = [0] ∧
    (∀ m, offsetOf (fun _ => 1) m (instanceStruct (w.cls 1)) ≠ none → m ≠ .instDict) ∧
    .instDict ∈ instanceStruct (w.cls 0) ∧ ¬ ReadableAs (w.cls 0) (w.cls 1) :=
  ⟨step {} (step {} [] (.new { allowSubclassing := some true })) (.new { parent := .one 0, destructor := .priv }),
   .step (.step .start (by simp [Op.mentions])) (by intro c hc; simp [Op.mentions] at hc; subst hc; decide),
   by decide, by intro m h e; subst e; exact h (by decide), by decide, by rw [C66_exact]; decide⟩

/-- A smart pointer declared below a base with plain pointers: `obj` has another type. -/
theorem C66_pointer_counterexample : ∃ w, Reachable {} w ∧ (w.cls 1).bases = [0] ∧
    ¬ ReadableAs (w.cls 0) (w.cls 1) :=
  ⟨step {} (step {} [] (.new {})) (.new { parent := .one 0, memoryPolicy := some (.custom 7) }),
   .step (.step .start (by simp [Op.mentions])) (by intro c hc; simp [Op.mentions] at hc; subst hc; decide),
   by decide, by rw [C66_exact]; decide⟩

/-- Default settings do not help against a second base. -/
theorem C66_second_base_counterexample : ∃ w, PlainReachable {} w ∧ (w.cls 2).bases = [0, 1] ∧
    ¬ ReadableAs (w.cls 1) (w.cls 2) := by
  refine ⟨step {} (step {} (step {} [] (.new {})) (.new { allowSubclassing := some true }))
    (.new { parent := .many [0, 1] }),
    .step (.step (.step .start (by simp [Op.mentions]) ?_) (by simp [Op.mentions]) ?_) ?_ ?_,
    by decide, by rw [C66_exact]; decide⟩
  · rintro a ⟨⟩ b bs h; cases h
  · rintro a ⟨⟩ b bs h; cases h
  · intro c hc; simp [Op.mentions] at hc; rcases hc with rfl | rfl <;> decide
  · rintro a ⟨⟩ b bs h
    cases h
    refine ⟨by decide, Or.inl rfl, rfl, ?_⟩
    intro b' hb'
    simp only [List.mem_singleton] at hb'
    subst hb'
    exact Or.inl rfl

/-! Non-vacuity: a chain of three classes that can be subclassed. -/

example : ∃ w, PlainReachable {} w ∧ Primary w 2 0 ∧ .instDict ∈ instanceStruct (w.cls 2) := by
  refine ⟨step {} (step {} (step {} [] (.new { allowSubclassing := some true })) (.new { parent := .one 0 }))
    (.new { parent := .one 1 }),
    .step (.step (.step .start (by simp [Op.mentions]) ?_) ?_ ?_) ?_ ?_,
    .up (b := 1) (by decide) (.up (b := 0) (by decide) (.refl 0)), by decide⟩
  · rintro a ⟨⟩ b bs h; cases h
  · intro c hc; simp [Op.mentions] at hc; subst hc; decide
  · rintro a ⟨⟩ b bs h; cases h; exact ⟨by decide, Or.inl rfl, rfl, by simp⟩
  · intro c hc; simp [Op.mentions] at hc; subst hc; decide
  · rintro a ⟨⟩ b bs h; cases h; exact ⟨by decide, Or.inl rfl, rfl, by simp⟩

end Verif.CppClass
