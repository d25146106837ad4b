import Verif.Parser.ClassNotes
import Mathlib.Data.List.Nodup

/-!
# C122: the annotations of a class give its options

Specification: every annotation stands for one option, whatever the others and their order; a class with virtual methods
can be subclassed in Python unless an annotation says otherwise.
-/
namespace Verif.ClassNotes
open Verif Verif.Annot

/-- The text of each annotation. -/
def text : Note → Str
  | .allowSubclassing => "allow_subclassing".toList
  | .isSingleton => "is_singleton".toList
  | .increfMethod => "incref_method".toList
  | .decrefMethod => "decref_method".toList
  | .peekrefMethod => "peekref_method".toList
  | .narrowing => "automatic_type_narrowing".toList
  | .freeFunction => "free_function".toList
  | .increfFunction => "incref_function".toList
  | .decrefFunction => "decref_function".toList
  | .pythonName => "python_name".toList
  | .customName => "custom_name".toList
  | .pygenComment => "pygen_comment".toList
  | .exception => "exception".toList
  | .importFrom => "import_from_module".toList

/-- The value of an annotation, if the class has it. -/
def Notes.find (a : Notes) (k : Note) : Option AVal := a.lookup (text k)

/-- A truth value in an annotation. -/
def truth (v : AVal) : Option Bool :=
  match v with
  | .int i => some (i != 0)
  | .none => none
  | .str s =>
    if lower s = "true".toList ∨ lower s = "on".toList then some true
    else if lower s = "false".toList ∨ lower s = "off".toList then some false else none

theorem truth_eq (v : AVal) : (∃ b, parseBoolean v = .ok b ∧ truth v = some b) ∨
    (∃ e, parseBoolean v = .error e) ∧ truth v = none := by
  cases v with
  | none => exact .inr ⟨⟨_, rfl⟩, rfl⟩
  | int i => exact .inl ⟨_, rfl, rfl⟩
  | str s =>
    unfold parseBoolean truth
    dsimp only
    by_cases h1 : lower s = "false".toList ∨ lower s = "off".toList
    · have h2 : ¬ (lower s = "true".toList ∨ lower s = "on".toList) := by
        rcases h1 with h | h <;> rw [h] <;> decide
      rw [if_pos h1, if_neg h2, if_pos h1]
      exact .inl ⟨_, rfl, rfl⟩
    · rw [if_neg h1]
      by_cases h2 : lower s = "true".toList ∨ lower s = "on".toList
      · rw [if_pos h2, if_pos h2]; exact .inl ⟨_, rfl, rfl⟩
      · rw [if_neg h2, if_neg h2, if_neg h1]; exact .inr ⟨⟨_, rfl⟩, rfl⟩

/-- The annotations that say how instances are released. -/
def isPolicy (name : Str) : Prop := name ∈ [text .increfMethod, text .freeFunction, text .increfFunction]

instance (name : Str) : Decidable (isPolicy name) := by unfold isPolicy; infer_instance

/-- The policy an annotation asks for. -/
def policyOf (a : Notes) (name : Str) (v : AVal) : Policy :=
  if name = text .increfMethod then .methods v ((a.find .decrefMethod).getD .none) ((a.find .peekrefMethod).getD .none)
  else if name = text .freeFunction then .free v
  else .functions v ((a.find .decrefFunction).getD .none)

/-- The annotations that give a name. -/
def isName (name : Str) : Prop := name ∈ [text .customName, text .pythonName]

instance (name : Str) : Decidable (isName name) := by unfold isName; infer_instance

/-- The annotations with a truth value. -/
def isTruth (name : Str) : Prop := name ∈ [text .allowSubclassing, text .isSingleton, text .narrowing]

instance (name : Str) : Decidable (isTruth name) := by unfold isTruth; infer_instance

/-! ## The loop -/

theorem noteOf_text (k : Note) : noteOf (text k) = some k := by cases k <;> decide

theorem noteOf_some {n : Str} {k : Note} (h : noteOf n = some k) : n = text k := by
  have key : ∀ (l : List (Str × Note)), (∀ x ∈ l, x.1 = text x.2) → l.lookup n = some k → n = text k := by
    intro l
    induction l with
    | nil => intro _ h; cases h
    | cons x l ih =>
      intro hx h
      obtain ⟨m, j⟩ := x
      rw [List.lookup_cons] at h
      by_cases e : n = m
      · subst e
        rw [show (n == n) = true from beq_self_eq_true n] at h
        have h : some j = some k := h
        rw [← Option.some.inj h]
        exact hx (n, j) (by simp)
      · rw [show (n == m) = false from beq_eq_false_iff_ne.mpr e] at h
        exact ih (fun x hm => hx x (List.mem_cons_of_mem _ hm)) h
  exact key names (by decide) h

theorem text_inj {k j : Note} : text k = text j ↔ k = j := by
  constructor
  · intro h
    have := noteOf_text k
    rw [h, noteOf_text] at this
    exact (Option.some.inj this).symm
  · rintro rfl; rfl

theorem find_cons (l : Notes) (n : Str) (v : AVal) (k : Note) :
    Notes.find ((n, v) :: l) k = if text k = n then some v else l.find k := by
  unfold Notes.find
  rw [List.lookup_cons]
  by_cases h : text k = n
  · rw [if_pos h, h, beq_self_eq_true]
  · rw [if_neg h, beq_eq_false_iff_ne.mpr h]

instance (n : Str) : Decidable (∀ k, n ≠ text k) :=
  match h : noteOf n with
  | some k => .isFalse (fun h' => h' k (noteOf_some h))
  | none => .isTrue (fun k e => by rw [e, noteOf_text] at h; cases h)

/-- What a list of items gives, starting from `s`. -/
structure Gives (all : Notes) (l : Notes) (s r : Acc) : Prop where
  sub : r.kwargs.allowSubclassing = (s.kwargs.allowSubclassing.or ((l.find .allowSubclassing).bind truth))
  single : r.kwargs.isSingleton = (s.kwargs.isSingleton.or ((l.find .isSingleton).bind truth))
  narrow : r.kwargs.narrowing = (s.kwargs.narrowing.or ((l.find .narrowing).bind truth))
  imp : r.kwargs.importFrom = (s.kwargs.importFrom.or (l.find .importFrom))
  name : r.kwargs.customName = (s.kwargs.customName.or ((l.find? (fun x => isName x.1)).map (·.2)))
  policy : r.kwargs.memoryPolicy =
    (s.kwargs.memoryPolicy.or ((l.find? (fun x => isPolicy x.1)).map (fun x => policyOf all x.1 x.2)))
  exc : r.isException = (s.isException || (l.find .exception).isSome)
  vis : r.kwargs.destructorVisibility = s.kwargs.destructorVisibility
  warn : r.warnings = s.warnings ++ (l.filter (fun x => x.1 = text .pythonName ∨ ∀ k, x.1 ≠ text k)).map (·.1)


theorem setDefault_or {α : Type} (o : Option α) (v : α) : setDefault o v = o.or (some v) := by
  cases o <;> rfl

theorem find_append (l m : Notes) (k : Note) : Notes.find (l ++ m) k = (Notes.find l k).or (Notes.find m k) := by
  induction l with
  | nil => simp [Notes.find]
  | cons x l ih =>
    obtain ⟨n, v⟩ := x
    rw [List.cons_append, find_cons, find_cons]
    split
    · rfl
    · exact ih

theorem bind_or {a b : Option AVal} (h : ∀ v, a = some v → b = none) :
    (a.or b).bind truth = (a.bind truth).or (b.bind truth) := by
  cases a with
  | none => rfl
  | some v => rw [h v rfl]; simp

theorem Gives.trans {all : Notes} {x : Str × AVal} {l : Notes} {s t r : Acc} (hn : ((x :: l).map (·.1)).Nodup)
    (h1 : Gives all [x] s t) (h2 : Gives all l t r) : Gives all (x :: l) s r := by
  have hd : ∀ k v, Notes.find [x] k = some v → Notes.find l k = none := by
    intro k v h
    obtain ⟨n, w⟩ := x
    rw [find_cons] at h
    split at h
    · rename_i e
      have hm := (List.nodup_cons.mp hn).1
      unfold Notes.find
      rw [List.lookup_eq_none_iff]
      rintro ⟨m, u⟩ hx
      rw [bne_iff_ne]
      rintro rfl
      exact hm (List.mem_map.mpr ⟨_, hx, e⟩)
    · cases h
  have hf : ∀ k, Notes.find (x :: l) k = (Notes.find [x] k).or (Notes.find l k) := fun k => find_append [x] l k
  refine ⟨?_, ?_, ?_, ?_, ?_, ?_, ?_, ?_, ?_⟩
  · rw [h2.sub, h1.sub, hf, bind_or (hd _), Option.or_assoc]
  · rw [h2.single, h1.single, hf, bind_or (hd _), Option.or_assoc]
  · rw [h2.narrow, h1.narrow, hf, bind_or (hd _), Option.or_assoc]
  · rw [h2.imp, h1.imp, hf, Option.or_assoc]
  · rw [h2.name, h1.name, Option.or_assoc]
    congr 1
    rw [← List.singleton_append (l := l), List.find?_append]
    cases List.find? (fun x => decide (isName x.1)) [x] <;> rfl
  · rw [h2.policy, h1.policy, Option.or_assoc]
    congr 1
    rw [← List.singleton_append (l := l), List.find?_append]
    cases List.find? (fun x => decide (isPolicy x.1)) [x] <;> rfl
  · rw [h2.exc, h1.exc, hf, Bool.or_assoc]
    congr 1
    cases Notes.find [x] .exception <;> rfl
  · rw [h2.vis, h1.vis]
  · rw [h2.warn, h1.warn, ← List.singleton_append (l := l), List.filter_append, List.map_append, List.append_assoc]

theorem find_one (n : Str) (v : AVal) (k : Note) : Notes.find [(n, v)] k = if text k = n then some v else none :=
  find_cons [] n v k

theorem step_gives (all : Notes) (s : Acc) (x : Str × AVal) :
    (∃ r, apply1 all s x = .ok r ∧ Gives all [x] s r ∧ (isTruth x.1 → (truth x.2).isSome = true)) ∨
    (∃ e, apply1 all s x = .error e) ∧ isTruth x.1 ∧ truth x.2 = none := by
  obtain ⟨n, v⟩ := x
  unfold apply1
  dsimp only
  cases hk : noteOf n with
  | none =>
    have hne : ∀ k, n ≠ text k := fun k e => by rw [e, noteOf_text] at hk; cases hk
    have hne' : ∀ k, text k ≠ n := fun k e => hne k e.symm
    refine .inl ⟨_, rfl, ⟨?_, ?_, ?_, ?_, ?_, ?_, ?_, ?_, ?_⟩, ?_⟩ <;>
      simp [find_one, hne, hne', isName, isPolicy, isTruth]
  | some k =>
    have hnk := noteOf_some hk
    subst hnk
    clear hk
    cases k with
    | allowSubclassing =>
      rcases truth_eq v with ⟨b, h1, h2⟩ | ⟨⟨e, h1⟩, h2⟩
      · rw [h1]
        refine .inl ⟨_, rfl, ⟨?_, ?_, ?_, ?_, ?_, ?_, ?_, ?_, ?_⟩, ?_⟩ <;>
          simp [find_one, text_inj, isName, isPolicy, isTruth, h2, setDefault_or]
      · rw [h1]
        exact .inr ⟨⟨_, rfl⟩, by simp [isTruth], h2⟩
    | isSingleton =>
      rcases truth_eq v with ⟨b, h1, h2⟩ | ⟨⟨e, h1⟩, h2⟩
      · rw [h1]
        refine .inl ⟨_, rfl, ⟨?_, ?_, ?_, ?_, ?_, ?_, ?_, ?_, ?_⟩, ?_⟩ <;>
          simp [find_one, text_inj, isName, isPolicy, isTruth, h2, setDefault_or]
      · rw [h1]
        exact .inr ⟨⟨_, rfl⟩, by simp [isTruth], h2⟩
    | narrowing =>
      rcases truth_eq v with ⟨b, h1, h2⟩ | ⟨⟨e, h1⟩, h2⟩
      · rw [h1]
        refine .inl ⟨_, rfl, ⟨?_, ?_, ?_, ?_, ?_, ?_, ?_, ?_, ?_⟩, ?_⟩ <;>
          simp [find_one, text_inj, isName, isPolicy, isTruth, h2, setDefault_or]
      · rw [h1]
        exact .inr ⟨⟨_, rfl⟩, by simp [isTruth], h2⟩
    | _ =>
      refine .inl ⟨_, rfl, ⟨?_, ?_, ?_, ?_, ?_, ?_, ?_, ?_, ?_⟩, ?_⟩ <;>
        simp [find_one, text_inj, isName, isPolicy, isTruth, setDefault_or, Acc.policy, Acc.name, policyOf] <;> rfl

theorem loop_gives (all l : Notes) : ∀ (s : Acc), (l.map (·.1)).Nodup →
    (∃ r, applyLoop all s l = .ok r ∧ Gives all l s r ∧ ∀ x ∈ l, isTruth x.1 → (truth x.2).isSome = true) ∨
    (∃ e, applyLoop all s l = .error e) ∧ ∃ x ∈ l, isTruth x.1 ∧ truth x.2 = none := by
  induction l with
  | nil =>
    intro s _
    exact .inl ⟨s, rfl, ⟨by simp [Notes.find], by simp [Notes.find], by simp [Notes.find], by simp [Notes.find], by simp,
      by simp, by simp [Notes.find], rfl, by simp⟩, by simp⟩
  | cons x l ih =>
    intro s hn
    unfold applyLoop
    rcases step_gives all s x with ⟨t, h1, h2, h3⟩ | ⟨⟨e, h1⟩, h2⟩
    · rw [h1]
      dsimp only
      rcases ih t (List.nodup_cons.mp hn).2 with ⟨r, g1, g2, g3⟩ | ⟨⟨e, g1⟩, y, hy, g2⟩
      · refine .inl ⟨r, g1, Gives.trans hn h2 g2, ?_⟩
        intro y hy
        rcases List.mem_cons.mp hy with rfl | hy
        · exact h3
        · exact g3 y hy
      · exact .inr ⟨⟨e, g1⟩, y, List.mem_cons_of_mem _ hy, g2⟩
    · rw [h1]
      exact .inr ⟨⟨e, rfl⟩, x, by simp, h2⟩

/-! ## The property -/

/-- **C122** Every option of a class is the one its annotations name: for every class and all annotations. -/
theorem C122_options (f : Facts) (a : Notes) (hn : (a.map (·.1)).Nodup) (r : Acc)
    (h : applyClassAnnotations f a = .ok r) :
    r.kwargs.allowSubclassing = ((a.find .allowSubclassing).bind truth).or
      (if f.full = true ∧ f.hasVirtual = true ∧ f.hasBases = false then some true else none) ∧
    r.kwargs.isSingleton = (a.find .isSingleton).bind truth ∧
    r.kwargs.narrowing = (a.find .narrowing).bind truth ∧
    r.kwargs.importFrom = a.find .importFrom ∧
    r.kwargs.customName = (a.find? (fun x => isName x.1)).map (·.2) ∧
    r.kwargs.memoryPolicy = (a.find? (fun x => isPolicy x.1)).map (fun x => policyOf a x.1 x.2) ∧
    r.kwargs.destructorVisibility = (if f.full = true ∧ f.destructor ≠ .pub then some f.destructor else none) ∧
    r.isException = (a.find .exception).isSome ∧
    r.warnings = (a.filter (fun x => x.1 = text .pythonName ∨ ∀ k, x.1 ≠ text k)).map (·.1) := by
  unfold applyClassAnnotations at h
  rcases loop_gives a a {} hn with ⟨q, h1, g, -⟩ | ⟨⟨e, h1⟩, -⟩
  · rw [h1] at h
    have h : { q with kwargs := defaults f q.kwargs } = r := Except.ok.inj h
    subst h
    obtain ⟨full, virt, bases, d⟩ := f
    have e1 := g.sub; have e2 := g.single; have e3 := g.narrow; have e4 := g.imp; have e5 := g.name
    have e6 := g.policy; have e7 := g.exc; have e8 := g.vis; have e9 := g.warn
    simp only [Option.none_or, Bool.false_or, List.nil_append] at e1 e2 e3 e4 e5 e6 e7 e8 e9
    rw [← e1, ← e2, ← e3, ← e4, ← e5, ← e6, ← e7, ← e9]
    unfold defaults
    cases full <;> cases virt <;> cases bases <;> cases d <;> simp [setDefault_or, e8]
  · rw [h1] at h; cases h

/-- **C122** The annotations are refused exactly if one that needs a truth value has something else. -/
theorem C122_refused_iff (f : Facts) (a : Notes) (hn : (a.map (·.1)).Nodup) :
    (∃ e, applyClassAnnotations f a = .error e) ↔ ∃ x ∈ a, isTruth x.1 ∧ truth x.2 = none := by
  unfold applyClassAnnotations
  rcases loop_gives a a {} hn with ⟨q, h1, -, h2⟩ | ⟨⟨e, h1⟩, h2⟩
  · rw [h1]
    constructor
    · rintro ⟨e, h⟩; cases h
    · rintro ⟨x, hx, h3, h4⟩
      have := h2 x hx h3
      rw [h4] at this; cases this
  · rw [h1]
    exact ⟨fun _ => h2, fun _ => ⟨e, rfl⟩⟩

theorem lookup_perm {a b : Notes} (hp : a.Perm b) (hn : (a.map (·.1)).Nodup) (k : Note) : a.find k = b.find k := by
  have hb : (b.map (·.1)).Nodup := (hp.map _).nodup_iff.mp hn
  have key : ∀ (l : Notes), (l.map (·.1)).Nodup → ∀ v, l.find k = some v ↔ (text k, v) ∈ l := by
    intro l
    induction l with
    | nil => intro _ v; simp [Notes.find]
    | cons x l ih =>
      intro hl v
      obtain ⟨n, w⟩ := x
      rw [find_cons]
      have hm := List.nodup_cons.mp hl
      by_cases e : text k = n
      · rw [if_pos e]
        subst e
        constructor
        · intro h; rw [Option.some.inj h]; simp
        · intro h
          rcases List.mem_cons.mp h with h | h
          · have := congrArg Prod.snd h; simpa using this.symm
          · exact absurd (List.mem_map.mpr ⟨_, h, rfl⟩) hm.1
      · rw [if_neg e, ih hm.2]
        simp only [List.mem_cons, Prod.mk.injEq]
        exact ⟨.inr, fun h => h.elim (fun h => absurd h.1 e) id⟩
  apply Option.ext
  intro v
  rw [key a hn, key b hb, hp.mem_iff]

theorem find?_perm {a b : Notes} {p : Str × AVal → Bool} (hp : a.Perm b)
    (h1 : ∀ x ∈ a, ∀ y ∈ a, p x = true → p y = true → x = y) : a.find? p = b.find? p := by
  cases ha : a.find? p with
  | none =>
    symm
    rw [List.find?_eq_none] at ha ⊢
    exact fun x hx => ha x (hp.mem_iff.mpr hx)
  | some x =>
    cases hb : b.find? p with
    | none =>
      rw [List.find?_eq_none] at hb
      exact absurd (List.find?_some ha) (hb x (hp.mem_iff.mp (List.mem_of_find?_eq_some ha)))
    | some y =>
      rw [h1 x (List.mem_of_find?_eq_some ha) y (hp.mem_iff.mpr (List.mem_of_find?_eq_some hb)) (List.find?_some ha)
        (List.find?_some hb)]

/-- **C122** The order of the annotations does not matter, if at most one says how instances are released and at most one
gives a name. -/
theorem C122_order_partial (f : Facts) (a b : Notes) (hp : a.Perm b) (hn : (a.map (·.1)).Nodup)
    (h1 : ∀ x ∈ a, ∀ y ∈ a, isPolicy x.1 → isPolicy y.1 → x = y) (h2 : ∀ x ∈ a, ∀ y ∈ a, isName x.1 → isName y.1 → x = y)
    (r : Acc) (h : applyClassAnnotations f a = .ok r) :
    ∃ q, applyClassAnnotations f b = .ok q ∧ q.kwargs = r.kwargs ∧ q.isException = r.isException := by
  have hb : (b.map (·.1)).Nodup := (hp.map _).nodup_iff.mp hn
  cases hq : applyClassAnnotations f b with
  | error e =>
    obtain ⟨x, hx, h3⟩ := (C122_refused_iff f b hb).mp ⟨e, hq⟩
    obtain ⟨e', he⟩ := (C122_refused_iff f a hn).mpr ⟨x, hp.mem_iff.mpr hx, h3⟩
    rw [he] at h; cases h
  | ok q =>
    refine ⟨q, rfl, ?_⟩
    obtain ⟨a1, a2, a3, a4, a5, a6, a7, a8, -⟩ := C122_options f a hn r h
    obtain ⟨b1, b2, b3, b4, b5, b6, b7, b8, -⟩ := C122_options f b hb q hq
    have hf := lookup_perm hp hn
    have hpol : (fun (x : Str × AVal) => policyOf a x.1 x.2) = fun x => policyOf b x.1 x.2 := by
      funext x; unfold policyOf; rw [hf, hf, hf]
    rw [← find?_perm hp (by simpa using h2)] at b5
    rw [← find?_perm hp (by simpa using h1), ← hpol] at b6
    rw [hf] at a1 a2 a3 a4 a8
    refine ⟨?_, by rw [a8, b8]⟩
    have : ∀ k j : Kwargs, k.allowSubclassing = j.allowSubclassing → k.isSingleton = j.isSingleton →
        k.memoryPolicy = j.memoryPolicy → k.narrowing = j.narrowing → k.customName = j.customName →
        k.importFrom = j.importFrom → k.destructorVisibility = j.destructorVisibility → k = j := by
      rintro ⟨⟩ ⟨⟩ h1 h2 h3 h4 h5 h6 h7
      cases h1; cases h2; cases h3; cases h4; cases h5; cases h6; cases h7; rfl
    exact this _ _ (by rw [a1, b1]) (by rw [a2, b2]) (by rw [a6, b6]) (by rw [a3, b3]) (by rw [a5, b5]) (by rw [a4, b4])
      (by rw [a7, b7])

/-- Counterexample: of two annotations about the memory of instances the first one wins. -/
theorem C122_order_counterexample :
    let f : Facts := ⟨true, false, false, .pub⟩
    let x : Str × AVal := ("incref_method".toList, .str "Ref".toList)
    let y : Str × AVal := ("free_function".toList, .str "foo_free".toList)
    (applyClassAnnotations f [x, y]).toOption.map (·.kwargs.memoryPolicy) =
      some (some (.methods (.str "Ref".toList) .none .none)) ∧
    (applyClassAnnotations f [y, x]).toOption.map (·.kwargs.memoryPolicy) =
      some (some (.free (.str "foo_free".toList))) := by
  refine ⟨by decide, by decide⟩

/-- **C122** A counted class gets both its functions if both are annotated. -/
theorem C122_counted_partial (f : Facts) (a : Notes) (hn : (a.map (·.1)).Nodup) (r : Acc)
    (h : applyClassAnnotations f a = .ok r) (i d : AVal) (hi : (text .increfMethod, i) ∈ a) (hd : a.find .decrefMethod = some d)
    (h1 : ∀ x ∈ a, ∀ y ∈ a, isPolicy x.1 → isPolicy y.1 → x = y) :
    r.kwargs.memoryPolicy = some (.methods i d ((a.find .peekrefMethod).getD .none)) := by
  obtain ⟨-, -, -, -, -, h6, -⟩ := C122_options f a hn r h
  have hp : isPolicy (text .increfMethod) := by simp [isPolicy]
  have : a.find? (fun x => isPolicy x.1) = some (text .increfMethod, i) := by
    cases hf : a.find? (fun x => decide (isPolicy x.1)) with
    | none =>
      rw [List.find?_eq_none] at hf
      exact absurd (by simpa using hp) (hf _ hi)
    | some x =>
      have hx := List.find?_some hf
      rw [h1 x (List.mem_of_find?_eq_some hf) _ hi (by simpa using hx) hp]
  rw [h6, this]
  simp [policyOf, hd]

/-- Counterexample: `incref_method` alone makes a policy whose other method is `None` (the generated code calls
`tmp->None()`); `decref_method` alone is dropped without a warning. -/
theorem C122_single_counterexample :
    let f : Facts := ⟨true, false, false, .pub⟩
    (applyClassAnnotations f [("incref_method".toList, .str "Ref".toList)]).toOption.map (·.kwargs.memoryPolicy) =
      some (some (.methods (.str "Ref".toList) .none .none)) ∧
    applyClassAnnotations f [("decref_method".toList, .str "Unref".toList)] = .ok {} := by
  refine ⟨by decide, by decide⟩

/-! ## Exceptions -/

theorem addException_ok (k : Kwargs) : (∃ n, addException k = .ok n) ↔
    k.allowSubclassing = none ∧ k.isSingleton = none ∧ k.memoryPolicy = none ∧ k.narrowing = none ∧
      k.importFrom = none ∧ k.destructorVisibility = none := by
  unfold addException
  split
  · rename_i h; exact ⟨fun _ => h, fun _ => ⟨_, rfl⟩⟩
  · rename_i h
    exact ⟨fun ⟨n, hn⟩ => (by cases hn), fun h' => absurd h' h⟩

/-- **C122** Exactly which classes annotated as exceptions can be registered: those with no other option than a name, a
public destructor, and without virtual methods of their own unless they have base classes. -/
theorem C122_exception_iff (f : Facts) (a : Notes) (hn : (a.map (·.1)).Nodup) (hf : f.full = true) (r : Acc)
    (h : applyClassAnnotations f a = .ok r) :
    (∃ n, addException r.kwargs = .ok n) ↔
      (a.find .allowSubclassing).bind truth = none ∧ (f.hasVirtual = true → f.hasBases = true) ∧
      (a.find .isSingleton).bind truth = none ∧ (a.find .narrowing).bind truth = none ∧ a.find .importFrom = none ∧
      (∀ x ∈ a, ¬ isPolicy x.1) ∧ f.destructor = .pub := by
  obtain ⟨h1, h2, h3, h4, -, h6, h7, -⟩ := C122_options f a hn r h
  rw [addException_ok, h1, h2, h3, h4, h6, h7]
  have e6 : (a.find? (fun x => isPolicy x.1)).map (fun x => policyOf a x.1 x.2) = none ↔ ∀ x ∈ a, ¬ isPolicy x.1 := by
    rw [Option.map_eq_none_iff, List.find?_eq_none]
    simp
  rw [e6]
  obtain ⟨full, virt, bases, d⟩ := f
  dsimp only at hf ⊢
  subst hf
  cases (a.find .allowSubclassing).bind truth <;> cases virt <;> cases bases <;> cases d <;> simp <;> tauto

/-- Counterexample: an exception class with a virtual method, such as `what`, and no base class stops the scan. -/
theorem C122_exception_counterexample :
    ∃ r, applyClassAnnotations ⟨true, true, false, .pub⟩ [("exception".toList, .none)] = .ok r ∧ r.isException = true ∧
      addException r.kwargs = .error .typeError := ⟨_, rfl, rfl, rfl⟩

/-! ## Subclassing -/

/-- A class without annotations, with its base classes. -/
inductive Cls where
  | mk (hasVirtual : Bool) (destructor : Vis) (bases : List Cls)

mutual
/-- `allow_subclassing` of a class scanned without annotations. -/
def Cls.allow : Cls → PyRes Bool
  | .mk v d bs => match allows bs with
    | .error e => .error e
    | .ok l => match applyClassAnnotations ⟨true, v, !bs.isEmpty, d⟩ [] with
      | .error e => .error e
      | .ok r => allowSubclassing r.kwargs l
def allows : List Cls → PyRes (List Bool)
  | [] => .ok []
  | c :: l => match c.allow with
    | .error e => .error e
    | .ok b => match allows l with
      | .error e => .error e
      | .ok bs => .ok (b :: bs)
end

mutual
/-- The class has virtual methods. -/
def Cls.polymorphic : Cls → Bool
  | .mk v _ bs => v || anyPolymorphic bs
def anyPolymorphic : List Cls → Bool
  | [] => false
  | c :: l => c.polymorphic || anyPolymorphic l
end

/-- The classes reached by first bases end in one with virtual methods, and none has a private destructor. -/
inductive FirstLine : Cls → Prop where
  | root {d : Vis} : d ≠ .priv → FirstLine (.mk true d [])
  | derived {v : Bool} {d : Vis} {b : Cls} {bs : List Cls} : d ≠ .priv → FirstLine b → FirstLine (.mk v d (b :: bs))

mutual
theorem allow_ok : ∀ (c : Cls), ∃ b, c.allow = .ok b
  | .mk v d bs => by
    obtain ⟨l, hl⟩ := allows_ok bs
    unfold Cls.allow
    rw [hl]
    cases v <;> cases bs <;> cases d <;>
      simp [applyClassAnnotations, applyLoop, defaults, allowSubclassing, setDefault, Except.map, allows] at hl ⊢
theorem allows_ok : ∀ (l : List Cls), ∃ bs, allows l = .ok bs
  | [] => ⟨[], by unfold allows; rfl⟩
  | c :: l => by
    obtain ⟨b, hb⟩ := allow_ok c
    obtain ⟨bs, hbs⟩ := allows_ok l
    exact ⟨b :: bs, by unfold allows; rw [hb]; dsimp only; rw [hbs]⟩
end

/-- **C122** Exactly which classes without annotations can be subclassed in Python. -/
theorem C122_subclassable_iff : ∀ (c : Cls), c.allow = .ok true ↔ FirstLine c
  | .mk v d [] => by
    unfold Cls.allow allows
    constructor
    · intro h
      cases v with
      | false => cases d <;> simp [applyClassAnnotations, applyLoop, defaults, allowSubclassing, setDefault, Except.map] at h
      | true =>
        cases d with
        | priv => simp [applyClassAnnotations, applyLoop, defaults, allowSubclassing, setDefault, Except.map] at h
        | pub => exact .root (by decide)
        | prot => exact .root (by decide)
    · intro h
      cases h with
      | root hd => cases d <;> first | exact absurd rfl hd | rfl
  | .mk v d (b :: bs) => by
    have ih := C122_subclassable_iff b
    obtain ⟨x, hx⟩ := allow_ok b
    obtain ⟨l, hl⟩ := allows_ok bs
    have e : (Cls.mk v d (b :: bs)).allow = .ok (match d with | .priv => false | _ => x) := by
      unfold Cls.allow allows
      rw [hx]; dsimp only; rw [hl]; dsimp only
      cases v <;> cases d <;> rfl
    rw [e]
    rw [hx] at ih
    constructor
    · intro h
      cases d with
      | priv => cases h
      | pub => exact .derived (by decide) (ih.mp h)
      | prot => exact .derived (by decide) (ih.mp h)
    · intro h
      cases h with
      | derived hd hb =>
        have := ih.mpr hb
        cases d <;> first | exact absurd rfl hd | exact this

/-- Counterexample: a class with virtual methods of its own, whose base class has none, cannot be subclassed. -/
theorem C122_base_counterexample :
    let c : Cls := .mk true .pub [.mk false .pub []]
    c.polymorphic = true ∧ c.allow = .ok false := ⟨by decide, rfl⟩

/-- Counterexample: nor can a class whose second base class only has virtual methods. -/
theorem C122_second_counterexample :
    let c : Cls := .mk false .pub [.mk false .pub [], .mk true .pub []]
    c.polymorphic = true ∧ c.allow = .ok false := ⟨by decide, rfl⟩

/-! ## Cases -/

/-- A counted class with a name and an unknown annotation. -/
example :
    let a : Notes := [("incref_method".toList, .str "Ref".toList), ("custom_name".toList, .str "F".toList),
      ("decref_method".toList, .str "Unref".toList), ("colour".toList, .none), ("allow_subclassing".toList, .str "Off".toList)]
    (a.map (·.1)).Nodup ∧ applyClassAnnotations ⟨true, true, false, .prot⟩ a = .ok
      ⟨{ allowSubclassing := some false, memoryPolicy := some (.methods (.str "Ref".toList) (.str "Unref".toList) .none),
         customName := some (.str "F".toList), destructorVisibility := some .prot }, false, ["colour".toList]⟩ := by
  refine ⟨by decide, by decide⟩

example : FirstLine (.mk false .pub [.mk true .prot []]) := .derived (by decide) (.root (by decide))

example : ∃ r, applyClassAnnotations ⟨true, false, false, .pub⟩ [("exception".toList, .none)] = .ok r ∧
    addException r.kwargs = .ok none := ⟨_, rfl, rfl⟩

end Verif.ClassNotes
