import Verif.Parser.NotesMethods

/-! # C84: annotations of functions and classes -/
namespace Verif.Scan
open Verif Verif.Pygen
open Verif.Annot (ODict)

/-! ## Functions -/

theorem functionStep_keyed (exc : Str → Option Str) : Keyed (functionStep exc) id := by
  intro n v e h
  unfold functionStep at h
  iterate 7
    split at h
    · cases h; exact Or.inl rfl
  split at h
  · exact assign_keyed h
  split at h
  · exact assign_keyed h
  · cases h; exact Or.inl rfl

def functionKnown : List Str := ["as_method".toList, "of_class".toList, "name".toList, "ignore".toList,
  "is_constructor_of".toList, "pygen_comment".toList, "template_instance_names".toList, "unblock_threads".toList,
  "throw".toList]

theorem functionStep_unblock {exc : Str → Option Str} {v : Option Str} {e : Effect}
    (h : functionStep exc "unblock_threads".toList v = .ok e) (w : PyVal) :
    ("unblock_threads".toList, w) ∈ e.1 ↔ BoolValue v w := by
  unfold functionStep at h
  rw [if_neg (by decide), if_neg (by decide), if_neg (by decide), if_neg (by decide), if_neg (by decide), if_neg (by decide),
    if_neg (by decide), if_pos rfl] at h
  obtain ⟨w', hw, rfl⟩ := assign_iff.mp h
  rw [← boolArg_iff, hw]
  simp [eq_comm]

theorem functionStep_throw {exc : Str → Option Str} {v : Option Str} {e : Effect}
    (h : functionStep exc "throw".toList v = .ok e) (w : PyVal) :
    ("throw".toList, w) ∈ e.1 ↔ ∃ s l, v = some s ∧ allSome exc (splitOn ',' s) = some l ∧ w = .refs l := by
  unfold functionStep at h
  rw [if_neg (by decide), if_neg (by decide), if_neg (by decide), if_neg (by decide), if_neg (by decide), if_neg (by decide),
    if_neg (by decide), if_neg (by decide), if_pos rfl] at h
  obtain ⟨w', hw, rfl⟩ := assign_iff.mp h
  rw [← throwArg_iff, hw]
  simp [eq_comm]

/-- The lines a function writes. -/
theorem noLine_unless {f : FunDecl} {ok : Bool} {l l' : Line} {evs : List Ev} (h : emit f ok l = .ok evs)
    (hl : Ev.item (.line l') ∈ evs) : l' = l := by
  obtain ⟨c, hc, rfl⟩ := map_ok h
  rcases List.mem_append.mp hl with hl | hl
  · exact absurd hl (noLine_comment hc l')
  · rcases List.mem_cons.mp hl with hl | hl
    · cases hl; rfl
    · split at hl
      · cases List.mem_singleton.mp hl
      · cases hl

/-- The keyword arguments that do not come from annotations other than `name`. -/
def functionKeys : List Str := ["template_parameters".toList, "custom_name".toList, "deprecated".toList]

theorem get_functionKw_ne (f : FunDecl) (custom : Option Str) (kw : Kw) {k : Str} (hk : k ∉ functionKeys) :
    ODict.get (functionKw f custom kw) k = ODict.get kw k := by
  have ne : ∀ x ∈ functionKeys, x ≠ k := fun x hx e => hk (e ▸ hx)
  unfold functionKw
  simp only
  rw [get_setIf_ne _ _ _ _ (ne _ (by decide)), get_setName_ne _ _ _ _ (ne _ (by decide))]
  have h1 : ∀ kw : Kw, ODict.get (setCustom kw custom) k = ODict.get kw k := by
    intro kw
    unfold setCustom
    split
    · rw [Annot.get_set, if_neg (ne _ (by decide))]
    · rfl
  have h2 : ∀ kw : Kw, ODict.get (setTemplates kw f.tmpl) k = ODict.get kw k := by
    intro kw
    unfold setTemplates
    split
    · rw [Annot.get_set, if_neg (ne _ (by decide))]
    · rfl
  rw [h1, h2]

theorem get_functionKw_name (f : FunDecl) (custom : Option Str) (kw : Kw) {c : Char} {s : Str}
    (h : getNone f.globals "name".toList = some (c :: s)) :
    ODict.get (functionKw f custom kw) "custom_name".toList = some (.str (c :: s)) := by
  unfold functionKw
  simp only
  rw [get_setIf_ne _ _ _ _ (by decide), h, setName, Annot.get_set, if_pos rfl]

/-- **C84** for functions that stay functions: return type and parameters with what their annotations stand for,
`unblock_threads` as annotated, the name if one is annotated, and the exceptions as annotated unless the declaration has
some; annotations that mean nothing are reported. -/
theorem C84_function_partial {env : Env} {f : FunDecl} {evs : List Ev} {n : Str} {ret : Spec} {ps : List Spec} {kw : Kw}
    (hn : (f.globals.map (·.1)).Nodup) (h : scanFunction env f = .ok evs)
    (hl : Ev.item (.line (.func false n ret ps kw)) ∈ evs) :
    n = f.name ∧
    (∃ ws a, lookupReturn env.num f.ret a = .ok (ret, ws) ∧ (∀ w ∈ ws, Ev.warn w ∈ evs) ∧
      (getNone f.globals "is_constructor_of".toList = none → a = annsOf f.params "return".toList)) ∧
    (∃ ok ws, funArgs env f.params false 0 f.args = .ok (ps, ok, ws) ∧ ∀ w ∈ ws, Ev.warn w ∈ evs) ∧
    (∀ w, ODict.get kw "unblock_threads".toList = some w ↔ ∃ v, ("unblock_threads".toList, v) ∈ f.globals ∧ BoolValue v w) ∧
    (∀ c s, getNone f.globals "name".toList = some (c :: s) → ODict.get kw "custom_name".toList = some (.str (c :: s))) ∧
    (found f.throws = [] → ∀ w, ODict.get kw "throw".toList = some w ↔
      ∃ s l, ("throw".toList, some s) ∈ f.globals ∧ allSome env.exc (splitOn ',' s) = some l ∧ w = .refs l) ∧
    (found f.throws ≠ [] → ODict.get kw "throw".toList = some (.refs (found f.throws))) ∧
    (∀ x v, (x, v) ∈ f.globals → x ∉ functionKnown → Ev.warn (.annotation x) ∈ evs) := by
  unfold scanFunction at h
  obtain ⟨g, hg, h⟩ := bind_ok h
  split at h
  · cases h; exact absurd hl (noLine_warns _ _)
  obtain ⟨rt, hret, h⟩ := bind_ok h
  obtain ⟨ro, hro, h⟩ := bind_ok h
  obtain ⟨pl, hps, h⟩ := bind_ok h
  obtain ⟨e2, he2, rfl⟩ := map_ok h
  have hl2 : Ev.item (.line (.func false n ret ps kw)) ∈ e2 := by
    rcases List.mem_append.mp hl with hl | hl
    · exact absurd hl (noLine_warns _ _)
    · exact hl
  have hw : ∀ w ∈ g.2 ++ rt.2 ++ ro.2 ++ pl.2.2 ++ notFound f.throws, Ev.warn w ∈ warns (g.2 ++ rt.2 ++ ro.2 ++ pl.2.2 ++
      notFound f.throws) ++ e2 := fun w hw => List.mem_append_left _ (List.mem_map.mpr ⟨w, hw, rfl⟩)
  unfold emitFunction at he2
  split at he2
  · split at he2
    · cases he2
    split at he2
    · cases he2
    · cases noLine_unless he2 hl2
  rename_i ham
  split at he2
  · split at he2
    · cases he2
    · cases noLine_unless he2 hl2
  rename_i hco
  obtain ⟨custom, hcu, he2⟩ := bind_ok he2
  cases noLine_unless he2 hl2
  have kws := fun k w => loop_get_name (functionStep_keyed env.exc) hg hn k w
  rw [ham] at hps
  refine ⟨rfl, ⟨rt.2, _, hret, fun w hw' => hw w (by simp [hw']), ?_⟩,
    ⟨pl.2.1, pl.2.2, hps, fun w hw' => hw w (by simp [hw'])⟩, ?_, ?_, ?_, ?_, ?_⟩
  · intro h; rw [h]
  · intro w
    rw [get_functionKw_ne _ _ _ (by decide), get_setThrow_ne _ _ _ (by decide), kws]
    constructor
    · rintro ⟨v, hv, e, he, hm⟩
      exact ⟨v, hv, (functionStep_unblock he w).mp hm⟩
    · rintro ⟨v, hv, hb⟩
      obtain ⟨e, he⟩ := loop_step hg _ hv
      exact ⟨v, hv, e, he, (functionStep_unblock he w).mpr hb⟩
  · intro c s hc
    exact get_functionKw_name f custom _ hc
  · intro hf w
    rw [get_functionKw_ne _ _ _ (by decide), setThrow, if_pos hf, kws]
    constructor
    · rintro ⟨v, hv, e, he, hm⟩
      obtain ⟨s, l, rfl, h1, h2⟩ := (functionStep_throw he w).mp hm
      exact ⟨s, l, hv, h1, h2⟩
    · rintro ⟨s, l, hv, h1, h2⟩
      obtain ⟨e, he⟩ := loop_step hg _ hv
      exact ⟨_, hv, e, he, (functionStep_throw he w).mpr ⟨s, l, rfl, h1, h2⟩⟩
  · intro hf
    rw [get_functionKw_ne _ _ _ (by decide), setThrow, if_neg hf, Annot.get_set, if_pos rfl]
  · intro x v hx hk
    refine hw _ ?_
    have : Warn.annotation x ∈ g.2 := by
      rw [loop_warn hg]
      obtain ⟨e, he⟩ := loop_step hg _ hx
      refine Or.inr ⟨(x, v), hx, e, he, ?_⟩
      unfold functionKnown at hk
      simp only [List.mem_cons, List.not_mem_nil, or_false, not_or] at hk
      obtain ⟨h1, h2, h3, h4, h5, h6, h7, h8, h9⟩ := hk
      unfold functionStep at he
      rw [if_neg h1, if_neg h2, if_neg h3, if_neg h4, if_neg h5, if_neg h6, if_neg h7, if_neg h8, if_neg h9] at he
      cases he
      exact List.mem_singleton.mpr rfl
    simp [this]

/-- A line a function writes or registers. -/
theorem noAct_unless {f : FunDecl} {ok : Bool} {l l' : Line} {evs : List Ev} (h : emit f ok l = .ok evs)
    (hl : Ev.item (.line l') ∈ evs ∨ Ev.act (.reg l') ∈ evs) : l' = l := by
  rcases hl with hl | hl
  · exact noLine_unless h hl
  · obtain ⟨c, hc, rfl⟩ := map_ok h
    rcases List.mem_append.mp hl with hl | hl
    · unfold comment at hc
      exact absurd hl (by
        repeat' split at hc
        all_goals first
          | (cases hc; simp)
          | cases hc)
    · rcases List.mem_cons.mp hl with hl | hl
      · cases hl
      · split at hl
        · cases List.mem_singleton.mp hl; rfl
        · cases hl

/-- **C84** for functions that become methods or constructors of a class: whatever is written or registered is for
the class named by `of_class` (or `is_constructor_of`), calls the function by its C++ name, and has the Python name
given by `as_method`; return type and parameters are looked up with their annotations (the first parameter of
a method, if it is a pointer, as one that stays with its owner unless annotated otherwise; a constructor owns what it
returns). -/
theorem C84_member_function {env : Env} {f : FunDecl} {evs : List Ev} (h : scanFunction env f = .ok evs) :
    (∀ full n ret ps py, (Ev.item (.line (.asMethod full n ret ps py)) ∈ evs ∨ Ev.act (.reg (.asMethod full n ret ps py)) ∈ evs) →
      n = f.name ∧ getNone f.globals "as_method".toList = some py ∧
      (∃ c, getNone f.globals "of_class".toList = some c ∧ env.cls c = some full) ∧
      (∃ ok ws, funArgs env f.params true 0 f.args = .ok (ps, ok, ws)) ∧
      (getNone f.globals "is_constructor_of".toList = none →
        ∃ ws, lookupReturn env.num f.ret (annsOf f.params "return".toList) = .ok (ret, ws))) ∧
    (∀ full n ret ps, (Ev.item (.line (.asCtor full n ret ps)) ∈ evs ∨ Ev.act (.reg (.asCtor full n ret ps)) ∈ evs) →
      n = f.name ∧ getNone f.globals "as_method".toList = none ∧
      ∃ c, getNone f.globals "is_constructor_of".toList = some c ∧ env.cls c = some full ∧
      (∃ ok ws, funArgs env f.params false 0 f.args = .ok (ps, ok, ws)) ∧
      (c ≠ [] → ∃ ws, lookupReturn env.num f.ret
        (ODict.set (annsOf f.params "return".toList) "caller_owns_return".toList (some "true".toList)) = .ok (ret, ws))) := by
  unfold scanFunction at h
  obtain ⟨g, hg, h⟩ := bind_ok h
  have hnone : ∀ (ws : List Warn) (l : Line), ¬ (Ev.item (.line l) ∈ warns ws ∨ Ev.act (.reg l) ∈ warns ws) := by
    intro ws l hl
    rcases hl with hl | hl
    · exact noLine_warns _ _ hl
    · obtain ⟨w, _, hw⟩ := List.mem_map.mp hl
      cases hw
  split at h
  · cases h
    exact ⟨fun _ _ _ _ _ hl => absurd hl (hnone _ _), fun _ _ _ _ hl => absurd hl (hnone _ _)⟩
  obtain ⟨rt, hret, h⟩ := bind_ok h
  obtain ⟨ro, hro, h⟩ := bind_ok h
  obtain ⟨pl, hps, h⟩ := bind_ok h
  obtain ⟨e2, he2, rfl⟩ := map_ok h
  have hdrop : ∀ (ws : List Warn) (l : Line), (Ev.item (.line l) ∈ warns ws ++ e2 ∨ Ev.act (.reg l) ∈ warns ws ++ e2) →
      Ev.item (.line l) ∈ e2 ∨ Ev.act (.reg l) ∈ e2 := by
    intro ws l hl
    rcases hl with hl | hl
    · rcases List.mem_append.mp hl with h | h
      · exact absurd (.inl h) (hnone ws l)
      · exact .inl h
    · rcases List.mem_append.mp hl with h | h
      · exact absurd (.inr h) (hnone ws l)
      · exact .inr h
  unfold emitFunction at he2
  constructor
  · intro full n ret ps py hl
    have hl := hdrop _ _ hl
    split at he2
    · rename_i name ham
      split at he2
      · cases he2
      rename_i c hof
      split at he2
      · cases he2
      rename_i full' hfull
      cases noAct_unless he2 hl
      rw [ham] at hps
      refine ⟨rfl, ham, ⟨c, hof, hfull⟩, ⟨pl.2.1, pl.2.2, hps⟩, ?_⟩
      intro hc
      rw [hc] at hret
      exact ⟨rt.2, hret⟩
    · split at he2
      · split at he2
        · cases he2
        · cases noAct_unless he2 hl
      · obtain ⟨custom, hcu, he2⟩ := bind_ok he2
        cases noAct_unless he2 hl
  · intro full n ret ps hl
    have hl := hdrop _ _ hl
    split at he2
    · split at he2
      · cases he2
      split at he2
      · cases he2
      · cases noAct_unless he2 hl
    · rename_i ham
      split at he2
      · rename_i c hco
        split at he2
        · cases he2
        rename_i full' hfull
        cases noAct_unless he2 hl
        rw [ham] at hps
        refine ⟨rfl, ham, c, hco, hfull, ⟨pl.2.1, pl.2.2, hps⟩, ?_⟩
        intro hc
        rw [hco] at hret
        cases c with
        | nil => exact absurd rfl hc
        | cons a c => exact ⟨rt.2, hret⟩
      · obtain ⟨custom, hcu, he2⟩ := bind_ok he2
        cases noAct_unless he2 hl

/-- A function with annotations to which the theorem applies. -/
def noteFun : FunDecl where
  name := "f".toList
  ret := "int".toList
  args := [⟨"int".toList, "x".toList, none, false⟩]
  globals := [("name".toList, some "g".toList), ("throw".toList, some "E".toList)]

example : okAnd (scanFunction noteEnv noteFun) (fun evs => decide (Ev.item (.line (.func false "f".toList ⟨["int".toList], []⟩
    [⟨["int".toList, "x".toList], []⟩] [("throw".toList, .refs ["E".toList]), ("custom_name".toList, .str "g".toList)])) ∈ evs)) =
    true := by decide +kernel

/-! ## Classes -/

/-- What an annotation of a class stands for, among all annotations of the class. -/
inductive ClassAnn (anns : Anns) : Str → Option Str → Str → PyVal → Prop where
  | bool {k : Str} {v : Option Str} {w : PyVal} : k ∈ ["allow_subclassing".toList, "is_singleton".toList,
      "automatic_type_narrowing".toList] → BoolValue v w → ClassAnn anns k v k w
  | increfMethod {v : Option Str} : ClassAnn anns "incref_method".toList v "memory_policy".toList
      (.policy "cppclass.ReferenceCountingMethodsPolicy".toList [(some "incref_method".toList, v),
        (some "decref_method".toList, getNone anns "decref_method".toList),
        (some "peekref_method".toList, getNone anns "peekref_method".toList)])
  | freeFunction {v : Option Str} : ClassAnn anns "free_function".toList v "memory_policy".toList
      (.policy "cppclass.FreeFunctionPolicy".toList [(none, v)])
  | increfFunction {v : Option Str} : ClassAnn anns "incref_function".toList v "memory_policy".toList
      (.policy "cppclass.ReferenceCountingFunctionsPolicy".toList [(some "incref_function".toList, v),
        (some "decref_function".toList, getNone anns "decref_function".toList)])
  | name {n : Str} {v : Option Str} : n ∈ ["python_name".toList, "custom_name".toList] →
      ClassAnn anns n v "custom_name".toList (strArg v)
  | «import» {v : Option Str} : ClassAnn anns "import_from_module".toList v "import_from_module".toList (strArg v)

def classKnown : List Str := ["allow_subclassing".toList, "is_singleton".toList, "incref_method".toList,
  "decref_method".toList, "peekref_method".toList, "automatic_type_narrowing".toList, "free_function".toList,
  "incref_function".toList, "decref_function".toList, "python_name".toList, "custom_name".toList, "pygen_comment".toList,
  "exception".toList, "import_from_module".toList]

theorem classOne {k : Str} {v : PyRes PyVal} {e : Effect × Bool}
    (h : classSet k v = .ok e) : ∃ w, v = .ok w ∧ e = (([(k, w)], []), false) := by
  obtain ⟨w, hw, rfl⟩ := map_ok h
  exact ⟨w, hw, rfl⟩

/-- An annotation assigns what it stands for. -/
theorem classStep_of {anns : Anns} {n : Str} {v : Option Str} {k : Str} {w : PyVal} (ha : ClassAnn anns n v k w) :
    ∃ ws, classStep anns n v = .ok (([(k, w)], ws), false) := by
  cases ha with
  | bool hk hb =>
    have hb := boolArg_iff.mpr hb
    simp only [List.mem_cons, List.not_mem_nil, or_false] at hk
    rcases hk with rfl | rfl | rfl
    · refine ⟨[], ?_⟩; unfold classStep; rw [if_pos rfl, hb]; rfl
    · refine ⟨[], ?_⟩; unfold classStep; rw [if_neg (by decide), if_pos rfl, hb]; rfl
    · refine ⟨[], ?_⟩; unfold classStep
      rw [if_neg (by decide), if_neg (by decide), if_neg (by decide), if_neg (by decide), if_neg (by decide), if_pos rfl, hb]; rfl
  | increfMethod =>
    refine ⟨[], ?_⟩; unfold classStep
    rw [if_neg (by decide), if_neg (by decide), if_pos rfl]; rfl
  | freeFunction =>
    refine ⟨[], ?_⟩; unfold classStep
    rw [if_neg (by decide), if_neg (by decide), if_neg (by decide), if_neg (by decide), if_neg (by decide),
      if_neg (by decide), if_pos rfl]; rfl
  | increfFunction =>
    refine ⟨[], ?_⟩; unfold classStep
    rw [if_neg (by decide), if_neg (by decide), if_neg (by decide), if_neg (by decide), if_neg (by decide),
      if_neg (by decide), if_neg (by decide), if_pos rfl]; rfl
  | name hn =>
    simp only [List.mem_cons, List.not_mem_nil, or_false] at hn
    rcases hn with rfl | rfl
    · refine ⟨[.deprecated "python_name".toList], ?_⟩; unfold classStep
      rw [if_neg (by decide), if_neg (by decide), if_neg (by decide), if_neg (by decide), if_neg (by decide),
        if_neg (by decide), if_neg (by decide), if_neg (by decide), if_neg (by decide), if_pos rfl]
    · refine ⟨[], ?_⟩; unfold classStep
      rw [if_neg (by decide), if_neg (by decide), if_neg (by decide), if_neg (by decide), if_neg (by decide),
        if_neg (by decide), if_neg (by decide), if_neg (by decide), if_neg (by decide), if_neg (by decide), if_pos rfl]; rfl
  | «import» =>
    refine ⟨[], ?_⟩; unfold classStep
    rw [if_neg (by decide), if_neg (by decide), if_neg (by decide), if_neg (by decide), if_neg (by decide),
      if_neg (by decide), if_neg (by decide), if_neg (by decide), if_neg (by decide), if_neg (by decide),
      if_neg (by decide), if_neg (by decide), if_neg (by decide), if_pos rfl]; rfl

/-- Nothing else is assigned. -/
theorem classStep_only {anns : Anns} {n : Str} {v : Option Str} {e : Effect × Bool} (h : classStep anns n v = .ok e) :
    (e.1.1 = [] ∨ ∃ k w, e.1.1 = [(k, w)] ∧ ClassAnn anns n v k w) ∧
    (n ∉ classKnown → e.1.2 = [.annotation n]) ∧ (e.2 = true ↔ n = "exception".toList) := by
  unfold classStep at h
  have kn : ∀ {x : Str} {P : Prop}, x ∈ classKnown → x ∉ classKnown → P := fun h1 h2 => absurd h1 h2
  by_cases hn1 : n = "allow_subclassing".toList
  · subst hn1
    rw [if_pos rfl] at h
    obtain ⟨w, hw, rfl⟩ := classOne h
    exact ⟨Or.inr ⟨_, w, rfl, .bool (by decide) (boolArg_iff.mp hw)⟩, kn (by decide), ⟨nofun, fun h => absurd h (by decide)⟩⟩
  rw [if_neg hn1] at h
  by_cases hn2 : n = "is_singleton".toList
  · subst hn2
    rw [if_pos rfl] at h
    obtain ⟨w, hw, rfl⟩ := classOne h
    exact ⟨Or.inr ⟨_, w, rfl, .bool (by decide) (boolArg_iff.mp hw)⟩, kn (by decide), ⟨nofun, fun h => absurd h (by decide)⟩⟩
  rw [if_neg hn2] at h
  by_cases hn3 : n = "incref_method".toList
  · subst hn3
    rw [if_pos rfl] at h
    obtain ⟨w, hw, rfl⟩ := classOne h
    cases hw
    exact ⟨Or.inr ⟨_, _, rfl, .increfMethod⟩, kn (by decide), ⟨nofun, fun h => absurd h (by decide)⟩⟩
  rw [if_neg hn3] at h
  by_cases hn4 : n = "decref_method".toList
  · subst hn4; rw [if_pos rfl] at h; cases h; exact ⟨Or.inl rfl, kn (by decide), ⟨nofun, fun h => absurd h (by decide)⟩⟩
  rw [if_neg hn4] at h
  by_cases hn5 : n = "peekref_method".toList
  · subst hn5; rw [if_pos rfl] at h; cases h; exact ⟨Or.inl rfl, kn (by decide), ⟨nofun, fun h => absurd h (by decide)⟩⟩
  rw [if_neg hn5] at h
  by_cases hn6 : n = "automatic_type_narrowing".toList
  · subst hn6
    rw [if_pos rfl] at h
    obtain ⟨w, hw, rfl⟩ := classOne h
    exact ⟨Or.inr ⟨_, w, rfl, .bool (by decide) (boolArg_iff.mp hw)⟩, kn (by decide), ⟨nofun, fun h => absurd h (by decide)⟩⟩
  rw [if_neg hn6] at h
  by_cases hn7 : n = "free_function".toList
  · subst hn7
    rw [if_pos rfl] at h
    obtain ⟨w, hw, rfl⟩ := classOne h
    cases hw
    exact ⟨Or.inr ⟨_, _, rfl, .freeFunction⟩, kn (by decide), ⟨nofun, fun h => absurd h (by decide)⟩⟩
  rw [if_neg hn7] at h
  by_cases hn8 : n = "incref_function".toList
  · subst hn8
    rw [if_pos rfl] at h
    obtain ⟨w, hw, rfl⟩ := classOne h
    cases hw
    exact ⟨Or.inr ⟨_, _, rfl, .increfFunction⟩, kn (by decide), ⟨nofun, fun h => absurd h (by decide)⟩⟩
  rw [if_neg hn8] at h
  by_cases hn9 : n = "decref_function".toList
  · subst hn9; rw [if_pos rfl] at h; cases h; exact ⟨Or.inl rfl, kn (by decide), ⟨nofun, fun h => absurd h (by decide)⟩⟩
  rw [if_neg hn9] at h
  by_cases hn10 : n = "python_name".toList
  · subst hn10
    rw [if_pos rfl] at h
    cases h
    exact ⟨Or.inr ⟨_, _, rfl, .name (by decide)⟩, kn (by decide), ⟨nofun, fun h => absurd h (by decide)⟩⟩
  rw [if_neg hn10] at h
  by_cases hn11 : n = "custom_name".toList
  · subst hn11
    rw [if_pos rfl] at h
    obtain ⟨w, hw, rfl⟩ := classOne h
    cases hw
    exact ⟨Or.inr ⟨_, _, rfl, .name (by decide)⟩, kn (by decide), ⟨nofun, fun h => absurd h (by decide)⟩⟩
  rw [if_neg hn11] at h
  by_cases hn12 : n = "pygen_comment".toList
  · subst hn12; rw [if_pos rfl] at h; cases h; exact ⟨Or.inl rfl, kn (by decide), ⟨nofun, fun h => absurd h (by decide)⟩⟩
  rw [if_neg hn12] at h
  by_cases hn13 : n = "exception".toList
  · subst hn13; rw [if_pos rfl] at h; cases h; exact ⟨Or.inl rfl, kn (by decide), ⟨fun _ => rfl, fun _ => rfl⟩⟩
  rw [if_neg hn13] at h
  by_cases hn14 : n = "import_from_module".toList
  · subst hn14
    rw [if_pos rfl] at h
    obtain ⟨w, hw, rfl⟩ := classOne h
    cases hw
    exact ⟨Or.inr ⟨_, _, rfl, .«import»⟩, kn (by decide), ⟨nofun, fun h => absurd h (by decide)⟩⟩
  · rw [if_neg hn14] at h
    cases h
    refine ⟨Or.inl rfl, fun _ => rfl, ?_⟩
    simp only [Bool.false_eq_true, false_iff]
    exact hn13

theorem get_setDefault (kw : Kw) (k k' : Str) (w : PyVal) :
    ODict.get (setDefault kw k w) k' = if (ODict.get kw k').isSome = true then ODict.get kw k' else if k = k' then some w else none := by
  unfold setDefault
  split
  · rename_i h
    by_cases hk : k = k'
    · subst hk; rw [if_pos h]
    · rw [if_neg hk]
      cases ODict.get kw k' <;> rfl
  · rename_i h
    rw [Annot.get_set]
    by_cases hk : k = k'
    · subst hk; rw [if_pos rfl, if_neg h, if_pos rfl]
    · rw [if_neg hk, if_neg hk]
      cases ODict.get kw k' <;> rfl

/-- The loop over the annotations of a class. -/
theorem classLoop_spec {all anns : Anns} {kw : Kw} {ws : List Warn} {x : Bool} {r : Kw × List Warn × Bool}
    (h : classLoop all anns kw ws x = .ok r) :
    (∀ k w, ODict.get kw k = some w → ODict.get r.1 k = some w) ∧
    (∀ k w, ODict.get kw k = none → (∃ n v, (n, v) ∈ anns ∧ ClassAnn all n v k w) →
      (∀ n v w', (n, v) ∈ anns → ClassAnn all n v k w' → w' = w) → ODict.get r.1 k = some w) ∧
    (∀ k w, ODict.get r.1 k = some w → ODict.get kw k = some w ∨ ∃ n v, (n, v) ∈ anns ∧ ClassAnn all n v k w) ∧
    (∀ n v, (n, v) ∈ anns → n ∉ classKnown → .annotation n ∈ r.2.1) ∧ (∀ w ∈ ws, w ∈ r.2.1) ∧
    (r.2.2 = true ↔ x = true ∨ "exception".toList ∈ anns.map (·.1)) := by
  induction anns generalizing kw ws x with
  | nil =>
    cases h
    refine ⟨fun _ _ h => h, ?_, fun _ _ h => Or.inl h, ?_, fun _ h => h, ?_⟩
    · rintro k w _ ⟨_, _, h, _⟩; cases h
    · intro n v h; cases h
    · simp
  | cons a l ih =>
    obtain ⟨n, v⟩ := a
    rw [classLoop] at h
    obtain ⟨e, he, h⟩ := bind_ok h
    obtain ⟨only, unk, exc⟩ := classStep_only he
    obtain ⟨i1, i2, i3, i4, i5, i6⟩ := ih h
    have keep : ∀ k w, ODict.get kw k = some w → ODict.get (defaultAll kw e.1.1) k = some w := by
      intro k w hk
      rcases only with h0 | ⟨k0, w0, h0, _⟩
      · rw [h0]; exact hk
      · rw [h0]
        show ODict.get (setDefault kw k0 w0) k = _
        rw [get_setDefault, hk]; rfl
    refine ⟨fun k w hk => i1 k w (keep k w hk), ?_, ?_, ?_, ?_, ?_⟩
    · rintro k w hk ⟨n', v', hm, ha⟩ huniq
      have later : ∀ n v w', (n, v) ∈ l → ClassAnn all n v k w' → w' = w :=
        fun n v w' hm => huniq n v w' (List.mem_cons_of_mem _ hm)
      rcases only with h0 | ⟨k0, w0, h0, ha0⟩
      · rw [h0] at i2
        refine i2 k w hk ?_ later
        rcases List.mem_cons.mp hm with hm | hm
        · cases hm
          obtain ⟨ws', hs⟩ := classStep_of ha
          rw [hs] at he
          cases he
          cases h0
        · exact ⟨n', v', hm, ha⟩
      · by_cases hkk : k0 = k
        · subst hkk
          have := huniq n v w0 List.mem_cons_self ha0
          subst this
          apply i1
          rw [h0]
          show ODict.get (setDefault kw k0 w0) k0 = _
          rw [get_setDefault, hk, if_neg (by simp), if_pos rfl]
        · refine i2 k w ?_ ?_ later
          · rw [h0]
            show ODict.get (setDefault kw k0 w0) k = _
            rw [get_setDefault, hk, if_neg (by simp), if_neg hkk]
          · rcases List.mem_cons.mp hm with hm | hm
            · cases hm
              obtain ⟨ws', hs⟩ := classStep_of ha
              rw [hs] at he
              cases he
              cases h0
              exact absurd rfl hkk
            · exact ⟨n', v', hm, ha⟩
    · intro k w hk
      rcases i3 k w hk with hk | ⟨n', v', hm, ha⟩
      · rcases only with h0 | ⟨k0, w0, h0, ha0⟩
        · rw [h0] at hk; exact Or.inl hk
        · rw [h0] at hk
          have hk : ODict.get (setDefault kw k0 w0) k = some w := hk
          rw [get_setDefault] at hk
          split at hk
          · exact Or.inl hk
          · split at hk
            · rename_i e
              cases hk
              subst e
              exact Or.inr ⟨n, v, List.mem_cons_self, ha0⟩
            · cases hk
      · exact Or.inr ⟨n', v', List.mem_cons_of_mem _ hm, ha⟩
    · intro n' v' hm hk
      rcases List.mem_cons.mp hm with hm | hm
      · cases hm
        apply i5
        rw [unk hk]
        exact List.mem_append_right _ (List.mem_singleton.mpr rfl)
      · exact i4 n' v' hm hk
    · intro w hw
      exact i5 w (List.mem_append_left _ hw)
    · rw [i6, Bool.or_eq_true, exc, List.map_cons, List.mem_cons, or_assoc]
      constructor
      · rintro (h | h | h)
        · exact Or.inl h
        · exact Or.inr (Or.inl h.symm)
        · exact Or.inr (Or.inr h)
      · rintro (h | h | h)
        · exact Or.inl h
        · exact Or.inr (Or.inl h.symm)
        · exact Or.inr (Or.inr h)

/-- **C84** for classes: if the annotations do not contradict one another, the class is registered with what they stand
for, and subclassing is allowed by default exactly for a full definition with virtual methods and without bases; nothing
else is registered except the visibility of the destructor; annotations that mean nothing are reported.  What is missing:
of two annotations for the same thing only the first counts, and the second is not reported. -/
theorem C84_class_partial (anns : Anns) (f : ClassFacts) {r : Kw × List Warn × Bool} (h : applyClass anns f = .ok r) :
    (∀ n v k w, (n, v) ∈ anns → ClassAnn anns n v k w → (∀ n' v' w', (n', v') ∈ anns → ClassAnn anns n' v' k w' → w' = w) →
      ODict.get r.1 k = some w) ∧
    ((∀ v, ("allow_subclassing".toList, v) ∉ anns) → (ODict.get r.1 "allow_subclassing".toList =
      if f.full && f.hasVirtual && !f.hasBases then some (.bool true) else none)) ∧
    (∀ k w, ODict.get r.1 k = some w → k ≠ "allow_subclassing".toList → k ≠ "destructor_visibility".toList →
      ∃ n v, (n, v) ∈ anns ∧ ClassAnn anns n v k w) ∧
    (∀ n v, (n, v) ∈ anns → n ∉ classKnown → .annotation n ∈ r.2.1) ∧
    (r.2.2 = true ↔ "exception".toList ∈ anns.map (·.1)) := by
  obtain ⟨q, hq, rfl⟩ := map_ok h
  obtain ⟨h1, h2, h3, h4, h5, h6⟩ := classLoop_spec hq
  have key : ∀ k, ODict.get (let kw := q.1
      let kw := if f.full && f.hasVirtual && !f.hasBases then setDefault kw "allow_subclassing".toList (.bool true) else kw
      if f.full && f.destructor ≠ some "public".toList then
        setDefault kw "destructor_visibility".toList (strArg f.destructor) else kw) k =
      if (ODict.get q.1 k).isSome = true then ODict.get q.1 k
      else if k = "allow_subclassing".toList then
        (if f.full && f.hasVirtual && !f.hasBases then some (.bool true) else none)
      else if k = "destructor_visibility".toList then
        (if f.full && f.destructor ≠ some "public".toList then some (strArg f.destructor) else none)
      else none := by
    intro k
    have ne : "allow_subclassing".toList ≠ "destructor_visibility".toList := by decide
    generalize "allow_subclassing".toList = sub at ne
    generalize "destructor_visibility".toList = vis at ne
    simp only
    cases (f.full && f.hasVirtual && !f.hasBases) <;> cases (f.full && decide (f.destructor ≠ some "public".toList)) <;>
      simp only [if_true, if_false, Bool.false_eq_true, get_setDefault]
    · cases ODict.get q.1 k <;> simp
    · cases ODict.get q.1 k with
      | some w => simp
      | none =>
        simp only [Option.isSome_none, Bool.false_eq_true, if_false]
        by_cases e : k = sub
        · subst e; rw [if_neg ne.symm]; simp
        · by_cases e' : k = vis
          · subst e'; simp [e]
          · rw [if_neg (fun h => e' h.symm)]; simp [e, e']
    · cases ODict.get q.1 k with
      | some w => simp
      | none =>
        simp only [Option.isSome_none, Bool.false_eq_true, if_false]
        by_cases e : k = sub
        · subst e; simp
        · rw [if_neg (fun h => e h.symm)]; simp [e]
    · cases ODict.get q.1 k with
      | some w => simp
      | none =>
        simp only [Option.isSome_none, Bool.false_eq_true, if_false]
        by_cases e : k = sub
        · subst e; simp
        · have e1 : ¬ sub = k := fun h => e h.symm
          simp only [Option.isSome_none, Bool.false_eq_true, if_false, if_neg e, if_neg e1]
          by_cases e' : k = vis
          · subst e'; simp
          · rw [if_neg (fun h => e' h.symm)]; simp [e']
  refine ⟨?_, ?_, ?_, ?_, ?_⟩
  · intro n v k w hm ha hu
    refine (key k).trans ?_
    rw [h2 k w rfl ⟨n, v, hm, ha⟩ hu]; rfl
  · intro hno
    refine (key _).trans ?_
    have : ODict.get q.1 "allow_subclassing".toList = none := by
      cases hg : ODict.get q.1 "allow_subclassing".toList with
      | none => rfl
      | some w =>
        exfalso
        rcases h3 _ w hg with h | ⟨n, v, hm, ha⟩
        · cases h
        · generalize hk : "allow_subclassing".toList = k at ha
          cases ha with
          | bool hb => subst hk; exact hno v hm
          | increfMethod => exact absurd hk (by decide)
          | freeFunction => exact absurd hk (by decide)
          | increfFunction => exact absurd hk (by decide)
          | name => exact absurd hk (by decide)
          | «import» => exact absurd hk (by decide)
    rw [this, if_neg (by simp), if_pos rfl]
  · intro k w hk n1 n2
    have hk := (key k).symm.trans hk
    rw [if_neg n1, if_neg n2] at hk
    split at hk
    · rcases h3 k w hk with h | h
      · cases h
      · exact h
    · cases hk
  · exact h4
  · rw [h6]; simp

/-- A class with annotations the theorem applies to. -/
def noteClass : Anns := [("incref_method".toList, some "Ref".toList), ("decref_method".toList, some "Unref".toList),
  ("is_singleton".toList, some "true".toList)]

example : okAnd (applyClass noteClass { hasVirtual := true }) (fun r => decide (r = ([
    ("memory_policy".toList, .policy "cppclass.ReferenceCountingMethodsPolicy".toList
      [(some "incref_method".toList, some "Ref".toList), (some "decref_method".toList, some "Unref".toList),
       (some "peekref_method".toList, none)]),
    ("is_singleton".toList, .bool true), ("allow_subclassing".toList, .bool true),
    ("destructor_visibility".toList, .none)], [], false))) = true := by decide +kernel

example : ∀ n' v' w', (n', v') ∈ noteClass → ClassAnn noteClass n' v' "is_singleton".toList w' → w' = .bool true := by
  intro n' v' w' hm ha
  generalize hk : "is_singleton".toList = k at ha
  cases ha with
  | bool _ hb =>
    subst hk
    unfold noteClass at hm
    simp only [List.mem_cons, List.not_mem_nil, or_false, Prod.mk.injEq] at hm
    rcases hm with ⟨h, _⟩ | ⟨h, _⟩ | ⟨_, rfl⟩
    · exact absurd h (by decide)
    · exact absurd h (by decide)
    · cases hb with
      | mk h =>
        have : Annot.parseBoolean (aval (some "true".toList)) = .ok true := by decide +kernel
        rw [this] at h
        cases h
        rfl
  | increfMethod => exact absurd hk (by decide)
  | freeFunction => exact absurd hk (by decide)
  | increfFunction => exact absurd hk (by decide)
  | name => exact absurd hk (by decide)
  | «import» => exact absurd hk (by decide)

/-- **C84 fails** for two memory policies: the second is dropped without a word. -/
theorem C84_policies_counterexample :
    applyClass [("free_function".toList, some "free".toList), ("incref_function".toList, some "ref".toList)] {} =
      applyClass [("free_function".toList, some "free".toList)] {} ∧
    okAnd (applyClass [("free_function".toList, some "free".toList), ("incref_function".toList, some "ref".toList)] {})
      (fun r => decide (r.2.1 = [])) = true := by decide +kernel

end Verif.Scan
