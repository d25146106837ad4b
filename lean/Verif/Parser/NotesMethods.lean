import Verif.Parser.NotesProps

/-! # C84: annotations of methods, functions and classes -/
namespace Verif.Scan
open Verif Verif.Pygen
open Verif.Annot (ODict)

/-! ## Which line -/

def NoLine (evs : List Ev) : Prop := ∀ l, Ev.item (.line l) ∉ evs

theorem noLine_warns (ws : List Warn) : NoLine (warns ws) := by
  intro l h
  obtain ⟨_, _, h⟩ := List.mem_map.mp h
  cases h

theorem noLine_comment {g : Anns} {c : List Ev} (h : comment g = .ok c) : NoLine c := by
  unfold comment at h
  split at h
  · cases h; intro l h; cases h
  · cases h
  · cases h; intro l h; cases List.mem_singleton.mp h

theorem NoLine.append {a b : List Ev} (ha : NoLine a) (hb : NoLine b) : NoLine (a ++ b) := by
  intro l h
  rcases List.mem_append.mp h with h | h
  · exact ha l h
  · exact hb l h

theorem noLine_addMethod {env : Env} {d : MethodDecl} {name : Str} {ret : Spec} {ps : List Spec} {kw : Kw} {evs : List Ev}
    (h : addMethod env d name ret ps kw = .ok evs) : NoLine evs := by
  have off : ∀ (p : Prop) [Decidable p], NoLine (if p then [.act .cannot, .act .helperOff] else []) := by
    intro p _
    split
    · intro l h; simp at h
    · intro l h; cases h
  unfold addMethod at h
  simp only at h
  split at h
  · cases h
  · cases h
    intro l h
    rcases List.mem_cons.mp h with h | h
    · cases h
    · exact off _ l h
  · obtain ⟨r, hm, h⟩ := bind_ok h
    split at h
    · split at h
      · cases h; intro l h; cases List.mem_singleton.mp h
      · cases h
      · cases h
        refine NoLine.append ?_ ?_
        · split
          · intro l h; simp at h
          · intro l h; cases h
        · intro l h; cases List.mem_singleton.mp h
    · cases h; exact (noLine_warns _).append (off _)

/-- The only line a method writes. -/
theorem scanMethod_line {env : Env} {cls : Cls} {m : Member} {d : MethodDecl} {evs : List Ev} {l : Line}
    (h : scanMethod env cls m d = .ok evs) (hl : Ev.item (.line l) ∈ evs) :
    ∃ g ret ps custom, loop (methodStep env.exc d.tmpl.isSome) m.globals [] [] = .ok g ∧
      (d.op = none ∨ d.op = some "()".toList) ∧
      lookupReturn env.num d.ret (annsOf m.params "return".toList) = .ok ret ∧
      argSpecs env.num m.params d.args = .ok ps ∧ customName m.globals d.tmpl = .ok custom ∧
      l = .func true m.name ret.1 ps.1 (methodKw d custom
        (setThrow (setIf d.op.isSome g.1 "custom_name" (.str "__call__".toList)) d.throws)) ∧
      (∀ w ∈ g.2 ++ notFound d.throws ++ ret.2 ++ ps.2, Ev.warn w ∈ evs) := by
  unfold scanMethod at h
  obtain ⟨g, hg, h⟩ := bind_ok h
  split at h
  · cases h; exact absurd hl (noLine_warns _ l)
  rename_i hop
  simp only at h
  obtain ⟨ret, hret, h⟩ := bind_ok h
  obtain ⟨ps, hps, h⟩ := bind_ok h
  obtain ⟨custom, hcu, h⟩ := bind_ok h
  have hop' : d.op = none ∨ d.op = some "()".toList := by
    by_cases h1 : d.op = none
    · exact Or.inl h1
    · by_cases h2 : d.op = some "()".toList
      · exact Or.inr h2
      · exact absurd ⟨h1, h2⟩ hop
  have hstart : ∀ ws : List Warn, NoLine (warns ws ++ (if d.virt = .pure ∧ cls.allowSubclassing = false then
      [.act .cannot] else [])) := by
    intro ws
    refine (noLine_warns _).append ?_
    split
    · intro l h; cases List.mem_singleton.mp h
    · intro l h; cases h
  split at h
  · cases h; exact absurd hl (hstart _ l)
  obtain ⟨c, hc, h⟩ := bind_ok h
  obtain ⟨e2, he2, rfl⟩ := map_ok h
  refine ⟨g, ret, ps, custom, hg, hop', hret, hps, hcu, ?_, ?_⟩
  · rcases List.mem_append.mp hl with hl | hl
    · rcases List.mem_append.mp hl with hl | hl
      · exact absurd hl (hstart _ l)
      · exact absurd hl (noLine_comment hc l)
    · rcases List.mem_cons.mp hl with hl | hl
      · cases hl; rfl
      · exact absurd hl (noLine_addMethod he2 l)
  · intro w hw
    refine List.mem_append_left _ (List.mem_append_left _ (List.mem_append_left _ ?_))
    exact List.mem_map.mpr ⟨w, hw, rfl⟩

/-! ## Keyword arguments -/

/-- The keyword arguments that come from the declaration. -/
def declKeys : List Str := ["is_const".toList, "is_static".toList, "is_virtual".toList, "is_pure_virtual".toList,
  "template_parameters".toList, "custom_template_method_name".toList, "visibility".toList, "deprecated".toList]

theorem get_setIf_ne (b : Bool) (kw : Kw) (k : String) (v : PyVal) {k' : Str} (h : k.toList ≠ k') :
    ODict.get (setIf b kw k v) k' = ODict.get kw k' := by
  rw [get_setIf, if_neg (fun hh => h hh.2)]

theorem get_methodKw_ne (d : MethodDecl) (custom : Option Str) (kw : Kw) {k : Str} (hk : k ∉ declKeys) :
    ODict.get (methodKw d custom kw) k = ODict.get kw k := by
  have ne : ∀ x ∈ declKeys, x ≠ k := fun x hx e => hk (e ▸ hx)
  unfold methodKw
  simp only
  rw [get_setIf_ne _ _ _ _ (ne _ (by decide)), get_setIf_ne _ _ _ _ (ne _ (by decide)),
    get_setName_ne _ _ _ _ (ne _ (by decide)), get_setTemplate_ne _ _ _ (ne _ (by decide)),
    get_setIf_ne _ _ _ _ (ne _ (by decide)), get_setIf_ne _ _ _ _ (ne _ (by decide)),
    get_setIf_ne _ _ _ _ (ne _ (by decide)), get_setIf_ne _ _ _ _ (ne _ (by decide))]

/-- Where the keyword argument of an annotation of a method goes. -/
def methodKey (n : Str) : Str := if n = "name".toList then "custom_name".toList else n

theorem methodStep_keyed (exc : Str → Option Str) (t : Bool) : Keyed (methodStep exc t) methodKey := by
  intro n v e h
  unfold methodStep at h
  split at h
  · cases h; exact Or.inl rfl
  split at h
  · cases h; exact Or.inl rfl
  split at h
  · rename_i hn
    have : methodKey n = n := by rw [hn]; decide
    rw [this]; exact assign_keyed h
  split at h
  · rename_i hn
    cases h
    exact Or.inr ⟨strArg v, by rw [methodKey, if_pos hn]⟩
  split at h
  · rename_i hn
    have : methodKey n = n := by rw [hn]; decide
    rw [this]; exact assign_keyed h
  · cases h; exact Or.inl rfl

/-- What an annotation of a method stands for. -/
inductive MethodAnn (exc : Str → Option Str) : Str → Option Str → Str → PyVal → Prop where
  | unblock {v : Option Str} {w : PyVal} : BoolValue v w → MethodAnn exc "unblock_threads".toList v "unblock_threads".toList w
  | name {v : Option Str} : MethodAnn exc "name".toList v "custom_name".toList (strArg v)
  | throw {s : Str} {l : List Str} : allSome exc (splitOn ',' s) = some l →
      MethodAnn exc "throw".toList (some s) "throw".toList (.refs l)

def methodKnown : List Str := ["template_instance_names".toList, "pygen_comment".toList, "unblock_threads".toList,
  "name".toList, "throw".toList]

theorem throwArg_iff {exc : Str → Option Str} {v : Option Str} {w : PyVal} :
    throwArg exc v = .ok w ↔ ∃ s l, v = some s ∧ allSome exc (splitOn ',' s) = some l ∧ w = .refs l := by
  constructor
  · intro h
    unfold throwArg at h
    split at h
    · cases h
    · split at h
      · rename_i s l hl; cases h; exact ⟨_, _, rfl, hl, rfl⟩
      · cases h
  · rintro ⟨s, l, rfl, hl, rfl⟩
    rw [throwArg, hl]

theorem methodStep_iff {exc : Str → Option Str} {t : Bool} {n : Str} {v : Option Str} {e : Effect}
    (h : methodStep exc t n v = .ok e) (k : Str) (w : PyVal) : (k, w) ∈ e.1 ↔ MethodAnn exc n v k w := by
  have hun : ∀ {n k : Str}, n = "unblock_threads".toList → (MethodAnn exc n v k w ↔ k = n ∧ BoolValue v w) := by
    intro n k hn
    constructor
    · intro h
      cases h with
      | unblock h => exact ⟨rfl, h⟩
      | name => exact absurd hn (by decide)
      | throw => exact absurd hn (by decide)
    · rintro ⟨rfl, h⟩; subst hn; exact .unblock h
  have hna : ∀ {n k : Str}, n = "name".toList → (MethodAnn exc n v k w ↔ k = "custom_name".toList ∧ w = strArg v) := by
    intro n k hn
    constructor
    · intro h
      cases h with
      | unblock h => exact absurd hn (by decide)
      | name => exact ⟨rfl, rfl⟩
      | throw => exact absurd hn (by decide)
    · rintro ⟨rfl, rfl⟩; subst hn; exact .name
  have hth : ∀ {n k : Str}, n = "throw".toList → (MethodAnn exc n v k w ↔ k = n ∧ throwArg exc v = .ok w) := by
    intro n k hn
    rw [throwArg_iff]
    constructor
    · intro h
      cases h with
      | unblock h => exact absurd hn (by decide)
      | name => exact absurd hn (by decide)
      | throw hx => exact ⟨rfl, _, _, rfl, hx, rfl⟩
    · rintro ⟨rfl, s, l, rfl, h, rfl⟩; subst hn; exact .throw h
  have hno : ∀ {n k : Str}, n ≠ "unblock_threads".toList → n ≠ "name".toList → n ≠ "throw".toList → ¬ MethodAnn exc n v k w := by
    intro n k h1 h2 h3 h
    cases h with
    | unblock => exact h1 rfl
    | name => exact h2 rfl
    | throw => exact h3 rfl
  unfold methodStep at h
  split at h
  · rename_i hn
    cases h
    simp only [List.not_mem_nil, false_iff]
    exact hno (by rw [hn.1]; decide) (by rw [hn.1]; decide) (by rw [hn.1]; decide)
  split at h
  · rename_i hn
    cases h
    simp only [List.not_mem_nil, false_iff]
    exact hno (by rw [hn]; decide) (by rw [hn]; decide) (by rw [hn]; decide)
  split at h
  · rename_i hn
    obtain ⟨w', hw, rfl⟩ := assign_iff.mp h
    rw [hun hn, ← boolArg_iff, hw]
    simp [eq_comm]
  split at h
  · rename_i hn
    cases h
    rw [hna hn]
    simp
  split at h
  · rename_i hn
    obtain ⟨w', hw, rfl⟩ := assign_iff.mp h
    rw [hth hn, hw]
    simp [eq_comm]
  · rename_i h1 h2 h3 h4 h5
    cases h
    simp only [List.not_mem_nil, false_iff]
    exact hno h3 h4 h5

theorem methodAnn_key {exc : Str → Option Str} {n : Str} {v : Option Str} {k : Str} {w : PyVal} (h : MethodAnn exc n v k w) :
    k = methodKey n := by
  cases h with
  | unblock => decide
  | name => decide
  | throw => decide

/-- The keyword arguments made by annotations of a method. -/
theorem method_kw {exc : Str → Option Str} {t : Bool} {anns : Anns} (hn : (anns.map (·.1)).Nodup) {r : Kw × List Warn}
    (h : loop (methodStep exc t) anns [] [] = .ok r) (k : Str) (w : PyVal) :
    ODict.get r.1 k = some w ↔ ∃ n v, (n, v) ∈ anns ∧ MethodAnn exc n v k w := by
  have key : ∀ {p : Str × Option Str} {e : Effect}, methodStep exc t p.1 p.2 = .ok e → e.1 ≠ [] →
      p.1 ∈ ["unblock_threads".toList, "name".toList, "throw".toList] := by
    intro p e he hne
    cases h1 : e.1 with
    | nil => exact absurd h1 hne
    | cons x l =>
      have hx : (x.1, x.2) ∈ e.1 := by rw [h1]; exact List.mem_cons_self
      generalize hp : p.1 = n at he
      have ha := (methodStep_iff he x.1 x.2).mp hx
      clear hx he hp h1
      generalize x.1 = k0, x.2 = w0, p.2 = v0 at ha
      cases ha <;> decide
  rw [loop_get (methodStep_keyed exc t) h]
  · constructor
    · rintro (⟨p, hp, e, he, hw⟩ | ⟨h, _⟩)
      · exact ⟨p.1, p.2, hp, (methodStep_iff he k w).mp hw⟩
      · cases h
    · rintro ⟨n, v, hv, ha⟩
      obtain ⟨e, he⟩ := loop_step h _ hv
      exact Or.inl ⟨(n, v), hv, e, he, (methodStep_iff he k w).mpr ha⟩
  · intro p hp q hq e e' he he' hne hne' hkk
    apply List.inj_on_of_nodup_map hn hp hq
    have hp' := key he hne
    have hq' := key he' hne'
    simp only [List.mem_cons, List.not_mem_nil, or_false] at hp' hq'
    rcases hp' with h1 | h1 | h1 <;> rcases hq' with h2 | h2 | h2 <;> rw [h1, h2] at hkk ⊢ <;>
      (revert hkk; decide)

/-- **C84** for methods: the line of a method has the return type and parameters with what their annotations stand for
(see C84_return_partial and C84_parameter_partial), `unblock_threads` as annotated, the name as annotated unless it is
the call operator, and the exceptions as annotated unless the declaration has some; annotations that mean nothing are
reported.  What is missing: see the counterexamples. -/
theorem C84_method_partial {env : Env} {cls : Cls} {m : Member} {d : MethodDecl} {evs : List Ev} {n : Str} {ret : Spec}
    {ps : List Spec} {kw : Kw} (hn : (m.globals.map (·.1)).Nodup) (h : scanMethod env cls m d = .ok evs)
    (hl : Ev.item (.line (.func true n ret ps kw)) ∈ evs) :
    n = m.name ∧
    (∃ ws, lookupReturn env.num d.ret (annsOf m.params "return".toList) = .ok (ret, ws) ∧ ∀ w ∈ ws, Ev.warn w ∈ evs) ∧
    (∃ ws, argSpecs env.num m.params d.args = .ok (ps, ws) ∧ ∀ w ∈ ws, Ev.warn w ∈ evs) ∧
    (∀ w, ODict.get kw "unblock_threads".toList = some w ↔ ∃ v, ("unblock_threads".toList, v) ∈ m.globals ∧ BoolValue v w) ∧
    (d.op = none → ∀ w, ODict.get kw "custom_name".toList = some w ↔ ∃ v, ("name".toList, v) ∈ m.globals ∧ w = strArg v) ∧
    (d.op ≠ none → ODict.get kw "custom_name".toList = some (.str "__call__".toList)) ∧
    (found d.throws = [] → ∀ w, ODict.get kw "throw".toList = some w ↔
      ∃ s l, ("throw".toList, some s) ∈ m.globals ∧ allSome env.exc (splitOn ',' s) = some l ∧ w = .refs l) ∧
    (found d.throws ≠ [] → ODict.get kw "throw".toList = some (.refs (found d.throws))) ∧
    (∀ x v, (x, v) ∈ m.globals → x ∉ methodKnown → Ev.warn (.annotation x) ∈ evs) := by
  obtain ⟨g, rt, pl, custom, hg, hop, hret, hps, hcu, hline, hw⟩ := scanMethod_line h hl
  cases hline
  have kws := method_kw hn hg
  have throwKey : "throw".toList ∉ declKeys := by decide
  have nameKey : "custom_name".toList ∉ declKeys := by decide
  have unKey : "unblock_threads".toList ∉ declKeys := by decide
  refine ⟨rfl, ⟨rt.2, hret, fun w hw' => hw w (by simp [hw'])⟩, ⟨pl.2, hps, fun w hw' => hw w (by simp [hw'])⟩, ?_, ?_, ?_,
    ?_, ?_, ?_⟩
  · intro w
    rw [get_methodKw_ne _ _ _ unKey, get_setThrow_ne _ _ _ (by decide), get_setIf_ne _ _ _ _ (by decide), kws]
    constructor
    · rintro ⟨n, v, hv, ha⟩
      generalize hk : "unblock_threads".toList = k at ha
      cases ha with
      | unblock h => exact ⟨v, hv, h⟩
      | name => exact absurd hk (by decide)
      | throw => exact absurd hk (by decide)
    · rintro ⟨v, hv, h⟩
      exact ⟨_, v, hv, .unblock h⟩
  · intro hop w
    rw [get_methodKw_ne _ _ _ nameKey, get_setThrow_ne _ _ _ (by decide), hop]
    show ODict.get g.1 _ = _ ↔ _
    rw [kws]
    constructor
    · rintro ⟨n, v, hv, ha⟩
      generalize hk : "custom_name".toList = k at ha
      cases ha with
      | unblock h => exact absurd hk (by decide)
      | name => exact ⟨v, hv, rfl⟩
      | throw => exact absurd hk (by decide)
    · rintro ⟨v, hv, rfl⟩
      exact ⟨_, v, hv, .name⟩
  · intro hop
    rw [get_methodKw_ne _ _ _ nameKey, get_setThrow_ne _ _ _ (by decide), get_setIf, if_pos]
    refine ⟨?_, rfl⟩
    cases hd : d.op with
    | none => exact absurd hd hop
    | some x => rfl
  · intro hf w
    rw [get_methodKw_ne _ _ _ throwKey, setThrow, if_pos hf, get_setIf_ne _ _ _ _ (by decide), kws]
    constructor
    · rintro ⟨n, v, hv, ha⟩
      generalize hk : "throw".toList = k at ha
      cases ha with
      | unblock h => exact absurd hk (by decide)
      | name => exact absurd hk (by decide)
      | throw h => exact ⟨_, _, hv, h, rfl⟩
    · rintro ⟨s, l, hv, h, rfl⟩
      exact ⟨_, _, hv, .throw h⟩
  · intro hf
    rw [get_methodKw_ne _ _ _ throwKey, setThrow, if_neg hf, Annot.get_set, if_pos rfl]
  · intro x v hx hk
    refine hw _ (List.mem_append_left _ (List.mem_append_left _ (List.mem_append_left _ ?_)))
    rw [loop_warn hg]
    obtain ⟨e, he⟩ := loop_step hg _ hx
    refine Or.inr ⟨(x, v), hx, e, he, ?_⟩
    unfold methodKnown at hk
    simp only [List.mem_cons, List.not_mem_nil, or_false, not_or] at hk
    unfold methodStep at he
    rw [if_neg (fun h => hk.1 h.1), if_neg hk.2.1, if_neg hk.2.2.1, if_neg hk.2.2.2.1, if_neg hk.2.2.2.2] at he
    cases he
    exact List.mem_singleton.mpr rfl

/-! ## Concrete cases and failures -/

def noteEnv : Env := { demoEnv with exc := fun s => some s }

/-- A method whose annotations all take effect. -/
def noteMember : Member where
  name := "f".toList
  kind := .method { ret := "int".toList, args := [⟨"int".toList, "x".toList, none, false⟩] }
  globals := [("name".toList, some "g".toList), ("unblock_threads".toList, some "true".toList),
    ("throw".toList, some "E,F".toList), ("nonsense".toList, none)]
  params := [("x".toList, [("null_ok".toList, some "true".toList)]), ("return".toList, [("free_after_copy".toList, some "false".toList)])]

example : ∃ evs, scanMember noteEnv ⟨true, []⟩ noteMember = .ok (evs, false, false) ∧ evs =
    [.warn (.annotation "nonsense".toList),
     .item (.line (.func true "f".toList ⟨["int".toList], [("free_after_copy".toList, .bool false)]⟩
      [⟨["int".toList, "x".toList], [("null_ok".toList, .bool true)]⟩]
      [("custom_name".toList, .str "g".toList), ("unblock_threads".toList, .bool true),
       ("throw".toList, .refs ["E".toList, "F".toList])])),
     .act (.reg (.func true "f".toList ⟨["int".toList], [("free_after_copy".toList, .bool false)]⟩
      [⟨["int".toList, "x".toList], [("null_ok".toList, .bool true)]⟩]
      [("custom_name".toList, .str "g".toList), ("unblock_threads".toList, .bool true),
       ("throw".toList, .refs ["E".toList, "F".toList])]))] := by
  have h : okAnd (scanMember noteEnv ⟨true, []⟩ noteMember) (fun r => decide (r = ([.warn (.annotation "nonsense".toList),
     .item (.line (.func true "f".toList ⟨["int".toList], [("free_after_copy".toList, .bool false)]⟩
      [⟨["int".toList, "x".toList], [("null_ok".toList, .bool true)]⟩]
      [("custom_name".toList, .str "g".toList), ("unblock_threads".toList, .bool true),
       ("throw".toList, .refs ["E".toList, "F".toList])])),
     .act (.reg (.func true "f".toList ⟨["int".toList], [("free_after_copy".toList, .bool false)]⟩
      [⟨["int".toList, "x".toList], [("null_ok".toList, .bool true)]⟩]
      [("custom_name".toList, .str "g".toList), ("unblock_threads".toList, .bool true),
       ("throw".toList, .refs ["E".toList, "F".toList])]))], false, false))) = true := by decide +kernel
  obtain ⟨a, h1, h2⟩ := okAnd_iff h
  rw [of_decide_eq_true h2] at h1
  exact ⟨_, h1, rfl⟩

/-- The warnings of a result. -/
def quiet (x : PyRes (List Ev)) : Bool := okAnd x (fun evs => decide (warnings evs = []))

/-- **C84 fails** for parameters that do not exist: the annotation is neither used nor reported. -/
theorem C84_no_such_parameter_counterexample :
    let d : MethodDecl := { ret := "int".toList, args := [⟨"int".toList, "x".toList, none, false⟩] }
    let bad : Member := ⟨"f".toList, .method d, [], [("y".toList, [("null_ok".toList, some "true".toList)])]⟩
    scanMethod demoEnv ⟨true, []⟩ bad d = scanMethod demoEnv ⟨true, []⟩ { bad with params := [] } d ∧
    quiet (scanMethod demoEnv ⟨true, []⟩ bad d) = true := by
  decide +kernel

/-- **C84 fails** for constructors: no annotation of a parameter is used or reported, and only `ignore` and
`pygen_comment` of the others. -/
theorem C84_constructor_counterexample :
    let d : CtorDecl := { args := [⟨"int".toList, "x".toList, none, false⟩] }
    let bad : Member := ⟨"A".toList, .ctor d, [("throw".toList, some "E".toList)], [("x".toList, [("null_ok".toList, some "true".toList)])]⟩
    scanCtor demoEnv bad d = scanCtor demoEnv { bad with globals := [], params := [] } d ∧
    okAnd (scanCtor demoEnv bad d) (fun r => decide (warnings r.1 = [])) = true := by
  decide +kernel

/-- **C84 fails** when a declaration has exceptions: those in the annotation are dropped without a word. -/
theorem C84_throw_counterexample :
    let d : MethodDecl := { ret := "int".toList, args := [], throws := [("F".toList, some "F".toList)] }
    let bad : Member := ⟨"f".toList, .method d, [("throw".toList, some "E".toList)], []⟩
    scanMethod demoEnv ⟨true, []⟩ bad d = scanMethod demoEnv ⟨true, []⟩ { bad with globals := [] } d ∧
    quiet (scanMethod demoEnv ⟨true, []⟩ bad d) = true := by
  decide +kernel

/-- **C84 fails** for functions that become methods: `unblock_threads` and `throw` are accepted and dropped. -/
theorem C84_as_method_counterexample :
    let f : FunDecl := { demoFun with globals := demoFun.globals ++ [("unblock_threads".toList, some "true".toList), ("throw".toList, some "E".toList)] }
    scanFunction demoEnv f = scanFunction demoEnv demoFun ∧ quiet (scanFunction demoEnv f) = true := by
  decide +kernel

/-- **C84 fails** for `of_class` without `as_method`, and for template names of something that is no template. -/
theorem C84_function_counterexample :
    let f : FunDecl := { name := "f".toList, ret := "int".toList, args := [] }
    let bad : FunDecl := { f with globals := [("of_class".toList, some "A".toList), ("template_instance_names".toList, some "int=>g".toList)] }
    scanFunction demoEnv bad = scanFunction demoEnv f ∧ quiet (scanFunction demoEnv bad) = true := by
  decide +kernel

/-- **C84 fails** for classes: `decref_method` without `incref_method` is accepted and dropped. -/
theorem C84_class_counterexample :
    applyClass [("decref_method".toList, some "Unref".toList)] {} = applyClass [] {} ∧
    okAnd (applyClass [("decref_method".toList, some "Unref".toList)] {}) (fun r => decide (r.2.1 = [])) = true := by
  decide +kernel

end Verif.Scan
