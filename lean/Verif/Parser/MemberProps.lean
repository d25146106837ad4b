import Verif.Parser.NotesMethods

/-!
# C88: members of a class are registered as they are declared

The specification: which members of a class are meant for Python (`Exposed`), what registering one of them has to look
like (`Describes`), and when that is possible (`Resolves`).
-/
namespace Verif.Scan
open Verif Verif.Pygen
open Verif.Annot (ODict)

/-! ## Specification -/

/-- A flag that is given exactly if it is true. -/
def Flag (kw : Kw) (k : String) (b : Bool) : Prop := ODict.get kw k.toList = if b then some (.bool true) else none

/-- Parameters have the types, names and default values that are declared. -/
def Params (ps : List Spec) (args : List ArgDecl) : Prop :=
  List.Forall₂ (fun (p : Spec) (a : ArgDecl) => p.args = [a.type, a.name] ∧
    ∀ c s, a.default = some (c :: s) → ODict.get p.kw "default_value".toList = some (.str (c :: s))) ps args

/-- Visibility is given exactly if it is not public. -/
def Visibility (kw : Kw) (access : Str) : Prop :=
  ODict.get kw "visibility".toList = if access = "public".toList then none else some (.str access)

/-- The member is accessible, is not a reference counting method, and nobody asked to leave it out. -/
inductive Exposed (cls : Cls) (m : Member) : Prop where
  | method {d : MethodDecl} (named : some m.name ∉ cls.refMethods) (wanted : (ODict.get m.globals "ignore".toList).isSome = false)
      (kind : m.kind = .method d) (plain : d.op = none ∨ d.op = some "()".toList)
      (accessible : d.access ≠ "private".toList ∨ d.virt ≠ .no)
  | ctor {d : CtorDecl} (named : some m.name ∉ cls.refMethods) (wanted : (ODict.get m.globals "ignore".toList).isSome = false)
      (kind : m.kind = .ctor d) (accessible : d.access = "public".toList ∨ d.access = "protected".toList)
  | var {d : VarDecl} (named : some m.name ∉ cls.refMethods) (wanted : (ODict.get m.globals "ignore".toList).isSome = false)
      (kind : m.kind = .var d) (name : m.name ≠ []) (accessible : d.access ≠ "protected".toList ∧ d.access ≠ "private".toList)
      (type : d.anonymousType = false)

/-- A registration says what the declaration says. -/
inductive Describes (m : Member) : Line → Prop where
  | method {d : MethodDecl} {ret : Spec} {ps : List Spec} {kw : Kw} (kind : m.kind = .method d) (type : ret.args = [d.ret])
      (params : Params ps d.args) (isConst : Flag kw "is_const" d.isConst) (isStatic : Flag kw "is_static" d.isStatic)
      (isVirtual : Flag kw "is_virtual" (d.virt ≠ .no)) (isPure : Flag kw "is_pure_virtual" (d.virt = .pure))
      (visibility : Visibility kw d.access) (deprecated : Flag kw "deprecated" d.deprecated)
      (templates : ∀ t ts, d.tmpl = some (t :: ts) → ODict.get kw "template_parameters".toList = some (.strs (t :: ts))) :
      Describes m (.func true m.name ret ps kw)
  | ctor {d : CtorDecl} {ps : List Spec} {kw : Kw} (kind : m.kind = .ctor d) (params : Params ps d.args)
      (visibility : Visibility kw d.access) (deprecated : Flag kw "deprecated" d.deprecated)
      (throws : ODict.get kw "throw".toList = if found d.throws = [] then none else some (.refs (found d.throws))) :
      Describes m (.ctor ps kw)
  | var {d : VarDecl} {ret : Spec} (kind : m.kind = .var d) (type : ret.args = [d.type]) :
      Describes m (.attr d.isStatic m.name ret d.isConst)

/-- All types of a registration are known, and a method can be added. -/
def Resolves (env : Env) : Line → Prop
  | .func m n ret ps kw => env.ret ret = .ok ∧ (∀ p ∈ ps, env.par p = .ok) ∧ env.add (.func m n ret ps kw) = .ok
  | .ctor ps _ => ∀ p ∈ ps, env.par p = .ok
  | .attr _ _ ret _ => env.ret ret = .ok
  | _ => True

/-- What happens to one member. -/
inductive Handled (env : Env) (cls : Cls) (m : Member) (evs : List Ev) : Prop where
  /-- it is not for Python -/
  | left (hidden : ¬ Exposed cls m) (regs : (acts evs).filter isReg = [])
  /-- it is registered as declared -/
  | done (l : Line) (exposed : Exposed cls m) (describes : Describes m l) (resolves : Resolves env l)
      (regs : (acts evs).filter isReg = [.reg l])
  /-- it cannot be registered, which is reported -/
  | failed (l : Line) (exposed : Exposed cls m) (describes : Describes m l) (unresolved : ¬ Resolves env l)
      (regs : (acts evs).filter isReg = []) (told : ∃ w, Ev.warn w ∈ evs)

/-! ## Proof -/

theorem allPar_iff {env : Env} {ps : List Spec} : allPar env ps = true ↔ ∀ p ∈ ps, env.par p = .ok := by
  unfold allPar
  rw [List.all_eq_true]
  exact forall_congr' fun p => by simp

theorem get_setTemplate_some (kw : Kw) (t : Str) (ts : List Str) :
    ODict.get (setTemplate kw (some (t :: ts))) "template_parameters".toList = some (.strs (t :: ts)) := by
  rw [setTemplate, Annot.get_set, if_pos rfl]

theorem argSpecs_params {num : Str → Option Int} {params : ODict Anns} {args : List ArgDecl} {r : List Spec × List Warn}
    (h : argSpecs num params args = .ok r) : Params r.1 args := by
  induction args generalizing r with
  | nil => cases h; exact .nil
  | cons a l ih =>
    rw [argSpecs] at h
    obtain ⟨p, hp, h⟩ := bind_ok h
    obtain ⟨q, hq, rfl⟩ := map_ok h
    refine .cons ⟨?_, ?_⟩ (ih hq)
    · obtain ⟨x, _, rfl⟩ := map_ok hp; rfl
    · intro c s hd
      obtain ⟨x, _, rfl⟩ := map_ok hp
      show ODict.get (setDefaultValue x.1 a.default) _ = _
      rw [hd, setDefaultValue, Annot.get_set, if_pos rfl]

/-- The declared properties are in the keyword arguments. -/
theorem methodKw_flags (d : MethodDecl) (custom : Option Str) (kw : Kw)
    (h : ∀ k ∈ ["is_const", "is_static", "is_virtual", "is_pure_virtual", "visibility", "deprecated"], ODict.get kw (String.toList k) = none) :
    Flag (methodKw d custom kw) "is_const" d.isConst ∧ Flag (methodKw d custom kw) "is_static" d.isStatic ∧
    Flag (methodKw d custom kw) "is_virtual" (d.virt ≠ .no) ∧ Flag (methodKw d custom kw) "is_pure_virtual" (d.virt = .pure) ∧
    Visibility (methodKw d custom kw) d.access ∧ Flag (methodKw d custom kw) "deprecated" d.deprecated ∧
    (∀ t ts, d.tmpl = some (t :: ts) → ODict.get (methodKw d custom kw) "template_parameters".toList = some (.strs (t :: ts))) := by
  have h1 := h "is_const" (by decide)
  have h2 := h "is_static" (by decide)
  have h3 := h "is_virtual" (by decide)
  have h4 := h "is_pure_virtual" (by decide)
  have h5 := h "visibility" (by decide)
  have h6 := h "deprecated" (by decide)
  refine ⟨?_, ?_, ?_, ?_, ?_, ?_, ?_⟩
  · unfold Flag methodKw
    simp only
    rw [get_setIf_ne _ _ _ _ (by decide), get_setIf_ne _ _ _ _ (by decide), get_setName_ne _ _ _ _ (by decide),
      get_setTemplate_ne _ _ _ (by decide), get_setIf_ne _ _ _ _ (by decide), get_setIf_ne _ _ _ _ (by decide),
      get_setIf_ne _ _ _ _ (by decide), get_setIf, h1]
    simp
  · unfold Flag methodKw
    simp only
    rw [get_setIf_ne _ _ _ _ (by decide), get_setIf_ne _ _ _ _ (by decide), get_setName_ne _ _ _ _ (by decide),
      get_setTemplate_ne _ _ _ (by decide), get_setIf_ne _ _ _ _ (by decide), get_setIf_ne _ _ _ _ (by decide),
      get_setIf, get_setIf_ne _ _ _ _ (by decide), h2]
    simp
  · unfold Flag methodKw
    simp only
    rw [get_setIf_ne _ _ _ _ (by decide), get_setIf_ne _ _ _ _ (by decide), get_setName_ne _ _ _ _ (by decide),
      get_setTemplate_ne _ _ _ (by decide), get_setIf_ne _ _ _ _ (by decide), get_setIf,
      get_setIf_ne _ _ _ _ (by decide), get_setIf_ne _ _ _ _ (by decide), h3]
    simp
  · unfold Flag methodKw
    simp only
    rw [get_setIf_ne _ _ _ _ (by decide), get_setIf_ne _ _ _ _ (by decide), get_setName_ne _ _ _ _ (by decide),
      get_setTemplate_ne _ _ _ (by decide), get_setIf,
      get_setIf_ne _ _ _ _ (by decide), get_setIf_ne _ _ _ _ (by decide), get_setIf_ne _ _ _ _ (by decide), h4]
    simp
  · unfold Visibility methodKw
    simp only
    rw [get_setIf_ne _ _ _ _ (by decide), get_setIf, get_setName_ne _ _ _ _ (by decide),
      get_setTemplate_ne _ _ _ (by decide), get_setIf_ne _ _ _ _ (by decide), get_setIf_ne _ _ _ _ (by decide),
      get_setIf_ne _ _ _ _ (by decide), get_setIf_ne _ _ _ _ (by decide), h5]
    by_cases ha : d.access = "public".toList <;> simp [ha]
  · unfold Flag methodKw
    simp only
    rw [get_setIf, get_setIf_ne _ _ _ _ (by decide), get_setName_ne _ _ _ _ (by decide),
      get_setTemplate_ne _ _ _ (by decide), get_setIf_ne _ _ _ _ (by decide), get_setIf_ne _ _ _ _ (by decide),
      get_setIf_ne _ _ _ _ (by decide), get_setIf_ne _ _ _ _ (by decide), h6]
    simp
  · intro t ts ht
    unfold methodKw
    simp only
    rw [get_setIf_ne _ _ _ _ (by decide), get_setIf_ne _ _ _ _ (by decide), get_setName_ne _ _ _ _ (by decide), ht,
      get_setTemplate_some]

theorem regs_append (a b : List Ev) : (acts (a ++ b)).filter isReg = (acts a).filter isReg ++ (acts b).filter isReg := by
  rw [acts_append, List.filter_append]

theorem regs_comment {g : Anns} {c : List Ev} (h : comment g = .ok c) : acts c = [] := (comment_run (env := demoEnv) h).1

/-- Adding a method: registered exactly if everything is known, otherwise a warning. -/
theorem addMethod_regs {env : Env} {d : MethodDecl} {name : Str} {ret : Spec} {ps : List Spec} {kw : Kw} {evs : List Ev}
    (h : addMethod env d name ret ps kw = .ok evs) :
    (Resolves env (.func true name ret ps kw) ∧ (acts evs).filter isReg = [.reg (.func true name ret ps kw)]) ∨
    (¬ Resolves env (.func true name ret ps kw) ∧ (acts evs).filter isReg = [] ∧ ∃ w, Ev.warn w ∈ evs) := by
  unfold addMethod at h
  simp only at h
  split at h
  · cases h
  · rename_i hr
    cases h
    right
    refine ⟨fun ⟨h, _⟩ => (by rw [hr] at h; cases h), ?_, _, List.mem_cons_self⟩
    rw [acts_warn]; split <;> rfl
  · rename_i hr
    obtain ⟨r, hm, h⟩ := bind_ok h
    have hp := makeParams_iff hm
    split at h
    · rename_i h1
      rw [h1] at hp
      split at h
      · rename_i ha
        cases h
        exact Or.inl ⟨⟨hr, allPar_iff.mp hp.symm, ha⟩, rfl⟩
      · cases h
      · rename_i ha
        cases h
        right
        refine ⟨fun ⟨_, _, h⟩ => (by rw [ha] at h; cases h), ?_, .adding name, by simp⟩
        rw [acts_append]
        split <;> rfl
    · rename_i h1
      have h1 : r.1 = false := by simpa using h1
      rw [h1] at hp
      cases h
      right
      obtain ⟨s, hs⟩ := makeParams_warn hm h1
      refine ⟨fun ⟨_, h, _⟩ => ?_, ?_, _, List.mem_append_left _ (List.mem_map.mpr ⟨_, hs, rfl⟩)⟩
      · rw [allPar_iff.mpr h] at hp; cases hp
      · rw [acts_append, acts_warns]; split <;> rfl

theorem methodStep_free {exc : Str → Option Str} {t : Bool} {anns : Anns} {r : Kw × List Warn}
    (h : loop (methodStep exc t) anns [] [] = .ok r) {k : Str}
    (hk : k ∉ [("unblock_threads".toList : Str), "custom_name".toList, "throw".toList]) : ODict.get r.1 k = none :=
  get_loop_ne (fun _ _ _ he p hp e => hk (by rw [← e]; exact methodStep_keys he p hp)) h

theorem get_setThrow (kw : Kw) (t : List (Str × Option Str)) (h : ODict.get kw "throw".toList = none) :
    ODict.get (setThrow kw t) "throw".toList = if found t = [] then none else some (.refs (found t)) := by
  unfold setThrow
  split
  · exact h
  · rw [Annot.get_set, if_pos rfl]

theorem scanMethod_handled {env : Env} {cls : Cls} {m : Member} {d : MethodDecl} {evs : List Ev} (hk : m.kind = .method d)
    (hn : some m.name ∉ cls.refMethods) (hw : (ODict.get m.globals "ignore".toList).isSome = false)
    (h : scanMethod env cls m d = .ok evs) : Handled env cls m evs := by
  unfold scanMethod at h
  obtain ⟨g, hg, h⟩ := bind_ok h
  split at h
  · rename_i hop
    cases h
    refine .left ?_ (by rw [acts_warns]; rfl)
    rintro (⟨_, _, kind, plain, _⟩ | ⟨_, _, kind, _⟩ | ⟨_, _, kind, _, _, _⟩)
    · rw [hk] at kind
      cases kind
      rcases plain with p | p
      · exact hop.1 p
      · exact hop.2 p
    · rw [hk] at kind; cases kind
    · rw [hk] at kind; cases kind
  rename_i hop
  have hop : d.op = none ∨ d.op = some "()".toList := by
    by_cases h : d.op = none
    · exact Or.inl h
    · exact Or.inr (Classical.byContradiction fun h' => hop ⟨h, h'⟩)
  obtain ⟨rt, hret, h⟩ := bind_ok h
  obtain ⟨pl, hps, h⟩ := bind_ok h
  obtain ⟨custom, hcu, h⟩ := bind_ok h
  have marks : ∀ x : List Warn, (acts (warns x ++ (if d.virt = .pure ∧ cls.allowSubclassing = false then
      [Ev.act .cannot] else []))).filter isReg = [] := by
    intro x
    rw [acts_append, acts_warns]
    split <;> rfl
  simp only at h
  generalize (if d.virt = .pure ∧ cls.allowSubclassing = false then [Ev.act .cannot] else []) = mk at h marks
  split at h
  · rename_i hp
    cases h
    refine .left ?_ (marks _)
    rintro (⟨_, _, kind, _, acc⟩ | ⟨_, _, kind, _⟩ | ⟨_, _, kind, _, _, _⟩)
    · rw [hk] at kind
      cases kind
      rcases acc with p | p
      · exact p hp.1
      · exact p hp.2
    · rw [hk] at kind; cases kind
    · rw [hk] at kind; cases kind
  rename_i hp
  obtain ⟨c, hc, h⟩ := bind_ok h
  obtain ⟨e2, he2, rfl⟩ := map_ok h
  have hexp : Exposed cls m := by
    refine .method hn hw hk hop ?_
    by_cases h : d.access = "private".toList
    · exact Or.inr fun h' => hp ⟨h, h'⟩
    · exact Or.inl h
  have free : ∀ k ∈ ["is_const", "is_static", "is_virtual", "is_pure_virtual", "visibility", "deprecated"],
      ODict.get (setThrow (setIf d.op.isSome g.1 "custom_name" (.str "__call__".toList)) d.throws) (String.toList k) = none := by
    intro k hk
    have ne1 : "throw".toList ≠ String.toList k := by
      simp only [List.mem_cons, List.not_mem_nil, or_false] at hk
      rcases hk with rfl | rfl | rfl | rfl | rfl | rfl <;> decide
    have ne2 : String.toList "custom_name" ≠ String.toList k := by
      simp only [List.mem_cons, List.not_mem_nil, or_false] at hk
      rcases hk with rfl | rfl | rfl | rfl | rfl | rfl <;> decide
    have ne3 : String.toList k ∉ [("unblock_threads".toList : Str), "custom_name".toList, "throw".toList] := by
      simp only [List.mem_cons, List.not_mem_nil, or_false] at hk
      rcases hk with rfl | rfl | rfl | rfl | rfl | rfl <;> decide
    rw [get_setThrow_ne _ _ _ ne1, get_setIf_ne _ _ _ _ ne2, methodStep_free hg ne3]
  obtain ⟨f1, f2, f3, f4, f5, f6, f7⟩ := methodKw_flags d custom _ free
  have hrt : rt.1.args = [d.ret] := by obtain ⟨x, _, rfl⟩ := map_ok hret; rfl
  have hd : Describes m (.func true m.name rt.1 pl.1 (methodKw d custom _)) :=
    .method hk hrt (argSpecs_params hps) f1 f2 f3 f4 f5 f6 f7
  rcases addMethod_regs he2 with ⟨hres, hregs⟩ | ⟨hres, hregs, w, hw⟩
  · refine .done _ hexp hd hres ?_
    rw [regs_append, regs_append, marks, regs_comment hc, acts_item, hregs]
    rfl
  · refine .failed _ hexp hd hres ?_ ⟨w, ?_⟩
    · rw [regs_append, regs_append, marks, regs_comment hc, acts_item, hregs]
      rfl
    · exact List.mem_append_right _ (List.mem_cons_of_mem _ hw)

theorem makeParams'_warn {env : Env} {ps : List Spec} {r : Bool × List Warn} (h : makeParams' env ps = .ok r)
    (hr : r.1 = false) : ∃ s, Warn.type s ∈ r.2 := by
  induction ps generalizing r with
  | nil => cases h; cases hr
  | cons s l ih =>
    rw [makeParams'] at h
    split at h
    · exact ih h hr
    · cases h; exact ⟨s, List.mem_cons_self⟩
    · cases h

/-- The keyword arguments of a constructor. -/
theorem ctorKw (d : CtorDecl) :
    let kw := setThrow (setIf (d.access ≠ "public".toList) (setIf d.deprecated [] "deprecated" (.bool true)) "visibility"
      (.str d.access)) d.throws
    Visibility kw d.access ∧ Flag kw "deprecated" d.deprecated ∧
    ODict.get kw "throw".toList = if found d.throws = [] then none else some (.refs (found d.throws)) := by
  refine ⟨?_, ?_, ?_⟩
  · unfold Visibility
    rw [get_setThrow_ne _ _ _ (by decide), get_setIf, get_setIf_ne _ _ _ _ (by decide)]
    by_cases ha : d.access = "public".toList
    · rw [if_neg (by simp [ha]), if_pos ha]; rfl
    · rw [if_pos ⟨decide_eq_true ha, rfl⟩, if_neg ha]
  · unfold Flag
    rw [get_setThrow_ne _ _ _ (by decide), get_setIf_ne _ _ _ _ (by decide), get_setIf]
    cases d.deprecated <;> rfl
  · refine get_setThrow _ _ ?_
    rw [get_setIf_ne _ _ _ _ (by decide), get_setIf_ne _ _ _ _ (by decide)]; rfl

theorem scanCtor_handled {env : Env} {cls : Cls} {m : Member} {d : CtorDecl} {r : List Ev × Bool × Bool} (hk : m.kind = .ctor d)
    (hn : some m.name ∉ cls.refMethods) (hw : (ODict.get m.globals "ignore".toList).isSome = false)
    (h : scanCtor env m d = .ok r) : Handled env cls m r.1 := by
  unfold scanCtor at h
  split at h
  · rename_i ha
    cases h
    refine .left ?_ rfl
    rintro (⟨_, _, kind, _, _⟩ | ⟨_, _, kind, acc⟩ | ⟨_, _, kind, _, _, _⟩)
    · rw [hk] at kind; cases kind
    · rw [hk] at kind
      cases kind
      rcases acc with p | p
      · exact ha.1 p
      · exact ha.2 p
    · rw [hk] at kind; cases kind
  rename_i ha
  obtain ⟨pl, hps, h⟩ := bind_ok h
  obtain ⟨c, hc, h⟩ := bind_ok h
  simp only at h
  obtain ⟨q, hq, rfl⟩ := map_ok h
  have hexp : Exposed cls m := by
    refine .ctor hn hw hk ?_
    by_cases h : d.access = "public".toList
    · exact Or.inl h
    · exact Or.inr (Classical.byContradiction fun h' => ha ⟨h, h'⟩)
  obtain ⟨k1, k2, k3⟩ := ctorKw d
  have hd := Describes.ctor hk (argSpecs_params hps) k1 k2 k3
  have hp := makeParams'_iff hq
  have base : (acts (warns pl.2 ++ c ++ warns (notFound d.throws) ++ [.item (.line (.ctor pl.1 (setThrow (setIf
      (d.access ≠ "public".toList) (setIf d.deprecated [] "deprecated" (.bool true)) "visibility"
      (.str d.access)) d.throws)))])) = [] := by
    rw [acts_append, acts_append, acts_append, acts_warns, acts_warns, regs_comment hc]
    rfl
  split
  · rename_i h1
    rw [h1] at hp
    refine .done _ hexp hd (allPar_iff.mp hp.symm) ?_
    rw [acts_append, base]
    rfl
  · rename_i h1
    have h1 : q.1 = false := by simpa using h1
    rw [h1] at hp
    obtain ⟨s, hs⟩ := makeParams'_warn hq h1
    refine .failed _ hexp hd (fun h => ?_) ?_ ⟨_, List.mem_append_right _ (List.mem_map.mpr ⟨_, hs, rfl⟩)⟩
    · rw [allPar_iff.mpr h] at hp; cases hp
    · rw [acts_append, base, acts_warns]; rfl

theorem scanVar_handled {env : Env} {cls : Cls} {m : Member} {d : VarDecl} {evs : List Ev} (hk : m.kind = .var d)
    (hn : some m.name ∉ cls.refMethods) (hw : (ODict.get m.globals "ignore".toList).isSome = false)
    (h : scanVar env m d = .ok evs) : Handled env cls m evs := by
  have hidden : (m.name ≠ [] → (d.access ≠ "protected".toList ∧ d.access ≠ "private".toList) → d.anonymousType = false → False) →
      ¬ Exposed cls m := by
    intro hno
    rintro (⟨_, _, kind, _, _⟩ | ⟨_, _, kind, _⟩ | ⟨_, _, kind, name, acc, ty⟩)
    · rw [hk] at kind; cases kind
    · rw [hk] at kind; cases kind
    · rw [hk] at kind; cases kind; exact hno name acc ty
  unfold scanVar at h
  split at h
  · rename_i h0; cases h; exact .left (hidden fun n _ _ => n h0) rfl
  rename_i h0
  split at h
  · rename_i h1; cases h; exact .left (hidden fun _ a _ => a.1 h1) rfl
  rename_i h1
  split at h
  · rename_i h2; cases h; exact .left (hidden fun _ a _ => a.2 h2) rfl
  rename_i h2
  split at h
  · rename_i h3; cases h; exact .left (hidden fun _ _ t => by rw [h3] at t; cases t) rfl
  rename_i h3
  have h3 : d.anonymousType = false := by simpa using h3
  obtain ⟨rt, hret, h⟩ := bind_ok h
  obtain ⟨c, hc, h⟩ := bind_ok h
  simp only at h
  have hrt : rt.1.args = [d.type] := by obtain ⟨x, _, rfl⟩ := map_ok hret; rfl
  have hexp : Exposed cls m := .var hn hw hk h0 ⟨h1, h2⟩ h3
  have hd : Describes m (.attr d.isStatic m.name rt.1 d.isConst) := .var hk hrt
  split at h
  · rename_i hr
    cases h
    refine .done _ hexp hd hr ?_
    rw [acts_append, acts_append, acts_append, acts_warns, regs_comment hc]
    rfl
  · rename_i hr
    cases h
    refine .failed _ hexp hd (fun h => ?_) ?_ ⟨.type rt.1, by simp⟩
    · have h : env.ret rt.1 = .ok := h
      rw [hr] at h; cases h
    · rw [acts_append, acts_append, acts_append, acts_warns, regs_comment hc]
      rfl
  · cases h

/-- **C88** for one member. -/
theorem scanMember_handled {env : Env} {cls : Cls} {m : Member} {r : List Ev × Bool × Bool} (h : scanMember env cls m = .ok r) :
    Handled env cls m r.1 := by
  unfold scanMember at h
  split at h
  · rename_i hn
    cases h
    refine .left ?_ rfl
    rintro (⟨named, _, _, _, _⟩ | ⟨named, _, _, _⟩ | ⟨named, _, _, _, _, _⟩) <;> exact named hn
  rename_i hn
  split at h
  · rename_i hw
    cases h
    refine .left ?_ rfl
    rintro (⟨_, w, _, _, _⟩ | ⟨_, w, _, _⟩ | ⟨_, w, _, _, _, _⟩) <;> (rw [hw] at w; cases w)
  rename_i hw
  have hw : (ODict.get m.globals "ignore".toList).isSome = false := by simpa using hw
  split at h
  · rename_i d hk
    obtain ⟨evs, he, rfl⟩ := map_ok h
    exact scanMethod_handled hk hn hw he
  · rename_i d hk
    exact scanCtor_handled hk hn hw h
  · rename_i d hk
    obtain ⟨evs, he, rfl⟩ := map_ok h
    exact scanVar_handled hk hn hw he
  · rename_i hk
    cases h
    refine .left ?_ rfl
    rintro (⟨_, _, kind, _, _⟩ | ⟨_, _, kind, _⟩ | ⟨_, _, kind, _, _, _⟩) <;> (rw [hk] at kind; cases kind)

end Verif.Scan
