import Verif.Parser.ReplayProps

/-! # C86: the lines a scan writes can be read back -/
namespace Verif.Scan
open Verif Verif.Pygen
open Verif.Annot (ODict)

/-- Keyword arguments that can be written, each once. -/
structure Good (kw : Kw) : Prop where
  ok : KwOk kw
  once : (kw.map (·.1)).Nodup

theorem good_nil : Good [] := ⟨fun _ h => (nomatch h), List.nodup_nil⟩

theorem mem_set {d : Kw} {k : Str} {v : PyVal} {p : Str × PyVal} (h : p ∈ ODict.set d k v) : p = (k, v) ∨ p ∈ d := by
  induction d with
  | nil => exact Or.inl (List.mem_singleton.mp h)
  | cons q l ih =>
    obtain ⟨a, b⟩ := q
    rw [ODict.set] at h
    split at h
    · rename_i e
      rcases List.mem_cons.mp h with h | h
      · left; rw [h, e]
      · right; exact List.mem_cons_of_mem _ h
    · rcases List.mem_cons.mp h with h | h
      · right; rw [h]; exact List.mem_cons_self
      · rcases ih h with h | h
        · exact Or.inl h
        · exact Or.inr (List.mem_cons_of_mem _ h)

theorem set_once {d : Kw} (k : Str) (v : PyVal) (h : (d.map (·.1)).Nodup) : ((ODict.set d k v).map (·.1)).Nodup := by
  induction d with
  | nil => simp [ODict.set]
  | cons q l ih =>
    obtain ⟨a, b⟩ := q
    rw [List.map_cons, List.nodup_cons] at h
    rw [ODict.set]
    split
    · rw [List.map_cons, List.nodup_cons]; exact h
    · rename_i hne
      rw [List.map_cons, List.nodup_cons]
      refine ⟨?_, ih h.2⟩
      intro hm
      obtain ⟨p, hp, e⟩ := List.mem_map.mp hm
      rcases mem_set hp with hp | hp
      · apply hne
        have e : p.1 = a := e
        rw [← e, hp]
      · exact h.1 (List.mem_map.mpr ⟨p, hp, e⟩)

theorem Good.set {kw : Kw} (h : Good kw) {k : Str} {v : PyVal} (hk : Ident k) (hv : v.Ok k) : Good (ODict.set kw k v) := by
  refine ⟨?_, set_once k v h.once⟩
  intro p hp
  rcases mem_set hp with hp | hp
  · rw [hp]; exact ⟨hk, hv⟩
  · exact h.ok p hp

theorem Good.setAll {l : List (Str × PyVal)} (hl : ∀ p ∈ l, Ident p.1 ∧ p.2.Ok p.1) {kw : Kw} (h : Good kw) :
    Good (setAll kw l) := by
  induction l generalizing kw with
  | nil => exact h
  | cons p l ih =>
    exact ih (fun q hq => hl q (List.mem_cons_of_mem _ hq))
      (h.set (hl p List.mem_cons_self).1 (hl p List.mem_cons_self).2)

theorem good_loop {step : Str → Option Str → PyRes Effect}
    (hs : ∀ n v e, step n v = .ok e → ∀ p ∈ e.1, Ident p.1 ∧ p.2.Ok p.1) {anns : Anns} {kw : Kw} {ws : List Warn}
    {r : Kw × List Warn} (hkw : Good kw) (h : loop step anns kw ws = .ok r) : Good r.1 := by
  induction anns generalizing kw ws with
  | nil => cases h; exact hkw
  | cons a l ih =>
    obtain ⟨n, v⟩ := a
    rw [loop] at h
    obtain ⟨e, he, h⟩ := bind_ok h
    exact ih (hkw.setAll (hs n v e he)) h

/-! ## Single annotations -/

theorem bool_ok {v : Option Str} {w : PyVal} (h : boolArg v = .ok w) (k : Str) : w.Ok k := by
  obtain ⟨b, _, rfl⟩ := map_ok h
  trivial

theorem int_ok {num : Str → Option Int} {v : Option Str} {w : PyVal} (h : intArg num v = .ok w) (k : Str) : w.Ok k := by
  unfold intArg at h
  split at h
  · cases h
  · split at h
    · cases h; trivial
    · cases h

theorem strArg_ok (v : Option Str) (k : Str) : (strArg v).Ok k := by cases v <;> trivial

theorem allSome_ne {α β : Type} {f : α → Option β} {l : List α} {m : List β} (h : allSome f l = some m) (hl : l ≠ []) : m ≠ [] := by
  cases l with
  | nil => exact absurd rfl hl
  | cons a l =>
    intro e
    subst e
    rw [allSome] at h
    cases h1 : f a with
    | none => rw [h1] at h; cases h
    | some b =>
      rw [h1] at h
      cases h2 : allSome f l with
      | none => rw [h2] at h; cases h
      | some c => rw [h2] at h; cases h

theorem splitOn_ne (c : Char) (s : Str) : splitOn c s ≠ [] := by
  cases s with
  | nil => intro h; cases h
  | cons x l =>
    rw [splitOn]
    split
    · intro h; cases h
    · split <;> (intro h; cases h)

theorem throw_ok {exc : Str → Option Str} {v : Option Str} {w : PyVal} (h : throwArg exc v = .ok w) : w.Ok "throw".toList := by
  unfold throwArg at h
  split at h
  · cases h
  · split at h
    · rename_i l hl
      cases h
      exact ⟨allSome_ne hl (splitOn_ne _ _), Or.inl rfl⟩
    · cases h

theorem assign_ok {k : Str} {v : PyRes PyVal} {e : Effect} (h : assign k v = .ok e) (hk : Ident k)
    (hv : ∀ w, v = .ok w → w.Ok k) : ∀ p ∈ e.1, Ident p.1 ∧ p.2.Ok p.1 := by
  obtain ⟨w, hw, rfl⟩ := map_ok h
  intro p hp
  rw [List.mem_singleton.mp hp]
  exact ⟨hk, hv w hw⟩

theorem none_ok {ws : List Warn} {e : Effect} (h : (Except.ok ([], ws) : PyRes Effect) = .ok e) :
    ∀ p ∈ e.1, Ident p.1 ∧ p.2.Ok p.1 := by
  cases h
  intro p hp
  cases hp

theorem one_ok {k : Str} {v : PyVal} {ws : List Warn} {e : Effect} (h : (Except.ok ([(k, v)], ws) : PyRes Effect) = .ok e)
    (hk : Ident k) (hv : v.Ok k) : ∀ p ∈ e.1, Ident p.1 ∧ p.2.Ok p.1 := by
  cases h
  intro p hp
  rw [List.mem_singleton.mp hp]
  exact ⟨hk, hv⟩

theorem returnStep_ok {num : Str → Option Int} {n : Str} {v : Option Str} {e : Effect} (h : returnStep num n v = .ok e) :
    ∀ p ∈ e.1, Ident p.1 ∧ p.2.Ok p.1 := by
  unfold returnStep at h
  split at h
  · obtain ⟨w, hw, rfl⟩ := map_ok h
    intro p hp
    rw [List.mem_singleton.mp hp]
    exact ⟨(by unfold Ident; decide : Ident "caller_owns_return".toList), bool_ok hw _⟩
  split at h
  · rename_i hn; exact assign_ok h (by rw [hn]; unfold Ident; decide) (fun w hw => bool_ok hw _)
  split at h
  · rename_i hn; exact assign_ok h (by rw [hn]; unfold Ident; decide) (fun w hw => bool_ok hw _)
  split at h
  · rename_i hn; exact assign_ok h (by rw [hn]; unfold Ident; decide) (fun w hw => bool_ok hw _)
  split at h
  · rename_i hn; exact assign_ok h (by rw [hn]; unfold Ident; decide) (fun w hw => int_ok hw _)
  · exact none_ok h

theorem directionStep_ok {v : Option Str} {e : Effect} (h : directionStep v = .ok e) : ∀ p ∈ e.1, Ident p.1 ∧ p.2.Ok p.1 := by
  unfold directionStep at h
  split at h
  · cases h
  split at h
  · exact one_ok h (by unfold Ident; decide) trivial
  split at h
  · exact one_ok h (by unfold Ident; decide) trivial
  split at h
  · exact one_ok h (by unfold Ident; decide) trivial
  · exact none_ok h

theorem paramStep_ok {num : Str → Option Int} {n : Str} {v : Option Str} {e : Effect} (h : paramStep num n v = .ok e) :
    ∀ p ∈ e.1, Ident p.1 ∧ p.2.Ok p.1 := by
  unfold paramStep at h
  split at h
  · rename_i hn; exact assign_ok h (by rw [hn]; unfold Ident; decide) (fun w hw => bool_ok hw _)
  split at h
  · exact directionStep_ok h
  split at h
  · rename_i hn; exact assign_ok h (by rw [hn]; unfold Ident; decide) (fun w hw => int_ok hw _)
  split at h
  · rename_i hn; exact assign_ok h (by rw [hn]; unfold Ident; decide) (fun w hw => int_ok hw _)
  split at h
  · rename_i hn; exact one_ok h (by rw [hn]; unfold Ident; decide) (strArg_ok _ _)
  split at h
  · rename_i hn; exact assign_ok h (by rw [hn]; unfold Ident; decide) (fun w hw => bool_ok hw _)
  · exact none_ok h

theorem methodStep_ok {exc : Str → Option Str} {t : Bool} {n : Str} {v : Option Str} {e : Effect}
    (h : methodStep exc t n v = .ok e) : ∀ p ∈ e.1, Ident p.1 ∧ p.2.Ok p.1 := by
  unfold methodStep at h
  split at h
  · exact none_ok h
  split at h
  · exact none_ok h
  split at h
  · rename_i hn; exact assign_ok h (by rw [hn]; unfold Ident; decide) (fun w hw => bool_ok hw _)
  split at h
  · exact one_ok h (by unfold Ident; decide) (strArg_ok _ _)
  split at h
  · rename_i hn; exact assign_ok h (by rw [hn]; unfold Ident; decide) (fun w hw => by rw [hn]; exact throw_ok hw)
  · exact none_ok h

theorem functionStep_ok {exc : Str → Option Str} {n : Str} {v : Option Str} {e : Effect}
    (h : functionStep exc n v = .ok e) : ∀ p ∈ e.1, Ident p.1 ∧ p.2.Ok p.1 := by
  unfold functionStep at h
  iterate 7
    split at h
    · exact none_ok h
  split at h
  · rename_i hn; exact assign_ok h (by rw [hn]; unfold Ident; decide) (fun w hw => bool_ok hw _)
  split at h
  · rename_i hn; exact assign_ok h (by rw [hn]; unfold Ident; decide) (fun w hw => by rw [hn]; exact throw_ok hw)
  · exact none_ok h

/-! ## Types and parameters -/

theorem lookupReturn_good {num : Str → Option Int} {t : Str} {a : Anns} {r : Spec × List Warn}
    (h : lookupReturn num t a = .ok r) : Good r.1.kw := by
  obtain ⟨q, hq, rfl⟩ := map_ok h
  exact good_loop (fun n v e he => returnStep_ok he) good_nil hq

theorem lookupParameter_good {num : Str → Option Int} {t n : Str} {a : Anns} {d : Option Str} {r : Spec × List Warn}
    (h : lookupParameter num t n a d = .ok r) : Good r.1.kw := by
  obtain ⟨q, hq, rfl⟩ := map_ok h
  have g := good_loop (fun n v e he => paramStep_ok he) good_nil hq
  show Good (setDefaultValue q.1 d)
  unfold setDefaultValue
  split
  · exact g.set (by unfold Ident; decide) trivial
  · exact g

theorem argSpecs_good {num : Str → Option Int} {params : ODict Anns} {l : List ArgDecl} {r : List Spec × List Warn}
    (h : argSpecs num params l = .ok r) : ∀ s ∈ r.1, Good s.kw := by
  induction l generalizing r with
  | nil => cases h; intro s hs; cases hs
  | cons a l ih =>
    rw [argSpecs] at h
    obtain ⟨p, hp, h⟩ := bind_ok h
    obtain ⟨q, hq, rfl⟩ := map_ok h
    intro s hs
    rcases List.mem_cons.mp hs with rfl | hs
    · exact lookupParameter_good hp
    · exact ih hq s hs

theorem funArgs_good {env : Env} {params : ODict Anns} {am : Bool} {i : Nat} {l : List ArgDecl}
    {r : List Spec × Bool × List Warn} (h : funArgs env params am i l = .ok r) : ∀ s ∈ r.1, Good s.kw := by
  induction l generalizing i r with
  | nil => cases h; intro s hs; cases hs
  | cons a l ih =>
    rw [funArgs] at h
    obtain ⟨p, hp, h⟩ := bind_ok h
    have go : ∀ q, funArgs env params am (i + 1) l = .ok q → ∀ s ∈ p.1 :: q.1, Good s.kw := by
      intro q hq s hs
      rcases List.mem_cons.mp hs with rfl | hs
      · exact lookupParameter_good hp
      · exact ih hq s hs
    split at h
    · cases h
    · obtain ⟨q, hq, rfl⟩ := map_ok h; exact go q hq
    · obtain ⟨q, hq, rfl⟩ := map_ok h; exact go q hq

theorem Good.setIf {kw : Kw} (h : Good kw) {b : Bool} {k : String} {v : PyVal} (hk : Ident k.toList) (hv : v.Ok k.toList) :
    Good (setIf b kw k v) := by
  unfold Scan.setIf
  split
  · exact h.set hk hv
  · exact h

theorem Good.setThrow {kw : Kw} (h : Good kw) (t : List (Str × Option Str)) : Good (setThrow kw t) := by
  unfold Scan.setThrow
  split
  · exact h
  · rename_i hn
    exact h.set (by unfold Ident; decide) ⟨hn, Or.inl rfl⟩

theorem Good.setTemplate {kw : Kw} (h : Good kw) (t : Option (List Str)) : Good (setTemplate kw t) := by
  unfold Scan.setTemplate
  split
  · exact h.set (by unfold Ident; decide) trivial
  · exact h

theorem Good.setName {kw : Kw} (h : Good kw) {k : String} (hk : Ident k.toList) (n : Option Str) : Good (setName kw k n) := by
  unfold Scan.setName
  split
  · exact h.set hk trivial
  · exact h

theorem Good.methodKw {kw : Kw} (h : Good kw) (d : MethodDecl) (custom : Option Str) : Good (methodKw d custom kw) := by
  unfold Scan.methodKw
  simp only
  exact ((((((((h.setIf (by unfold Ident; decide) (by trivial)).setIf (by unfold Ident; decide) (by trivial)).setIf
    (by unfold Ident; decide) (by trivial)).setIf (by unfold Ident; decide) (by trivial)).setTemplate _).setName
    (by unfold Ident; decide) _).setIf (by unfold Ident; decide) (by trivial)).setIf (by unfold Ident; decide) (by trivial))

theorem Good.functionKw {kw : Kw} (h : Good kw) (f : FunDecl) (custom : Option Str) : Good (functionKw f custom kw) := by
  unfold Scan.functionKw
  simp only
  refine Good.setIf (Good.setName ?_ (by unfold Ident; decide) _) (by unfold Ident; decide) (by trivial)
  have h1 : Good (setTemplates kw f.tmpl) := by
    unfold setTemplates
    split
    · exact h.set (by unfold Ident; decide) trivial
    · exact h
  unfold setCustom
  split
  · exact h1.set (by unfold Ident; decide) trivial
  · exact h1

/-! ## Lines -/

/-- A line whose keyword arguments, and those of its types, can be written. -/
def GoodLine : Line → Prop
  | .func _ _ ret ps kw => Good ret.kw ∧ (∀ s ∈ ps, Good s.kw) ∧ Good kw
  | .asMethod _ _ ret ps _ => Good ret.kw ∧ (∀ s ∈ ps, Good s.kw)
  | .asCtor _ _ ret ps => Good ret.kw ∧ (∀ s ∈ ps, Good s.kw)
  | .ctor ps kw => (∀ s ∈ ps, Good s.kw) ∧ Good kw
  | .attr _ _ ret _ => Good ret.kw
  | .binop _ _ _ r => Good r.kw
  | .inplace _ r => Good r.kw
  | .copyCtor | .unop _ | .cmp _ | .stream => True
  | _ => False

theorem GoodLine.ok {l : Line} (h : GoodLine l) : l.Ok := by
  cases l with
  | func => exact ⟨h.1.ok, fun p hp => (h.2.1 p hp).ok, h.2.2.ok⟩
  | asMethod => exact ⟨h.1.ok, fun p hp => (h.2 p hp).ok⟩
  | asCtor => exact ⟨h.1.ok, fun p hp => (h.2 p hp).ok⟩
  | ctor => exact ⟨fun p hp => (h.1 p hp).ok, h.2.ok⟩
  | attr => exact Good.ok h
  | binop => exact Good.ok h
  | inplace => exact Good.ok h
  | copyCtor => trivial
  | unop => trivial
  | cmp => trivial
  | stream => trivial
  | type => exact h.elim
  | enum => exact h.elim
  | conv => exact h.elim
  | typedef => exact h.elim
  | «alias» => exact h.elim
  | container => exact h.elim

/-- All lines written are such. -/
def GoodEvs (evs : List Ev) : Prop := ∀ l, Ev.item (.line l) ∈ evs → GoodLine l

theorem GoodEvs.append {a b : List Ev} (ha : GoodEvs a) (hb : GoodEvs b) : GoodEvs (a ++ b) := by
  intro l hl
  rcases List.mem_append.mp hl with h | h
  · exact ha l h
  · exact hb l h

theorem GoodEvs.cons {i : Item} {b : List Ev} (h : ∀ l, i = .line l → GoodLine l) (hb : GoodEvs b) : GoodEvs (.item i :: b) := by
  intro l hl
  rcases List.mem_cons.mp hl with e | e
  · cases e; exact h l rfl
  · exact hb l e

theorem goodEvs_line {l : Line} (h : GoodLine l) {b : List Ev} (hb : GoodEvs b) : GoodEvs (.item (.line l) :: b) :=
  GoodEvs.cons (fun m e => by cases e; exact h) hb

theorem goodEvs_act {a : Act} {b : List Ev} (hb : GoodEvs b) : GoodEvs (.act a :: b) := by
  intro l hl
  rcases List.mem_cons.mp hl with e | e
  · cases e
  · exact hb l e

theorem goodEvs_warn {a : Warn} {b : List Ev} (hb : GoodEvs b) : GoodEvs (.warn a :: b) := by
  intro l hl
  rcases List.mem_cons.mp hl with e | e
  · cases e
  · exact hb l e

theorem goodEvs_nil : GoodEvs [] := fun _ h => nomatch h

theorem goodEvs_warns (ws : List Warn) : GoodEvs (warns ws) := by
  induction ws with
  | nil => exact goodEvs_nil
  | cons w l ih => exact goodEvs_warn ih

theorem goodEvs_comment {g : Anns} {c : List Ev} (h : comment g = .ok c) : GoodEvs c := by
  unfold comment at h
  split at h
  · cases h; exact goodEvs_nil
  · cases h
  · cases h; exact GoodEvs.cons (by intro l h; cases h) goodEvs_nil

theorem goodEvs_disable (p : Prop) [Decidable p] :
    GoodEvs (if p then [.act .cannot, .act .helperOff, .item (.cannot n), .item .helperOff] else []) := by
  split
  · exact goodEvs_act (goodEvs_act (GoodEvs.cons (by intro l h; cases h) (GoodEvs.cons (by intro l h; cases h) goodEvs_nil)))
  · exact goodEvs_nil

theorem goodEvs_off (p : Prop) [Decidable p] : GoodEvs (if p then [.act .cannot, .act .helperOff] else []) := by
  split
  · exact goodEvs_act (goodEvs_act goodEvs_nil)
  · exact goodEvs_nil

theorem addMethod_goodEvs {env : Env} {d : MethodDecl} {name : Str} {ret : Spec} {ps : List Spec} {kw : Kw} {evs : List Ev}
    (h : addMethod env d name ret ps kw = .ok evs) : GoodEvs evs := by
  unfold addMethod at h
  simp only at h
  split at h
  · cases h
  · cases h; exact goodEvs_warn (goodEvs_off _)
  · obtain ⟨r, hm, h⟩ := bind_ok h
    split at h
    · split at h
      · cases h; exact goodEvs_act goodEvs_nil
      · cases h
      · cases h; exact (goodEvs_disable _).append (goodEvs_warn goodEvs_nil)
    · cases h; exact (goodEvs_warns _).append (goodEvs_off _)

theorem scanMethod_goodEvs {env : Env} {cls : Cls} {m : Member} {d : MethodDecl} {evs : List Ev}
    (h : scanMethod env cls m d = .ok evs) : GoodEvs evs := by
  unfold scanMethod at h
  obtain ⟨r, hr, h⟩ := bind_ok h
  have gr : Good r.1 := good_loop (fun n v e he => methodStep_ok he) good_nil hr
  split at h
  · cases h; exact goodEvs_warns _
  simp only at h
  obtain ⟨ret, hret, h⟩ := bind_ok h
  obtain ⟨ps, hps, h⟩ := bind_ok h
  obtain ⟨custom, -, h⟩ := bind_ok h
  have hstart : ∀ ws : List Warn, GoodEvs (warns ws ++ (if d.virt = .pure ∧ cls.allowSubclassing = false then
      [.act .cannot] else [])) := by
    intro ws
    refine (goodEvs_warns _).append ?_
    split
    · exact goodEvs_act goodEvs_nil
    · exact goodEvs_nil
  split at h
  · cases h; exact hstart _
  obtain ⟨c, hc, h⟩ := bind_ok h
  obtain ⟨e2, he2, rfl⟩ := map_ok h
  refine ((hstart _).append (goodEvs_comment hc)).append (goodEvs_line (l := .func _ _ _ _ _) ⟨lookupReturn_good hret, argSpecs_good hps, ?_⟩
    (addMethod_goodEvs he2))
  exact ((gr.setIf (by unfold Ident; decide) (by trivial)).setThrow _).methodKw _ _

theorem scanCtor_goodEvs {env : Env} {m : Member} {d : CtorDecl} {r : List Ev × Bool × Bool}
    (h : scanCtor env m d = .ok r) : GoodEvs r.1 := by
  unfold scanCtor at h
  split at h
  · cases h; exact goodEvs_nil
  obtain ⟨ps, hps, h⟩ := bind_ok h
  obtain ⟨c, hc, h⟩ := bind_ok h
  obtain ⟨q, hq, h⟩ := map_ok h
  have g : GoodEvs (warns ps.2 ++ c ++ warns (notFound d.throws) ++ [.item (.line (.ctor ps.1
      (setThrow (setIf (d.access ≠ "public".toList) (setIf d.deprecated [] "deprecated" (.bool true)) "visibility"
        (.str d.access)) d.throws)))]) :=
    (((goodEvs_warns _).append (goodEvs_comment hc)).append (goodEvs_warns _)).append
      (goodEvs_line (l := .ctor _ _) ⟨argSpecs_good hps,
        ((good_nil.setIf (by unfold Ident; decide) (by trivial)).setIf (by unfold Ident; decide) (by trivial)).setThrow _⟩ goodEvs_nil)
  split at h
  · subst h; exact g.append (goodEvs_act goodEvs_nil)
  · subst h; exact g.append (goodEvs_warns _)

theorem scanVar_goodEvs {env : Env} {m : Member} {d : VarDecl} {evs : List Ev}
    (h : scanVar env m d = .ok evs) : GoodEvs evs := by
  unfold scanVar at h
  split at h
  · cases h; exact goodEvs_nil
  split at h
  · cases h; exact goodEvs_warn goodEvs_nil
  split at h
  · cases h; exact goodEvs_nil
  split at h
  · cases h; exact goodEvs_warn goodEvs_nil
  obtain ⟨ret, hret, h⟩ := bind_ok h
  obtain ⟨c, hc, h⟩ := bind_ok h
  simp only at h
  have g : GoodEvs (warns ret.2 ++ c ++ [.item (.line (.attr d.isStatic m.name ret.1 d.isConst))]) :=
    ((goodEvs_warns _).append (goodEvs_comment hc)).append (goodEvs_line (l := .attr _ _ _ _) (lookupReturn_good hret) goodEvs_nil)
  split at h
  · cases h; exact g.append (goodEvs_act goodEvs_nil)
  · cases h; exact g.append (goodEvs_warn goodEvs_nil)
  · cases h

theorem scanMember_goodEvs {env : Env} {cls : Cls} {m : Member} {r : List Ev × Bool × Bool}
    (h : scanMember env cls m = .ok r) : GoodEvs r.1 := by
  unfold scanMember at h
  split at h
  · cases h; exact goodEvs_nil
  split at h
  · cases h; exact goodEvs_nil
  split at h
  · obtain ⟨evs, he, rfl⟩ := map_ok h
    exact scanMethod_goodEvs he
  · exact scanCtor_goodEvs h
  · obtain ⟨evs, he, rfl⟩ := map_ok h
    exact scanVar_goodEvs he
  · cases h; exact goodEvs_nil

theorem scanMembers_goodEvs {env : Env} {cls : Cls} {ms : List Member} {r : List Ev × Bool × Bool}
    (h : scanMembers env cls ms = .ok r) : GoodEvs r.1 := by
  induction ms generalizing r with
  | nil => cases h; exact goodEvs_nil
  | cons m l ih =>
    rw [scanMembers] at h
    obtain ⟨a, ha, h⟩ := bind_ok h
    obtain ⟨b, hb, rfl⟩ := map_ok h
    exact (scanMember_goodEvs ha).append (ih hb)

theorem goodEvs_both {l : Line} (h : GoodLine l) : GoodEvs [.act (.reg l), .item (.line l)] :=
  goodEvs_act (goodEvs_line h goodEvs_nil)

theorem goodEvs_put {l : Line} (h : GoodLine l) (p : Prop) [Decidable p] :
    GoodEvs (.item (.line l) :: if p then [.act (.reg l)] else []) := by
  refine goodEvs_line h ?_
  split
  · exact goodEvs_act goodEvs_nil
  · exact goodEvs_nil

theorem scanOperator_goodEvs {env : Env} {o : OpDecl} {evs : List Ev} (h : scanOperator env o = .ok evs) : GoodEvs evs := by
  unfold scanOperator at h
  simp only at h
  generalize (if o.isMember = true then o.args.length - 1 else o.args.length) = nargs at h
  split at h
  · cases h; exact goodEvs_both trivial
  split at h
  · cases h; exact goodEvs_both trivial
  split at h
  · cases h
  split at h
  · cases h; exact goodEvs_nil
  split at h
  · cases h; exact goodEvs_warn goodEvs_nil
  split at h
  · cases h; exact goodEvs_warn goodEvs_nil
  split at h
  · obtain ⟨p, hp, h⟩ := bind_ok h
    have g := lookupParameter_good hp
    split at h
    · cases h
      refine (((goodEvs_warns _).append goodEvs_nil).append ?_).append ?_
      · split
        · exact goodEvs_put (l := .binop _ _ _ _) g _
        · exact goodEvs_nil
      · split
        · exact goodEvs_put (l := .inplace _ _) g _
        · exact goodEvs_nil
    · cases h
      refine (((goodEvs_warns _).append (goodEvs_warn goodEvs_nil)).append ?_).append ?_
      · split
        · exact goodEvs_put (l := .binop _ _ _ _) g _
        · exact goodEvs_nil
      · split
        · exact goodEvs_put (l := .inplace _ _) g _
        · exact goodEvs_nil
    · cases h
  · split at h
    · cases h; exact goodEvs_line (l := .unop _) trivial (goodEvs_act goodEvs_nil)
    · cases h; exact goodEvs_nil
  · cases h; exact goodEvs_warn goodEvs_nil

theorem scanOperators_goodEvs {env : Env} {os : List OpDecl} {evs : List Ev} (h : scanOperators env os = .ok evs) :
    GoodEvs evs := by
  induction os generalizing evs with
  | nil => cases h; exact goodEvs_nil
  | cons o l ih =>
    rw [scanOperators] at h
    obtain ⟨a, ha, h⟩ := bind_ok h
    obtain ⟨b, hb, rfl⟩ := map_ok h
    exact (scanOperator_goodEvs ha).append (ih hb)

theorem scanClass_goodEvs {env : Env} {cls : Cls} {d : ClassDecl} {evs : List Ev} (h : scanClass env cls d = .ok evs) :
    GoodEvs evs := by
  unfold scanClass at h
  obtain ⟨ops, ho, h⟩ := bind_ok h
  obtain ⟨r, hr, rfl⟩ := map_ok h
  refine (((scanOperators_goodEvs ho).append (scanMembers_goodEvs hr)).append ?_).append ?_
  · split
    · exact goodEvs_both ⟨fun _ h => (nomatch h), good_nil⟩
    · exact goodEvs_nil
  · split
    · exact goodEvs_both trivial
    · exact goodEvs_nil

theorem emit_goodEvs {f : FunDecl} {ok : Bool} {l : Line} {evs : List Ev} (h : emit f ok l = .ok evs) (hl : GoodLine l) :
    GoodEvs evs := by
  obtain ⟨c, hc, rfl⟩ := map_ok h
  exact (goodEvs_comment hc).append (goodEvs_put hl _)

theorem scanFunction_goodEvs {env : Env} {f : FunDecl} {evs : List Ev} (h : scanFunction env f = .ok evs) : GoodEvs evs := by
  unfold scanFunction at h
  obtain ⟨g, hg, h⟩ := bind_ok h
  split at h
  · cases h; exact goodEvs_warns _
  obtain ⟨ret, hret, h⟩ := bind_ok h
  obtain ⟨ro, -, h⟩ := bind_ok h
  obtain ⟨ps, hps, h⟩ := bind_ok h
  obtain ⟨e2, he2, rfl⟩ := map_ok h
  refine (goodEvs_warns _).append ?_
  have gr := lookupReturn_good hret
  have gp := funArgs_good hps
  have gk : Good (setThrow g.1 f.throws) := (good_loop (fun n v e he => functionStep_ok he) good_nil hg).setThrow _
  unfold emitFunction at he2
  split at he2
  · split at he2
    · cases he2
    split at he2
    · cases he2
    · exact emit_goodEvs he2 ⟨gr, gp⟩
  · split at he2
    · split at he2
      · cases he2
      · exact emit_goodEvs he2 ⟨gr, gp⟩
    · obtain ⟨cu, -, he2⟩ := bind_ok he2
      exact emit_goodEvs he2 ⟨gr, gp, gk.functionKw _ _⟩

end Verif.Scan
