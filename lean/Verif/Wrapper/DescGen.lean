import Verif.Wrapper.DescExec

/-!
# C41 for all handlers written as data: the theorem
-/
namespace Verif.Wrap
open Verif Verif.Flow Verif.Params Verif.DeclScope

variable {Val Py : Type}

/-- A handler that may mention the position of its argument in error messages. -/
abbrev PDesc := Nat → Desc

def PDesc.convert (p : PDesc) : Gen1 := fun w => (p (w.parse.length + 1)).convert w

/-- The handlers with their positions: every handler with a parsing unit takes one. -/
def resolve : Nat → List PDesc → List Desc
  | _, [] => []
  | n, p :: ps => p n :: resolve (n + (p n).unit.toList.length) ps

/-- The calls made on `before_call` and `after_call`. -/
def Inst.before (it : Inst) : List Op := it.d.before.flatMap (fun s => s.ops.map (TOp.op it.vs))
def Inst.after (it : Inst) : List Op :=
  it.d.after.flatMap (fun s => s.texts.map (fun t => Op.write 2 (render it.vs t)))

/-- The declarations. -/
def Inst.decls (it : Inst) : List (Str × Option Str) := it.vs.zip (it.d.vars.map (·.init))

/-- Effect of converting the parameters. -/
theorem convert_descs : ∀ (ps : List PDesc) {w w' : W}, convertParams (ps.map PDesc.convert) w = .ok w' →
    ∃ its : List Inst, its.map (·.d) = resolve (w.parse.length + 1) ps ∧
      (∀ it ∈ its, it.vs.length = it.d.vars.length) ∧
      w'.vars = w.vars ++ its.flatMap Inst.decls ∧
      w'.parse = w.parse ++ its.flatMap (fun it => it.d.items it.vs) ∧
      w'.build = w.build ++ its.flatMap (fun it => it.d.builds it.vs) ∧
      w'.call = w.call ++ its.map (fun it => render it.vs it.d.arg) ∧
      w'.ops = w.ops ++ its.flatMap (fun it => it.before ++ it.after) ∧
      ∀ it ∈ its, ∀ v ∈ it.vs, ∃ x ∈ it.d.vars, ∃ k, v = nthName x.base k
  | [], w, w', h => by
    cases h
    exact ⟨[], rfl, by simp, by simp, by simp, by simp, by simp, by simp, by simp⟩
  | p :: ps, w, w', h => by
    simp only [List.map_cons, convertParams] at h
    obtain ⟨w1, h1, h2⟩ := bind_ok.mp h
    obtain ⟨w2, vs, hd, -, e⟩ := desc_spec (guardNI_ok.mp h1)
    obtain ⟨its, q0, q1, q2, q3, q4, q5, q6, q7⟩ := convert_descs ps h2
    have hlen : (w.parse ++ (p (w.parse.length + 1)).items vs).length + 1 =
        w.parse.length + 1 + (p (w.parse.length + 1)).unit.toList.length := by
      simp [Desc.items]; omega
    refine ⟨⟨p (w.parse.length + 1), vs⟩ :: its, ?_, ?_, ?_, ?_, ?_, ?_, ?_, ?_⟩
    · rw [List.map_cons, q0, e]
      simp only [resolve]
      rw [hlen]
    · intro it hit
      rcases List.mem_cons.mp hit with rfl | hit
      · exact hd.length
      · exact q1 it hit
    · rw [q2, e]; simp [hd.vars, Inst.decls]
    · rw [q3, e]; simp
    · rw [q4, e]; simp
    · rw [q5, e]; simp
    · rw [q6, e]; simp [Desc.opsAt, Inst.before, Inst.after]
    · intro it hit
      rcases List.mem_cons.mp hit with rfl | hit
      · exact hd.named
      · exact q7 it hit

/-- The names used by the generator itself, the parameters and the return value handler. -/
def descNames (ds : List Desc) (ret : RDesc) : List Str :=
  ["py_retval", "retval", "args", "kwargs", "py_thread_state", "keywords", "wards"].map String.toList ++
    ds.flatMap (fun d => d.vars.map (·.base)) ++ ret.vars.map (·.base)

theorem tracks_declareAll {B : Str → Prop} : ∀ {ds : List DVar} {w w' : W} {vs : List Str},
    declareAll ds w = .ok (w', vs) → Tracks B w → (∀ d ∈ ds, B d.base) → Tracks B w'
  | [], w, w', vs, h, hw, _ => by cases h; exact hw
  | d :: ds, w, w', vs, h, hw, hB => by
    simp only [declareAll] at h
    obtain ⟨⟨w1, v⟩, h1, h⟩ := bind_ok.mp h
    obtain ⟨⟨w2, vs'⟩, h2, h⟩ := bind_ok.mp h
    cases h
    exact tracks_declareAll h2 (tracks_declare hw h1 (hB d List.mem_cons_self))
      (fun d' hd' => hB d' (List.mem_cons_of_mem _ hd'))

theorem tracks_descs {B : Str → Prop} : ∀ {ps : List PDesc} {w w' : W},
    convertParams (ps.map PDesc.convert) w = .ok w' → Tracks B w →
    (∀ d ∈ resolve (w.parse.length + 1) ps, ∀ v ∈ d.vars, B v.base) → Tracks B w'
  | [], w, w', h, hw, _ => by cases h; exact hw
  | p :: ps, w, w', h, hw, hB => by
    simp only [List.map_cons, convertParams] at h
    obtain ⟨w1, h1, h2⟩ := bind_ok.mp h
    obtain ⟨w2, vs, hd, hda, e⟩ := desc_spec (guardNI_ok.mp h1)
    simp only [resolve] at hB
    have t1 : Tracks B w1 := by
      rw [e]
      exact tracks_congr (tracks_declareAll hda hw (hB _ List.mem_cons_self)) rfl rfl
    refine tracks_descs h2 t1 ?_
    have hlen : w1.parse.length + 1 = w.parse.length + 1 + (p (w.parse.length + 1)).unit.toList.length := by
      rw [e]; simp [Desc.items]; omega
    rw [hlen]
    exact fun d hd => hB d (List.mem_cons_of_mem _ hd)

/-- The configuration of a function or method wrapper, see `funConfig`. -/
def descConfig (unblock : Bool) (ps : List PDesc) (dep : Option Str) (assign callee : Str)
    (excs : List (Str × Str)) (er : Str) (force : Option ParseKind) (ret : RDesc)
    (before after : List (Str × Str)) : Config :=
  { unblock, params := ps.map PDesc.convert, deprecated := dep, pre := addWards 1 before
    call := genCall assign callee excs er, force, ret := some ret.convert, post := addWards 2 after }

/-- The calls made on one block. -/
def onBlock (i : Nat) (ops : List Op) : List Op := ops.filter (fun o => o.block == i)

theorem onBlock_append (i : Nat) (a b : List Op) : onBlock i (a ++ b) = onBlock i a ++ onBlock i b := by
  simp [onBlock]

theorem onBlock_all {i : Nat} {l : List Op} (h : ∀ o ∈ l, o.block = i) : onBlock i l = l :=
  List.filter_eq_self.mpr (fun o ho => by simp [h o ho])

theorem onBlock_none {i j : Nat} {l : List Op} (h : ∀ o ∈ l, o.block = j) (hij : j ≠ i) : onBlock i l = [] :=
  List.filter_eq_nil_iff.mpr (fun o ho => by simp [h o ho, hij])

theorem inst_before_block (it : Inst) : ∀ o ∈ it.before, o.block = 1 := by
  intro o ho
  simp only [Inst.before, List.mem_flatMap, List.mem_map] at ho
  obtain ⟨s, -, t, -, rfl⟩ := ho
  cases t <;> rfl

theorem inst_after_block (it : Inst) : ∀ o ∈ it.after, o.block = 2 := by
  intro o ho
  simp only [Inst.after, List.mem_flatMap, List.mem_map] at ho
  obtain ⟨s, -, t, -, rfl⟩ := ho
  rfl

theorem insts_before (its : List Inst) :
    onBlock 1 (its.flatMap (fun it => it.before ++ it.after)) = its.flatMap Inst.before := by
  induction its with
  | nil => rfl
  | cons it its ih =>
    simp only [List.flatMap_cons, onBlock_append, ih, onBlock_all (inst_before_block it),
      onBlock_none (inst_after_block it) (by decide : 2 ≠ 1), List.append_nil]

theorem insts_after (its : List Inst) :
    onBlock 2 (its.flatMap (fun it => it.before ++ it.after)) = its.flatMap Inst.after := by
  induction its with
  | nil => rfl
  | cons it its ih =>
    simp only [List.flatMap_cons, onBlock_append, ih, onBlock_all (inst_after_block it),
      onBlock_none (inst_before_block it) (by decide : 1 ≠ 2), List.nil_append]

theorem genCall_block {assign callee er : Str} {excs : List (Str × Str)} {w w' : W}
    (h : genCall assign callee excs er w = .ok w') :
    ∃ l, w'.ops = w.ops ++ l ∧ (∀ o ∈ l, o.block = 1) ∧
      .write 1 (assign ++ callText (String.ofList callee) w.call ++ ";".toList) ∈ l := by
  unfold genCall at h
  cases h
  split
  · rename_i he
    subst he
    exact ⟨[.write 1 _], by simp only [W.op, List.map_nil, List.append_nil], by simp [Op.block],
      List.mem_singleton.mpr rfl⟩
  · refine ⟨_, by simp only [W.op, List.append_assoc]; rfl, ?_,
      List.mem_append_right _ (List.mem_append_left _ (List.mem_singleton.mpr rfl))⟩
    intro o ho
    simp only [List.mem_append, List.mem_singleton, List.mem_map] at ho
    rcases ho with rfl | rfl | ⟨e, -, rfl⟩ <;> rfl

/-- What the result statement is. -/
def resultText (build : List BItem) : Str :=
  "py_retval = ".toList ++ callText "Py_BuildValue" (castFirst (buildParameters build false)) ++ ";".toList

theorem ops4 (w : W) (a b c d : Op) : ((((w.op a).op b).op c).op d).ops = w.ops ++ [a, b, c, d] := by
  simp [W.op]

theorem ops3 (w : W) (a b c : Op) : (((w.op a).op b).op c).ops = w.ops ++ [a, b, c] := by
  simp [W.op]

theorem result_ops (w : W) : ∃ l, (resultStep w).ops = w.ops ++ l ∧ (∀ o ∈ l, o.block = 2) ∧
    (buildParameters w.build false ≠ ["\"\"".toList] → .write 2 (resultText w.build) ∈ l) := by
  have blocks : ∀ (a b : List Str) (c : Str), ∀ o ∈ a.map (Op.write 2) ++ [.cleanup 2, .ret 2 c], o.block = 2 := by
    intro a b c o ho
    simp only [List.mem_append, List.mem_map, List.mem_cons, List.not_mem_nil, or_false] at ho
    rcases ho with ⟨x, -, rfl⟩ | rfl | rfl <;> rfl
  have e : (resultStep w).ops = w.ops ++ ((if buildParameters w.build false = ["\"\"".toList] then
      ["Py_INCREF(Py_None);".toList, "py_retval = Py_None;".toList] else [resultText w.build]).map (Op.write 2) ++
      [.cleanup 2, .ret 2 "return py_retval;".toList]) := by
    unfold resultStep
    dsimp only
    by_cases hb : buildParameters w.build false = ["\"\"".toList]
    · rw [if_pos hb, if_pos hb]
      exact ops4 _ _ _ _ _
    · rw [if_neg hb, if_neg hb]
      exact ops3 _ _ _ _
  refine ⟨_, e, blocks _ [] _, ?_⟩
  intro hb
  rw [if_neg hb]
  exact List.mem_append_left _ (List.mem_map.mpr ⟨_, List.mem_singleton.mpr rfl, rfl⟩)

/-- What the wrapper consists of. -/
structure Wrapper (w : W) (its : List Inst) (ret : RDesc) (rvs : List Str) (unblock : Bool)
    (assign callee : Str) : Prop where
  /-- the variables are declared, under names of their own -/
  fits : (∀ it ∈ its, it.d.WF) → Fits its
  declared : ∀ it ∈ its, ∀ p ∈ it.decls, p ∈ w.vars
  nodup : (w.vars.map Prod.fst).Nodup
  /-- the parsing units, the call expressions and the values returned are those of the parameters, in
  declaration order; the return value goes first if its handler says so -/
  parse : w.parse = its.flatMap (fun it => it.d.items it.vs)
  call : w.call = its.map (fun it => render it.vs it.d.arg)
  build : w.build = if ret.prepend then ret.builds rvs ++ its.flatMap (fun it => it.d.builds it.vs)
    else its.flatMap (fun it => it.d.builds it.vs) ++ ret.builds rvs
  /-- before the call: the statements of the parameters in declaration order, later the call -/
  before : ∃ rest, onBlock 1 w.ops = its.flatMap Inst.before ++ rest ∧
    .write 1 (assign ++ callText (String.ofList callee) w.call ++ ";".toList) ∈ rest
  /-- after the call: the GIL is taken back, the statements of the parameters in declaration order, those of
  the return value, later the result -/
  after : ∃ first rest, onBlock 2 w.ops = first ++ its.flatMap Inst.after ++ ret.ops.map (ROp.op rvs) ++ rest ∧
    (first = [] ∨ unblock = true ∧ ∃ ts, first = [.write 2 (restoreText ts)]) ∧
    (buildParameters w.build false ≠ ["\"\"".toList] → .write 2 (resultText w.build) ∈ rest)

theorem flat_fst (its : List Inst) (h : ∀ it ∈ its, it.vs.length = it.d.vars.length) :
    (its.flatMap Inst.decls).map Prod.fst = its.flatMap (·.vs) := by
  induction its with
  | nil => rfl
  | cons it its ih =>
    simp only [List.flatMap_cons, List.map_append]
    rw [ih (fun i hi => h i (List.mem_cons_of_mem _ hi))]
    congr 1
    have := h it List.mem_cons_self
    simp [Inst.decls, List.map_fst_zip, this]

theorem nthName_cases (b : Str) (k : Nat) : nthName b k = b ∨ nthName b k = b ++ natStr k := by
  unfold nthName; split
  · exact .inl rfl
  · exact .inr rfl

/-- Structure of the generated wrapper. -/
theorem desc_wrapper {unblock : Bool} {ps : List PDesc} {dep : Option Str} {assign callee : Str}
    {excs : List (Str × Str)} {er : Str} {force : Option ParseKind} {ret : RDesc}
    {before after : List (Str × Str)} {retDecl : Option Str} {w0 w : W}
    (h0 : initState true retDecl {} = .ok w0)
    (h : generateBody (descConfig unblock ps dep assign callee excs er force ret before after) w0 = .ok w)
    (hB : NoClash (· ∈ descNames (resolve 1 ps) ret)) :
    ∃ its rvs, its.map (·.d) = resolve 1 ps ∧ Wrapper w its ret rvs unblock assign callee ∧
      (retDecl ≠ none → "retval".toList ∉ its.flatMap (·.vs)) ∧
      (ret.pinned = true → ret.vars.head?.map (·.base) = some "retval".toList →
        "retval".toList ∉ its.flatMap (·.vs)) ∧
      ((∀ d ∈ resolve 1 ps, ∀ v ∈ d.vars, v.base ≠ "retval".toList) → "retval".toList ∉ its.flatMap (·.vs)) := by
  obtain ⟨wa, ts, wb, wc, wd, we, wf, wg, h1, h2, h3, h4, h5, h6, h7, hw⟩ := generateBody_stages h
  have hm : ∀ n ∈ ["py_retval", "retval", "args", "kwargs", "py_thread_state", "keywords", "wards"],
      n.toList ∈ descNames (resolve 1 ps) ret := fun n hn =>
    List.mem_append_left _ (List.mem_append_left _ (List.mem_map.mpr ⟨n, hn, rfl⟩))
  obtain ⟨t0, i1, i2, i3, i4, i5⟩ := initState_vars (B := (· ∈ descNames (resolve 1 ps) ret)) h0 (hm _ (by simp))
    (fun _ => hm _ (by simp)) (hm _ (by simp)) (hm _ (by simp))
  obtain ⟨k1, t1⟩ := startStep_keeps (B := (· ∈ descNames (resolve 1 ps) ret)) (hm _ (by simp)) h1
  have hpa : wa.parse = [] := k1.parse.trans i1
  obtain ⟨its, q0, q1, q2, q3, q4, q5, q6, q7⟩ := convert_descs ps h2
  rw [hpa] at q0
  have hds : ∀ d ∈ resolve 1 ps, ∀ v ∈ d.vars, v.base ∈ descNames (resolve 1 ps) ret := fun d hd v hv =>
    List.mem_append_left _ (List.mem_append_right _ (List.mem_flatMap.mpr ⟨d, hd, List.mem_map.mpr ⟨v, hv, rfl⟩⟩))
  have t2 := tracks_descs h2 (t1 t0) (by rw [hpa]; exact hds)
  obtain ⟨kd, d1, d2⟩ := depStep_keeps dep wb
  obtain ⟨k3, t3⟩ := addWards_keeps (B := (· ∈ descNames (resolve 1 ps) ret)) (hm _ (by simp)) 1 h3
  obtain ⟨ks, s1, s2⟩ := saveStep_keeps unblock ts wc
  obtain ⟨k4, c1, c2, -⟩ := genCall_keeps h4
  obtain ⟨k5, t5⟩ := parseStep_keeps (B := (· ∈ descNames (resolve 1 ps) ret)) (hm _ (by simp)) h5
  obtain ⟨w1, rvs, hr1, hr2, hr3, hf⟩ := rdesc_spec (guardNI_ok.mp h6)
  obtain ⟨k7, t7⟩ := addWards_keeps (B := (· ∈ descNames (resolve 1 ps) ret)) (hm _ (by simp)) 2 h7
  have hfin : w = resultStep wg := by
    rw [hw]; rfl
  obtain ⟨k8, f1, f2, -⟩ := finishStep_keeps
    (descConfig unblock ps dep assign callee excs er force ret before after) wg
  rw [← hw] at k8 f1 f2
  have te : Tracks (· ∈ descNames (resolve 1 ps) ret) we :=
    t5 (tracks_congr (t3 (tracks_congr t2 d1 d2)) (c1.trans s1) (c2.trans s2))
  have tf : Tracks (· ∈ descNames (resolve 1 ps) ret) wf := by
    rw [hf]
    exact tracks_congr (tracks_declareAll hr2 te (fun v hv =>
      List.mem_append_right _ (List.mem_map.mpr ⟨v, hv, rfl⟩))) rfl rfl
  have nd := tracks_nodup (tracks_congr (t7 tf) f1 f2) hB
  have kbe : Keeps wb we := kd.trans (k3.trans (ks.trans (k4.trans k5)))
  have kend : Keeps wf w := k7.trans k8
  obtain ⟨l1, v1⟩ := k1.vars
  obtain ⟨l2, v2⟩ := kbe.vars
  obtain ⟨l3, v3⟩ := kend.vars
  have hvars : w.vars = (w0.vars ++ l1) ++ its.flatMap Inst.decls ++
      (l2 ++ rvs.zip (ret.vars.map (·.init)) ++ l3) := by
    rw [v3, hf]; simp [hr1.vars, v2, q2, v1]
  have hnd := nd
  rw [hvars] at hnd
  simp only [List.map_append, flat_fst its q1] at hnd
  have ndv : (its.flatMap (·.vs)).Nodup := (List.nodup_append.mp (List.nodup_append.mp hnd).1).2.1
  have hbuild : w.build = if ret.prepend then ret.builds rvs ++ its.flatMap (fun it => it.d.builds it.vs)
      else its.flatMap (fun it => it.d.builds it.vs) ++ ret.builds rvs := by
    rw [kend.build, hf]
    simp only [kbe.build, q4, k1.build, i2, List.nil_append]
  have hcall : w.call = its.map (fun it => render it.vs it.d.arg) := by
    rw [kend.call, hf]
    show w1.call = _
    rw [hr1.call, kbe.call, q5, k1.call, i3, List.nil_append]
  have hsc : (saveStep unblock ts wc).call = w.call := by
    rw [kend.call, hf]
    show _ = w1.call
    rw [hr1.call, k5.call, k4.call]
    rfl
  -- operations
  have hstart : ∃ first, wa.ops = w0.ops ++ first ∧
      (first = [] ∨ unblock = true ∧ ∃ ts, first = [.write 2 (restoreText ts)]) := by
    unfold startStep at h1
    split at h1
    · rename_i hu
      obtain ⟨⟨w1, v⟩, hd, hw⟩ := bind_ok.mp h1
      cases hw
      exact ⟨[.write 2 (restoreText ts)], by simp only [W.op]; rw [declare_ops hd], .inr ⟨hu, ts, rfl⟩⟩
    · cases h1; exact ⟨[], by simp, .inl rfl⟩
  obtain ⟨first, ea, hfirst⟩ := hstart
  have hfb : ∀ o ∈ first, o.block = 2 := by
    rcases hfirst with rfl | ⟨-, ts', rfl⟩
    · simp
    · simp [Op.block]
  have hdep : ∃ l, (depStep dep wb).ops = wb.ops ++ l ∧ ∀ op ∈ l, op.block = 1 := by
    unfold depStep
    split
    · exact ⟨[_], rfl, by simp [Op.block]⟩
    · exact ⟨[], by simp, by simp⟩
  obtain ⟨ld, ed, pd⟩ := hdep
  obtain ⟨lc, ec, pc⟩ := opsIn_addWards (P := fun o => o.block = 1) 1 (fun _ => rfl) (fun _ => rfl) before _ _ h3
  have hsave : ∃ l, (saveStep unblock ts wc).ops = wc.ops ++ l ∧ ∀ op ∈ l, op.block = 1 := by
    unfold saveStep
    split
    · exact ⟨[_], rfl, by simp [Op.block]⟩
    · exact ⟨[], by simp, by simp⟩
  obtain ⟨ls, es, pls⟩ := hsave
  obtain ⟨lk, ek, pk, hk⟩ := genCall_block h4
  rw [show (saveStep (descConfig unblock ps dep assign callee excs er force ret before after).unblock ts wc).call
    = w.call from hsc] at hk
  obtain ⟨lp, ep, pp⟩ := parseStep_ops h5
  have pp' : ∀ o ∈ lp, o.block = 0 := by
    intro o ho
    obtain ⟨c, rfl⟩ := pp o ho
    rfl
  obtain ⟨lo, eo, po⟩ := opsIn_addWards (P := fun o => o.block = 2) 2 (fun _ => rfl) (fun _ => rfl) after _ _ h7
  obtain ⟨lr, er', pr, hres⟩ := result_ops wg
  have hret : ∀ o ∈ ret.ops.map (ROp.op rvs), o.block = 2 := by
    intro o ho
    obtain ⟨r, -, rfl⟩ := List.mem_map.mp ho
    cases r <;> rfl
  have hops : w.ops = first ++ its.flatMap (fun it => it.before ++ it.after) ++ ld ++ lc ++ ls ++ lk ++ lp ++
      ret.ops.map (ROp.op rvs) ++ lo ++ lr := by
    rw [hfin, er', eo, hf]
    show ((we.ops ++ _) ++ _) ++ _ = _
    rw [ep, ek]
    show ((((saveStep unblock ts wc).ops ++ _) ++ _ ++ _) ++ _) ++ _ = _
    rw [es, ec]
    show (((((((depStep dep wb).ops ++ _) ++ _) ++ _) ++ _) ++ _) ++ _) ++ _ = _
    rw [ed, q6, ea, i4, List.nil_append]
  have hinst : ∀ v ∈ its.flatMap (·.vs), ∃ d ∈ resolve 1 ps, ∃ x ∈ d.vars, ∃ k, v = nthName x.base k := by
    intro v hv
    obtain ⟨it, hit, hv⟩ := List.mem_flatMap.mp hv
    obtain ⟨x, hx, k, hk⟩ := q7 it hit v hv
    exact ⟨it.d, q0 ▸ List.mem_map.mpr ⟨it, hit, rfl⟩, x, hx, k, hk⟩
  refine ⟨its, rvs, q0, ⟨fun hwf => ⟨hwf, q1, ndv⟩, ?_, nd, ?_, hcall, hbuild, ?_, ?_⟩, ?_, ?_, ?_⟩
  · intro it hit p hp
    rw [hvars]
    exact List.mem_append_left _ (List.mem_append_right _ (List.mem_flatMap.mpr ⟨it, hit, hp⟩))
  · rw [kend.parse, hf]
    show w1.parse = _
    rw [hr1.parse, kbe.parse, q3, hpa, List.nil_append]
  · refine ⟨ld ++ lc ++ ls ++ lk, ?_, List.mem_append_right _ hk⟩
    rw [hops]
    simp only [onBlock_append, onBlock_none hfb (by decide : 2 ≠ 1), insts_before, onBlock_all pd, onBlock_all pc,
      onBlock_all pls, onBlock_all pk, onBlock_none pp' (by decide : 0 ≠ 1), onBlock_none hret (by decide : 2 ≠ 1),
      onBlock_none po (by decide : 2 ≠ 1), onBlock_none pr (by decide : 2 ≠ 1), List.nil_append, List.append_nil,
      List.append_assoc]
  · refine ⟨first, lo ++ lr, ?_, hfirst, ?_⟩
    · rw [hops]
      simp only [onBlock_append, onBlock_all hfb, insts_after, onBlock_none pd (by decide : 1 ≠ 2),
        onBlock_none pc (by decide : 1 ≠ 2), onBlock_none pls (by decide : 1 ≠ 2),
        onBlock_none pk (by decide : 1 ≠ 2), onBlock_none pp' (by decide : 0 ≠ 2), onBlock_all hret,
        onBlock_all po, onBlock_all pr, List.append_nil, List.nil_append, List.append_assoc]
    · intro hb
      have e : wg.build = w.build := k8.build.symm
      rw [← e] at hb ⊢
      exact List.mem_append_right _ (hres hb)
  · intro hr hv
    refine (List.nodup_append.mp (List.nodup_append.mp hnd).1).2.2 _ ?_ _ hv rfl
    exact List.mem_append_left _ (i5 hr)
  · intro hp hb hv
    have hh := hr3 hp
    rw [hb] at hh
    cases hrv : rvs with
    | nil => rw [hrv] at hh; cases hh
    | cons r rs =>
      rw [hrv] at hh
      have hr : r = "retval".toList := Option.some.inj hh
      refine (List.nodup_append.mp hnd).2.2 "retval".toList (List.mem_append_right _ hv) "retval".toList ?_ rfl
      refine List.mem_append_left _ (List.mem_append_right _ ?_)
      cases hva : ret.vars with
      | nil => rw [hva] at hb; cases hb
      | cons x xs => rw [hrv, hr]; simp
  · intro hno hv
    obtain ⟨d, hd, x, hx, k, hk⟩ := hinst _ hv
    rcases nthName_cases x.base k with e | e
    · exact hno d hd x hx (by rw [← e, ← hk])
    · rw [e] at hk
      exact hB "retval".toList x.base (hm "retval" (by simp)) (hds d hd x hx) (natStr k)
        (natStr_ne_nil k) (fun c hc => isDigit_of_mem_natStr hc) hk

theorem initAll_spec (S : Sem Val Py) : ∀ (l : List (Str × Option Str)), (l.map Prod.fst).Nodup →
    ∀ p ∈ l, initAll S l p.1 = p.2.map S.expr
  | [], _, p, hp => by simp at hp
  | q :: l, hnd, p, hp => by
    simp only [List.map_cons, List.nodup_cons] at hnd
    rcases List.mem_cons.mp hp with rfl | hp
    · simp [initAll]
    · have : p.1 ≠ q.1 := fun e => hnd.1 (e ▸ List.mem_map.mpr ⟨p, hp, rfl⟩)
      simp only [initAll, if_neg this]
      exact initAll_spec S l hnd.2 p hp

theorem start_view (S : Sem Val Py) {vars : List (Str × Option Str)} (hnd : (vars.map Prod.fst).Nodup) {it : Inst}
    (hl : it.vs.length = it.d.vars.length) (hd : ∀ p ∈ it.decls, p ∈ vars) :
    view (initAll S vars) it.vs = it.d.start S := by
  funext i
  unfold view Desc.start
  by_cases hi : i < it.vs.length
  · have hi' : i < it.d.vars.length := hl ▸ hi
    rw [List.getElem?_eq_getElem hi, List.getElem?_eq_getElem hi']
    simp only [Option.bind_some]
    refine initAll_spec S vars hnd (it.vs[i], it.d.vars[i].init) (hd _ ?_)
    unfold Inst.decls
    have hz : i < (it.vs.zip (it.d.vars.map (·.init))).length := by simp; omega
    have : (it.vs.zip (it.d.vars.map (·.init)))[i] = (it.vs[i], it.d.vars[i].init) := by simp
    rw [← this]
    exact List.getElem_mem hz
  · rw [List.getElem?_eq_none (by omega), List.getElem?_eq_none (by omega)]
    rfl

/-- **C41 for all handlers written as data.**  `ps` are the parameters as declared, `ret` the handler of the
return value, `retDecl` the type `retval` is declared with, if it is.

The wrapper generated consists of their parsing units, statements, call expressions and values returned, in
declaration order (`Wrapper`), and running it (`execD`) does what `callSpec` says: every parameter deals with its
own argument as if it were alone, the next argument of the call for each parameter that takes one; the C++
function is called once with the values of all parameters in declaration order, unless an argument is refused;
Python gets what the return value handler and the output parameters give, each computed from what the function
returned or left behind for it.  This holds for every meaning `S` of the single texts.

Missing from the full claim: names that clash when digits are appended; a parameter named `retval` where the
return value handler does not declare that variable (classes returned by value); the return value is first only
if the handler says so (`prepend`), see the counterexamples. -/
theorem C41_handlers_partial {unblock : Bool} {ps : List PDesc} {dep : Option Str} {assign callee : Str}
    {excs : List (Str × Str)} {er : Str} {force : Option ParseKind} {ret : RDesc}
    {before after : List (Str × Str)} {retDecl : Option Str} {w0 w : W}
    (h0 : initState true retDecl {} = .ok w0)
    (h : generateBody (descConfig unblock ps dep assign callee excs er force ret before after) w0 = .ok w)
    (hwf : ∀ d ∈ resolve 1 ps, d.WF) (hB : NoClash (· ∈ descNames (resolve 1 ps) ret))
    (rv : Option Str) (hrv : rv = none ∧ ret.out = none ∨ rv = some "retval".toList ∧ (retDecl ≠ none ∨
      ret.pinned = true ∧ ret.vars.head?.map (·.base) = some "retval".toList ∨
      ∀ d ∈ resolve 1 ps, ∀ v ∈ d.vars, v.base ≠ "retval".toList)) :
    ∃ its rvs, its.map (·.d) = resolve 1 ps ∧ Wrapper w its ret rvs unblock assign callee ∧
      ∀ {Val Py : Type} (S : Sem Val Py) (args : List (Option Py)) (F : Callee Val),
        (∀ xs, (F xs).2.length = xs.length) →
        execD S w.vars its ret rv args F = callSpec S (resolve 1 ps) ret args F := by
  obtain ⟨its, rvs, hd, hw, r1, r2, r3⟩ := desc_wrapper h0 h hB
  refine ⟨its, rvs, hd, hw, ?_⟩
  intro Val Py S args F hF
  have hwf' : ∀ it ∈ its, it.d.WF := fun it hit => hwf _ (hd ▸ List.mem_map.mpr ⟨it, hit, rfl⟩)
  have hf := hw.fits hwf'
  rw [← hd]
  refine execD_spec S w.vars its ret rv hf ?_ ?_ ?_ args F hF
  · unfold views
    exact List.map_congr_left (fun it hit => start_view S hw.nodup (hf.length it hit) (hw.declared it hit))
  · intro r hr
    rcases hrv with ⟨h1, -⟩ | ⟨h1, h2⟩
    · rw [h1] at hr; cases hr
    · rw [h1] at hr
      cases hr
      rcases h2 with h2 | ⟨h2, h3⟩ | h2
      · exact r1 h2
      · exact r2 h2 h3
      · exact r3 h2
  · intro hn
    rcases hrv with ⟨-, h2⟩ | ⟨h1, -⟩
    · exact h2
    · rw [h1] at hn; cases hn

/-- One value per declared parameter is passed. -/
theorem C41_one_each (S : Sem Val Py) (ds : List Desc) (ret : RDesc) (args : List (Option Py)) (F : Callee Val)
    (xs : List (Option Val)) (r : List (Option Py)) (h : callSpec S ds ret args F = some (xs, r)) :
    xs.length = ds.length ∧ args.length = (ds.filter (·.unit.isSome)).length := by
  have key : ∀ (ds : List Desc) (args : List (Option Py)) (ρs : List (Loc Val)), accepted S ds args = some ρs →
      ρs.length = ds.length ∧ args.length = (ds.filter (·.unit.isSome)).length := by
    intro ds
    induction ds with
    | nil =>
      intro args ρs h
      cases args with
      | nil => cases h; exact ⟨rfl, rfl⟩
      | cons _ _ => cases h
    | cons d ds ih =>
      intro args ρs h
      simp only [accepted] at h
      split at h
      · rename_i hu
        split at h
        · obtain ⟨ρ, -, h⟩ := Option.bind_eq_some_iff.mp h
          obtain ⟨l, hl, rfl⟩ := Option.map_eq_some_iff.mp h
          obtain ⟨i1, i2⟩ := ih _ _ hl
          rw [List.filter_cons_of_pos (p := fun x : Desc => x.unit.isSome) hu]
          exact ⟨by simp [i1], by simp [i2]⟩
        · cases h
      · rename_i hu
        obtain ⟨ρ, -, h⟩ := Option.bind_eq_some_iff.mp h
        obtain ⟨l, hl, rfl⟩ := Option.map_eq_some_iff.mp h
        obtain ⟨i1, i2⟩ := ih _ _ hl
        rw [List.filter_cons_of_neg (p := fun x : Desc => x.unit.isSome) hu]
        exact ⟨by simp [i1], i2⟩
  obtain ⟨ρs, hρ, e⟩ := Option.map_eq_some_iff.mp h
  cases e
  obtain ⟨k1, k2⟩ := key ds args ρs hρ
  exact ⟨by simp [k1], k2⟩

/-! ## What does not hold -/

/-- Generating a wrapper from scratch. -/
def generate (retDecl : Option String) (ps : List PDesc) (assign : String) (ret : RDesc) : PyRes W := do
  generateBody (descConfig false ps none assign.toList "f".toList [] [] none ret [] [])
    (← initState true (retDecl.map String.toList) {})

/-- `char f(int &n /* out */)` returns `(n, retval)`: the handlers of `char` and `char*` append the return value
instead of putting it first (stringtype.py:204-205, 222-223). -/
theorem C41_char_return_counterexample :
    (generate (some "char") [fun _ => (byRef "i".toList "int".toList "n".toList false true).desc] "retval = "
      (charRet "retval".toList)).toOption.map (fun w => w.build.map (fun b => b.values.map String.ofList)) =
    some [["n"], ["(int) retval"]] := by
  decide +kernel

/-- The same for `const char *`. -/
theorem C41_cstring_return_counterexample :
    (generate (some "char *") [fun _ => (byRef "i".toList "int".toList "n".toList false true).desc] "retval = "
      (cstringRet "retval".toList "char *".toList "f".toList false)).toOption.map
      (fun w => w.build.map (fun b => b.values.map String.ofList)) =
    some [["n"], ["retval"]] := by
  decide +kernel

/-- A function returning a container cannot have a parameter named `retval`: generation fails with an
`AssertionError` (container.py:848-850). -/
theorem C41_container_retval_counterexample :
    (match generate none [fun _ => (byValue "i".toList "int".toList "retval".toList none).desc] "retval = "
      (containerRet "V".toList "V".toList "PyV".toList "PyV_Type".toList "V".toList) with
    | .error e => some e
    | .ok _ => none) = some .assertionError := by
  decide +kernel

/-! Non-vacuity: `std::string f(bool a, std::string &s /* inout */, V const &v, int n[3])`. -/

def exampleDescs : List PDesc :=
  [fun _ => boolDesc "bool".toList "a".toList none,
   fun _ => stdStringRefDesc "s".toList true true none,
   fun _ => containerDesc "V".toList "_wrap_convert_py2c__V".toList "PyV".toList "PyV_Type".toList "V".toList
     "v".toList true false none]

theorem exampleDescs_wf : ∀ d ∈ resolve 1 exampleDescs, d.WF := by
  intro d hd
  rcases List.mem_cons.mp hd with rfl | hd
  · exact bool_wf _ _ _
  rcases List.mem_cons.mp hd with rfl | hd
  · exact stdStringRef_wf _ _ _ _
  · cases List.mem_singleton.mp hd
    exact container_wf _ _ _ _ _ _ _ _ _

example : NoClash (· ∈ descNames (resolve 1 exampleDescs) (stringRet "retval".toList "size")) :=
  noClash_of_last (by decide +kernel)

example : (generate (some "std::string") exampleDescs "retval = " (stringRet "retval".toList "size")).toOption.map
    (fun w => (w.call.map String.ofList, w.build.map (fun b => b.values.map String.ofList))) =
    some (["a", "s_std", "v_value"],
      [["(retval).c_str()", "(retval).size()"], ["(s_std).c_str()", "(s_std).size()"]]) := by
  decide +kernel

/-- The general wrapper theorems apply to such wrappers. -/
example (w0 w : W) (h0 : w0.ops = []) (ret : FRet)
    (h : generateBody (funConfig false [.other ((stdStringRefDesc "s".toList true true none).handler
      (stdStringRef_wf _ _ _ _))] none [] "f".toList [] [] none ret [] []) w0 = .ok w)
    (er : Nat → Str) (t : List Ev) (ht : Path (((Gen.fresh er).run w.ops).body 3) t) :
    cleaned t = (taken t).reverse :=
  (C42_function_partial _ _ _ _ _ _ _ _ _ _ _ w0 w h0 h er t ht).1

end Verif.Wrap
