import Verif.Wrapper.Exec

/-!
# C41: arguments and results are passed in declaration order
-/
namespace Verif.Wrap
open Verif Verif.Flow Verif.Params Verif.DeclScope

variable {Val Py : Type}

/-! ## Distinct variables -/

/-- The declarations of `w` come from requests for names in `B`. -/
def Tracks (B : Str → Prop) (w : W) : Prop :=
  ∃ rs, w.decls = Family.after {} rs ∧
    (w.vars.map Prod.fst).Sublist (names (Family.answers {} rs)) ∧ ∀ r ∈ rs, B r.base

theorem after_append (f : Family) (a b : List Req) : f.after (a ++ b) = (f.after a).after b := by
  induction a generalizing f with
  | nil => rfl
  | cons r rs ih => simp [Family.after, ih]

theorem tracks_empty (B : Str → Prop) : Tracks B {} := ⟨[], rfl, by simp, by simp⟩

theorem tracks_congr {B : Str → Prop} {w w' : W} (h : Tracks B w) (h1 : w'.decls = w.decls)
    (h2 : w'.vars = w.vars) : Tracks B w' := by
  obtain ⟨rs, e1, e2, e3⟩ := h
  exact ⟨rs, by rw [h1, e1], by rw [h2]; exact e2, e3⟩

theorem names_append (a b : List (PyRes Str)) : names (a ++ b) = names a ++ names b := by
  simp [names]

theorem tracks_declare {B : Str → Prop} {w w' : W} {t n v : Str} {x a : Option Str}
    (h : Tracks B w) (hd : w.declare t n x a = .ok (w', v)) (hn : B n) : Tracks B w' := by
  obtain ⟨rs, e1, e2, e3⟩ := h
  obtain ⟨hv, rfl⟩ := declare_spec hd
  refine ⟨rs ++ [.declare 0 t n x a], ?_, ?_, ?_⟩
  · rw [after_append, ← e1]; rfl
  · rw [answers_append, ← e1, names_append, List.map_append]
    refine List.Sublist.append e2 ?_
    simp only [List.map_cons, List.map_nil, Family.answers, Family.step, names, List.filterMap_cons,
      List.filterMap_nil, hv]
    exact List.Sublist.refl _
  · intro r hr
    rcases List.mem_append.mp hr with hr | hr
    · exact e3 r hr
    · simp only [List.mem_singleton] at hr; subst hr; exact hn

theorem tracks_reserve {B : Str → Prop} {w : W} {n : Str} (h : Tracks B w) (hn : B n) :
    Tracks B (w.reserve n) := by
  obtain ⟨rs, e1, e2, e3⟩ := h
  refine ⟨rs ++ [.reserve n], ?_, ?_, ?_⟩
  · rw [after_append, ← e1]; rfl
  · rw [answers_append, ← e1, names_append]
    exact e2.trans (List.sublist_append_left _ _)
  · intro r hr
    rcases List.mem_append.mp hr with hr | hr
    · exact e3 r hr
    · simp only [List.mem_singleton] at hr; subst hr; exact hn

/-- No name of `B` is another one followed by decimal digits. -/
def NoClash (B : Str → Prop) : Prop :=
  ∀ a b : Str, B a → B b → ∀ d : Str, d ≠ [] → (∀ c ∈ d, c.isDigit = true) → a ≠ b ++ d

theorem tracks_nodup {B : Str → Prop} {w : W} (h : Tracks B w) (hB : NoClash B) :
    (w.vars.map Prod.fst).Nodup := by
  obtain ⟨rs, -, e2, e3⟩ := h
  exact (C09_names_distinct_partial rs (fun r hr r' hr' d hd hd' =>
    hB _ _ (e3 r hr) (e3 r' hr') d hd hd')).sublist e2

theorem tracks_scalar {B : Str → Prop} {s : Scalar} {w w' : W} (h : s.convert w = .ok w')
    (hw : Tracks B w) (hn : B (s.name ++ s.suffix)) : Tracks B w' := by
  obtain ⟨f, v, hd, rfl⟩ := scalar_spec h
  have : ∃ w1, w.declare s.ctype (s.name ++ s.suffix) s.init none = .ok (w1, v) ∧
      w1.decls = f ∧ w1.vars = w.vars ++ [(v, s.init)] := by
    refine ⟨{ w with decls := f, vars := w.vars ++ [(v, s.init)] }, ?_, rfl, rfl⟩
    unfold W.declare
    rw [hd]
  obtain ⟨w1, h1, h2, h3⟩ := this
  exact tracks_congr (tracks_declare hw h1 hn) h2.symm h3.symm

theorem tracks_scalars {B : Str → Prop} : ∀ {ss : List Scalar} {w w' : W},
    convertParams (ss.map Scalar.convert) w = .ok w' → Tracks B w →
    (∀ s ∈ ss, B (s.name ++ s.suffix)) → Tracks B w'
  | [], w, w', h, hw, _ => by cases h; exact hw
  | s :: ss, w, w', h, hw, hB => by
    simp only [List.map_cons, convertParams] at h
    obtain ⟨w1, h1, h2⟩ := bind_ok.mp h
    exact tracks_scalars h2 (tracks_scalar (guardNI_ok.mp h1) hw (hB s List.mem_cons_self))
      (fun s' hs' => hB s' (List.mem_cons_of_mem _ hs'))

/-! ## The stages around the parameters -/

/-- What is left alone: the lists of parameters; variables only grow. -/
structure Keeps (w w' : W) : Prop where
  parse : w'.parse = w.parse
  build : w'.build = w.build
  call : w'.call = w.call
  vars : ∃ l, w'.vars = w.vars ++ l

theorem Keeps.refl (w : W) : Keeps w w := ⟨rfl, rfl, rfl, [], by simp⟩

theorem Keeps.trans {a b c : W} (h : Keeps a b) (h' : Keeps b c) : Keeps a c := by
  obtain ⟨l, e⟩ := h.vars
  obtain ⟨l', e'⟩ := h'.vars
  exact ⟨h'.parse.trans h.parse, h'.build.trans h.build, h'.call.trans h.call, l ++ l', by
    rw [e', e, List.append_assoc]⟩

theorem keeps_declare {w w' : W} {t n v : Str} {x a : Option Str}
    (h : w.declare t n x a = .ok (w', v)) : Keeps w w' := by
  obtain ⟨-, rfl⟩ := declare_spec h
  exact ⟨rfl, rfl, rfl, _, rfl⟩

theorem keeps_op (w : W) (o : Op) : Keeps w (w.op o) := ⟨rfl, rfl, rfl, [], by simp [W.op]⟩

theorem addWards_keeps {B : Str → Prop} (hB : B "wards".toList) (i : Nat) : ∀ {l : List (Str × Str)} {w w' : W},
    addWards i l w = .ok w' → Keeps w w' ∧ (Tracks B w → Tracks B w')
  | [], w, w', h => by cases h; exact ⟨.refl _, id⟩
  | (c, d) :: rest, w, w', h => by
    simp only [addWards] at h
    obtain ⟨w1, h1, h2⟩ := bind_ok.mp h
    unfold addWard at h1
    obtain ⟨⟨w2, v⟩, h3, h1⟩ := bind_ok.mp h1
    cases h1
    obtain ⟨k, t⟩ := addWards_keeps hB i h2
    refine ⟨(keeps_declare h3).trans ((keeps_op _ _).trans ((keeps_op _ _).trans ((keeps_op _ _).trans ((keeps_op _ _).trans k)))), fun hw => t ?_⟩
    exact tracks_congr (tracks_declare hw h3 hB) rfl rfl

theorem genCall_keeps {assign callee er : Str} {excs : List (Str × Str)} {w w' : W}
    (h : genCall assign callee excs er w = .ok w') :
    Keeps w w' ∧ w'.decls = w.decls ∧ w'.vars = w.vars ∧
      .write 1 (assign ++ callText (String.ofList callee) w.call ++ ";".toList) ∈ w'.ops := by
  unfold genCall at h
  cases h
  split
  · exact ⟨⟨rfl, rfl, rfl, [], by simp [W.op]⟩, rfl, rfl, by simp [W.op]⟩
  · exact ⟨⟨rfl, rfl, rfl, [], by simp [W.op]⟩, rfl, rfl, by simp [W.op]⟩

theorem parseStep_keeps {B : Str → Prop} (hB : B "keywords".toList) {force : Option ParseKind} {w w' : W}
    (h : parseStep force w = .ok w') : Keeps w w' ∧ (Tracks B w → Tracks B w') := by
  unfold parseStep at h
  obtain ⟨ps, -, h⟩ := bind_ok.mp h
  obtain ⟨kw, -, h⟩ := bind_ok.mp h
  dsimp only at h
  split at h
  · split at h
    · cases h
      exact ⟨⟨rfl, rfl, rfl, [], by simp [W.op]⟩, fun hw => tracks_congr hw rfl rfl⟩
    · obtain ⟨⟨w1, v⟩, h1, h⟩ := bind_ok.mp h
      cases h
      obtain ⟨-, e⟩ := declare_spec h1
      subst e
      exact ⟨⟨rfl, rfl, rfl, _, rfl⟩, fun hw =>
        tracks_congr (tracks_declare (w := { w with flags := w.flags ++ ["METH_VARARGS".toList] })
          (tracks_congr hw rfl rfl) h1 hB) rfl rfl⟩
  · cases h
    exact ⟨⟨rfl, rfl, rfl, [], by simp⟩, fun hw => tracks_congr hw rfl rfl⟩

theorem startStep_keeps {B : Str → Prop} (hB : B "py_thread_state".toList) {u : Bool} {w w' : W} {v : Str}
    (h : startStep u w = .ok (w', v)) : Keeps w w' ∧ (Tracks B w → Tracks B w') := by
  unfold startStep at h
  split at h
  · obtain ⟨⟨w1, v⟩, hd, hw⟩ := bind_ok.mp h
    cases hw
    exact ⟨(keeps_declare hd).trans (keeps_op _ _), fun hw => tracks_congr (tracks_declare hw hd hB) rfl rfl⟩
  · cases h; exact ⟨.refl _, id⟩

theorem depStep_keeps (d : Option Str) (w : W) : Keeps w (depStep d w) ∧
    (depStep d w).decls = w.decls ∧ (depStep d w).vars = w.vars := by
  unfold depStep
  split
  · exact ⟨keeps_op _ _, rfl, rfl⟩
  · exact ⟨.refl _, rfl, rfl⟩

theorem saveStep_keeps (u : Bool) (ts : Str) (w : W) : Keeps w (saveStep u ts w) ∧
    (saveStep u ts w).decls = w.decls ∧ (saveStep u ts w).vars = w.vars := by
  unfold saveStep
  split
  · exact ⟨keeps_op _ _, rfl, rfl⟩
  · exact ⟨.refl _, rfl, rfl⟩

theorem finishStep_keeps (c : Config) (w : W) : Keeps w (finishStep c w) ∧
    (finishStep c w).decls = w.decls ∧ (finishStep c w).vars = w.vars ∧
    ∃ l, (finishStep c w).ops = w.ops ++ l := by
  unfold finishStep resultStep
  split
  · exact ⟨keeps_op _ _, rfl, rfl, _, rfl⟩
  · dsimp only
    split
    · exact ⟨⟨rfl, rfl, rfl, [], by simp [W.op]⟩, rfl, rfl, _, by simp [W.op]; rfl⟩
    · exact ⟨⟨rfl, rfl, rfl, [], by simp [W.op]⟩, rfl, rfl, _, by simp [W.op]; rfl⟩

theorem initState_vars {B : Str → Prop} {retDecl : Option Str} {w : W}
    (h : initState true retDecl {} = .ok w) (h1 : B "py_retval".toList) (h2 : retDecl ≠ none → B "retval".toList)
    (h3 : B "args".toList) (h4 : B "kwargs".toList) :
    Tracks B w ∧ w.parse = [] ∧ w.build = [] ∧ w.call = [] ∧ w.ops = [] ∧
      (retDecl ≠ none → "retval".toList ∈ w.vars.map Prod.fst) := by
  unfold initState at h
  dsimp only at h
  obtain ⟨⟨wa', va⟩, hd, h⟩ := bind_ok.mp h
  have t1 : Tracks B wa' := tracks_declare (tracks_empty B) hd h1
  obtain ⟨-, e1⟩ := declare_spec hd
  cases retDecl with
  | none =>
    cases h
    refine ⟨tracks_reserve (tracks_reserve t1 h3) h4, ?_, ?_, ?_, ?_, by simp⟩ <;>
      simp [W.reserve, e1]
  | some t =>
    obtain ⟨_, hp, h⟩ := bind_ok.mp h
    cases hp
    obtain ⟨⟨wb', vb⟩, hd2, h⟩ := bind_ok.mp h
    cases h
    obtain ⟨hv2, e2⟩ := declare_spec hd2
    have t2 : Tracks B wb' := tracks_declare t1 hd2 (h2 (by simp))
    refine ⟨tracks_reserve (tracks_reserve t2 h3) h4, ?_, ?_, ?_, ?_, ?_⟩
    · simp [W.reserve, e1, e2]
    · simp [W.reserve, e1, e2]
    · simp [W.reserve, e1, e2]
    · simp [W.reserve, e1, e2]
    · intro _
      have : vb = "retval".toList := by
        have := step_name (f := wa'.decls) (r := .declare 0 t "retval".toList none none) hv2
        rw [this, e1]
        simp only [Req.base]
        have hc := counts_step {} (.declare 0 "PyObject*".toList "py_retval".toList none none) "retval".toList
        simp only [Family.step] at hc
        show nthName _ ((Family.declare {} 0 _ _ none none).1.counts _ + 1) = _
        rw [hc]
        rfl
      simp [W.reserve, e2, this]

theorem initEnv_spec (L : Lang Val Py) : ∀ (l : List (Str × Option Str)), (l.map Prod.fst).Nodup →
    ∀ p ∈ l, initEnv L l p.1 = p.2.map L.expr
  | [], _, p, hp => by simp at hp
  | q :: l, hnd, p, hp => by
    simp only [List.map_cons, List.nodup_cons] at hnd
    rcases List.mem_cons.mp hp with rfl | hp
    · simp [initEnv]
    · have : p.1 ≠ q.1 := fun e => hnd.1 (e ▸ List.mem_map.mpr ⟨p, hp, rfl⟩)
      simp only [initEnv, if_neg this]
      exact initEnv_spec L l hnd.2 p hp

theorem vItems_names : ∀ (ss : List Scalar) (vs : List Str), vs.length = ss.length →
    (vItems ss vs).map Prod.fst = vs
  | [], [], _ => rfl
  | [], _ :: _, h => by simp at h
  | _ :: _, [], h => by simp at h
  | s :: ss, v :: vs, h => by simp [vItems, vItems_names ss vs (by simpa using h)]


theorem nthName_plain {b : Str} (h : Plain b) (k : Nat) : Plain (nthName b k) := by
  unfold nthName Plain
  split
  · exact h
  · cases b with
    | nil =>
      simp only [List.nil_append]
      intro he
      have hm : '&' ∈ natStr k := List.mem_of_mem_head? (by rw [he]; rfl)
      have := isDigit_of_mem_natStr hm
      exact absurd this (by decide)
    | cons c cs => simpa [Plain] using h

/-- The keywords: names of the input parameters. -/
theorem pItems_names : ∀ (ss : List Scalar) (vs : List Str), vs.length = ss.length →
    (pItems ss vs).map (·.name) = (ss.filter (·.isIn)).map (fun s => some s.name)
  | [], [], _ => rfl
  | [], _ :: _, h => by simp at h
  | _ :: _, [], h => by simp at h
  | s :: ss, v :: vs, h => by
    have ih := pItems_names ss vs (by simpa using h)
    cases hi : s.isIn <;> simp [pItems, hi, ih]

/-- The names used by the generator itself and those of the parameters. -/
def usedNames (ss : List Scalar) : List Str :=
  ["py_retval", "retval", "args", "kwargs", "py_thread_state", "keywords", "wards"].map String.toList ++
    ss.map (fun s => s.name ++ s.suffix)

/-- The configuration of a function or method wrapper with scalar parameters. -/
abbrev scalarConfig (unblock : Bool) (ss : List Scalar) (dep : Option Str) (assign callee : Str)
    (excs : List (Str × Str)) (er : Str) (force : Option ParseKind) (ret : Gen1)
    (before after : List (Str × Str)) : Config :=
  { unblock, params := ss.map Scalar.convert, deprecated := dep, pre := addWards 1 before
    call := genCall assign callee excs er, force, ret := some ret, post := addWards 2 after }

/-- Structure of the generated wrapper. -/
theorem scalar_wrapper {unblock : Bool} {ss : List Scalar} {dep : Option Str} {assign callee : Str}
    {excs : List (Str × Str)} {er : Str} {force : Option ParseKind} {ret : Gen1}
    {before after : List (Str × Str)} {retDecl : Option Str} {pre : List BItem} {w0 w : W}
    (hret : ∀ u, ret u = .ok { u with build := pre ++ u.build })
    (h0 : initState true retDecl {} = .ok w0)
    (h : generateBody (scalarConfig unblock ss dep assign callee excs er force ret before after) w0 = .ok w)
    (hB : NoClash (· ∈ usedNames ss)) :
    (w.vars.map Prod.fst).Nodup ∧
    (retDecl ≠ none → ∃ l1 l2 vs, w.vars = l1 ++ vItems ss vs ++ l2 ∧ "retval".toList ∈ l1.map Prod.fst) ∧
    ∃ l1 l2 vs, w.vars = l1 ++ vItems ss vs ++ l2 ∧ vs.length = ss.length ∧ w.parse = pItems ss vs ∧
      w.build = pre ++ bItems ss vs ∧ w.call = cItems ss vs ∧
      (∀ v ∈ vs, ∃ s ∈ ss, ∃ k, v = nthName (s.name ++ s.suffix) k) ∧
      (retDecl ≠ none → "retval".toList ∈ l1.map Prod.fst) ∧
      .write 1 (assign ++ callText (String.ofList callee) w.call ++ ";".toList) ∈ w.ops := by
  obtain ⟨wa, ts, wb, wc, wd, we, wf, wg, h1, h2, h3, h4, h5, h6, h7, rfl⟩ := generateBody_stages h
  have hm : ∀ n ∈ ["py_retval", "retval", "args", "kwargs", "py_thread_state", "keywords", "wards"],
      n.toList ∈ usedNames ss := fun n hn => List.mem_append_left _ (List.mem_map.mpr ⟨n, hn, rfl⟩)
  obtain ⟨t0, i1, i2, i3, i4, i5⟩ := initState_vars (B := (· ∈ usedNames ss)) h0 (hm _ (by simp))
    (fun _ => hm _ (by simp)) (hm _ (by simp)) (hm _ (by simp))
  obtain ⟨k1, t1⟩ := startStep_keeps (B := (· ∈ usedNames ss)) (hm _ (by simp)) h1
  obtain ⟨vs, hl, e1, e2, e3, e4, e5⟩ := convert_scalars ss h2
  have t2 := tracks_scalars h2 (t1 t0) (fun s hs =>
    List.mem_append_right _ (List.mem_map.mpr ⟨s, hs, rfl⟩))
  obtain ⟨kd, d1, d2⟩ := depStep_keeps dep wb
  obtain ⟨k3, t3⟩ := addWards_keeps (B := (· ∈ usedNames ss)) (hm _ (by simp)) 1 h3
  obtain ⟨ks, s1, s2⟩ := saveStep_keeps unblock ts wc
  obtain ⟨k4, c1, c2, c3⟩ := genCall_keeps h4
  obtain ⟨k5, t5⟩ := parseStep_keeps (B := (· ∈ usedNames ss)) (hm _ (by simp)) h5
  have hf : wf = { we with build := pre ++ we.build } := by
    have := guardNI_ok.mp h6
    rw [hret] at this
    exact (Except.ok.inj this).symm
  obtain ⟨k7, t7⟩ := addWards_keeps (B := (· ∈ usedNames ss)) (hm _ (by simp)) 2 h7
  obtain ⟨k8, f1, f2, lf, f3⟩ := finishStep_keeps
    (scalarConfig unblock ss dep assign callee excs er force ret before after) wg
  have tg : Tracks (· ∈ usedNames ss) wg := t7 (by
    subst hf
    exact tracks_congr (t5 (tracks_congr (t3 (tracks_congr t2 d1 d2)) (c1.trans s1) (c2.trans s2))) rfl rfl)
  have nd := tracks_nodup (tracks_congr tg f1 f2) hB
  have kbe : Keeps wb we := kd.trans (k3.trans (ks.trans (k4.trans k5)))
  have kend : Keeps wf (finishStep (scalarConfig unblock ss dep assign callee excs er force ret before after) wg) :=
    k7.trans k8
  obtain ⟨l1, v1⟩ := k1.vars
  obtain ⟨l2, v2⟩ := kbe.vars
  obtain ⟨l3, v3⟩ := kend.vars
  have hvars : (finishStep (scalarConfig unblock ss dep assign callee excs er force ret before after) wg).vars =
      (w0.vars ++ l1) ++ vItems ss vs ++ (l2 ++ l3) := by
    rw [v3, hf]; simp [v2, e1, v1]
  have hret' : retDecl ≠ none → "retval".toList ∈ (w0.vars ++ l1).map Prod.fst := by
    intro hr
    rw [List.map_append]
    exact List.mem_append_left _ (i5 hr)
  refine ⟨nd, fun hr => ⟨_, _, vs, hvars, hret' hr⟩, _, _, vs, hvars, hl, ?_, ?_, ?_, e5, hret', ?_⟩
  · rw [kend.parse, hf]; simp [kbe.parse, e2, k1.parse, i1]
  · rw [kend.build, hf]; simp [kbe.build, e3, k1.build, i2]
  · rw [kend.call, hf]; simp [kbe.call, e4, k1.call, i3]
  · have hcall : (finishStep (scalarConfig unblock ss dep assign callee excs er force ret before after) wg).call
        = (saveStep unblock ts wc).call := by
      rw [kend.call, hf]
      show we.call = _
      rw [k5.call, k4.call]
    rw [hcall]
    obtain ⟨lp, ep, -⟩ := parseStep_ops h5
    obtain ⟨lw, ew, -⟩ := opsIn_addWards (P := fun _ => True) 2 (fun _ => trivial) (fun _ => trivial) after _ _ h7
    rw [f3, ew, hf]
    show _ ∈ (we.ops ++ lw) ++ lf
    rw [ep]
    simp only [List.mem_append]
    exact Or.inl (Or.inl (Or.inl c3))

/-- Everything together. -/
theorem exec_wrapper (L : Lang Val Py) {ss : List Scalar} {w : W} {l1 l2 : List (Str × Option Str)}
    {vs : List Str} {rv : Option Str} {pre : List BItem} (nd : (w.vars.map Prod.fst).Nodup)
    (hv : w.vars = l1 ++ vItems ss vs ++ l2) (hl : vs.length = ss.length) (hp : w.parse = pItems ss vs)
    (hb : w.build = pre ++ bItems ss vs) (hc : w.call = cItems ss vs)
    (hplain : ∀ v ∈ vs, Plain v) (hrv : ∀ r, rv = some r → r ∈ l1.map Prod.fst)
    (args : List (Option Py)) (F : Callee Val) (hF : ∀ xs, (F xs).2.length = xs.length) :
    exec L rv w args F = (inputs L ss args).bind (fun xs =>
      (buildAll L (setRet rv (F xs).1 (fun _ => none)) pre).map (· ++ outputs L ss (F xs).2)) ∨
    ∃ v ∈ pre, ∀ r, rv = some r → v.values ≠ [r] := by
  by_cases hex : ∃ v ∈ pre, ∀ r, rv = some r → v.values ≠ [r]
  · exact .inr hex
  refine .inl ?_
  have ndv : vs.Nodup := by
    rw [hv] at nd
    simp only [List.map_append, vItems_names ss vs hl] at nd
    exact (List.nodup_append.mp (List.nodup_append.mp nd).1).2.1
  have hdisj : ∀ r, rv = some r → r ∉ vs := by
    intro r hr hm
    rw [hv] at nd
    simp only [List.map_append, vItems_names ss vs hl] at nd
    exact (List.nodup_append.mp (List.nodup_append.mp nd).1).2.2 r (hrv r hr) r hm rfl
  have hinit : ∀ p ∈ vItems ss vs, initEnv L w.vars p.1 = p.2.map L.expr := fun p hp =>
    initEnv_spec L w.vars nd p (by rw [hv]; simp [hp])
  obtain ⟨q1, -⟩ := parse_inputs L ss vs args (initEnv L w.vars) hl ndv hinit
  unfold exec
  rw [hp, hc, hb]
  rw [← q1]
  cases hpa : parseItems L (pItems ss vs) args (initEnv L w.vars) with
  | none => rfl
  | some env =>
    simp only [Option.map_some, Option.bind_some]
    have hcall : (cItems ss vs).map (fun e => env (place e)) = vs.map env := by
      conv_rhs => rw [← place_cItems ss vs hl hplain]
      rw [List.map_map]; rfl
    rw [hcall, place_cItems ss vs hl hplain]
    generalize hres : F (vs.map env) = res
    have hlen : res.2.length = ss.length := by
      rw [← hres, hF]; simp [hl]
    have hlast := build_outputs L ss vs res.2 env (setRet rv res.1 (storeAll vs res.2 env)) hl hlen ndv (by
      intro u hu
      unfold setRet
      split
      · rename_i r
        have : u ≠ r := fun e => hdisj r rfl (e ▸ hu)
        simp [Env.set, this]
      · rfl)
    -- the items in front only see the return value
    have gen : ∀ (pre : List BItem), (¬ ∃ v ∈ pre, ∀ r, rv = some r → v.values ≠ [r]) →
        buildAll L (setRet rv res.1 (storeAll vs res.2 env)) (pre ++ bItems ss vs) =
        (buildAll L (setRet rv res.1 (fun _ => none)) pre).map (· ++ outputs L ss res.2) := by
      intro pre
      induction pre with
      | nil => intro _; simpa [buildAll] using hlast
      | cons it pre ih =>
        intro hno
        have ih := ih (fun ⟨v, hv, hh⟩ => hno ⟨v, List.mem_cons_of_mem _ hv, hh⟩)
        have : ∃ r, rv = some r ∧ it.values = [r] := by
          by_contra hcon
          exact hno ⟨it, List.mem_cons_self, fun r hr hv => hcon ⟨r, hr, hv⟩⟩
        obtain ⟨r, rfl, hr⟩ := this
        simp only [List.cons_append, buildAll, hr]
        have e1 : setRet (some r) res.1 (storeAll vs res.2 env) r = some res.1 := by simp [setRet, Env.set]
        have e2 : setRet (some r) res.1 (fun _ => none) r = some res.1 := by simp [setRet, Env.set]
        rw [e1, e2]
        simp only [ih, Option.map_map]
        rfl
    exact gen pre hex


theorem cItems_zip : ∀ (ss : List Scalar) (vs : List Str),
    cItems ss vs = (ss.zip vs).map (fun p => if p.1.byPtr then '&' :: p.2 else p.2)
  | [], _ => by simp [cItems]
  | _ :: _, [] => by simp [cItems]
  | s :: ss, v :: vs => by simp [cItems, cItems_zip ss vs]

/-! ## The theorems -/

/-- C41 for functions and methods with a returned value.  `ss` are the parameters as declared.
Whatever the meaning of format units and initializers (`L`), the arguments (`args`, `none` for one
left out) and the C++ function (`F`): if the wrapper accepts the arguments, the function is called
once with exactly `inputs L ss args`, one value per declared parameter and in declaration order, and
Python gets its result followed by the output parameters in declaration order.  Deprecation,
translated exceptions, thread unblocking, custodians and forced parsing do not matter.

Missing from the full claim: handlers other than the scalar ones; names that clash when digits are
appended (for which it is false, see `C41_clash_counterexample`); executions left early by an error
check (only the range checks of `Scalar.check` and the deprecation warning, all before the call). -/
theorem C41_value_partial (L : Lang Val Py) (unblock : Bool) (ss : List Scalar) (dep : Option Str)
    (callee : Str) (excs : List (Str × Str)) (er : Str) (force : Option ParseKind)
    (before after : List (Str × Str)) (ctype fmt : Str) (w0 w : W)
    (h0 : initState true (some ctype) {} = .ok w0)
    (h : generateBody (scalarConfig unblock ss dep "retval = ".toList callee excs er force
      (scalarReturn fmt "retval".toList) before after) w0 = .ok w)
    (hB : NoClash (· ∈ usedNames ss)) (hplain : ∀ s ∈ ss, Plain (s.name ++ s.suffix))
    (args : List (Option Py)) (F : Callee Val) (hF : ∀ xs, (F xs).2.length = xs.length) :
    exec L (some "retval".toList) w args F =
      (inputs L ss args).map (fun xs => L.unconv fmt (F xs).1 :: outputs L ss (F xs).2) := by
  obtain ⟨nd, -, l1, l2, vs, hv, hl, hp, hb, hc, hn, hr, -⟩ := scalar_wrapper
    (pre := [⟨fmt, ["retval".toList], none⟩]) (fun u => rfl) h0 h hB
  have hpl : ∀ v ∈ vs, Plain v := by
    intro v hv
    obtain ⟨s, hs, k, rfl⟩ := hn v hv
    exact nthName_plain (hplain s hs) k
  rcases exec_wrapper L (rv := some "retval".toList) nd hv hl hp hb hc hpl
    (by intro r hr'; cases hr'; exact hr (by simp)) args F hF with he | ⟨v, hv, hh⟩
  · rw [he]
    cases inputs L ss args with
    | none => rfl
    | some xs => simp [buildAll, setRet, Env.set]
  · simp only [List.mem_singleton] at hv
    exact absurd rfl (hv ▸ hh "retval".toList rfl)

/-- C41 for functions and methods returning nothing; with no output parameter the Python result is
the empty list of values, i.e. `None` (base.py:945-948). -/
theorem C41_void_partial (L : Lang Val Py) (unblock : Bool) (ss : List Scalar) (dep : Option Str)
    (callee : Str) (excs : List (Str × Str)) (er : Str) (force : Option ParseKind)
    (before after : List (Str × Str)) (w0 w : W)
    (h0 : initState true none {} = .ok w0)
    (h : generateBody (scalarConfig unblock ss dep [] callee excs er force voidReturn before after) w0
      = .ok w)
    (hB : NoClash (· ∈ usedNames ss)) (hplain : ∀ s ∈ ss, Plain (s.name ++ s.suffix))
    (args : List (Option Py)) (F : Callee Val) (hF : ∀ xs, (F xs).2.length = xs.length) :
    exec L none w args F = (inputs L ss args).map (fun xs => outputs L ss (F xs).2) := by
  obtain ⟨nd, -, l1, l2, vs, hv, hl, hp, hb, hc, hn, hr, -⟩ := scalar_wrapper
    (pre := []) (fun u => rfl) h0 h hB
  have hpl : ∀ v ∈ vs, Plain v := by
    intro v hv
    obtain ⟨s, hs, k, rfl⟩ := hn v hv
    exact nthName_plain (hplain s hs) k
  rcases exec_wrapper L (rv := none) nd hv hl hp hb hc hpl (by simp) args F hF with he | ⟨v, hv, -⟩
  · rw [he]
    cases inputs L ss args with
    | none => rfl
    | some xs => simp [buildAll]
  · simp at hv

/-- C41, what is written: the call passes one expression per declared parameter, the `i`-th being
the variable of the `i`-th parameter or its address; the keyword list is the list of names of the
input parameters in declaration order (`None` if there is none). -/
theorem C41_text_partial (unblock : Bool) (ss : List Scalar) (dep : Option Str)
    (assign callee : Str) (excs : List (Str × Str)) (er : Str) (force : Option ParseKind)
    (before after : List (Str × Str)) (retDecl : Option Str) (ret : Gen1) (w0 w : W)
    (hret : ret = voidReturn ∨ ∃ f v, ret = scalarReturn f v)
    (h0 : initState true retDecl {} = .ok w0)
    (h : generateBody (scalarConfig unblock ss dep assign callee excs er force ret before after) w0 = .ok w)
    (hB : NoClash (· ∈ usedNames ss)) :
    (∃ vs : List Str, vs.length = ss.length ∧ vs.Nodup ∧
      w.call = (ss.zip vs).map (fun p => if p.1.byPtr then '&' :: p.2 else p.2) ∧
      ∀ (i : Nat) (s : Scalar) (v : Str), ss[i]? = some s → vs[i]? = some v → (v, s.init) ∈ w.vars) ∧
    .write 1 (assign ++ callText (String.ofList callee) w.call ++ ";".toList) ∈ w.ops ∧
    getKeywords w.parse = .ok (if ss.filter (·.isIn) = [] then none
      else some ((ss.filter (·.isIn)).map (·.name))) := by
  have hpre : ∃ pre, ∀ u, ret u = .ok { u with build := pre ++ u.build } := by
    rcases hret with rfl | ⟨f, v, rfl⟩
    · exact ⟨[], fun u => rfl⟩
    · exact ⟨[⟨f, [v], none⟩], fun u => rfl⟩
  obtain ⟨pre, hpre⟩ := hpre
  obtain ⟨nd, -, l1, l2, vs, hv, hl, hp, hb, hc, hn, hr, hw⟩ := scalar_wrapper hpre h0 h hB
  refine ⟨⟨vs, hl, ?_, ?_, ?_⟩, hw, ?_⟩
  · rw [hv] at nd
    simp only [List.map_append, vItems_names ss vs hl] at nd
    exact (List.nodup_append.mp (List.nodup_append.mp nd).1).2.1
  · rw [hc]
    exact cItems_zip ss vs
  · have key : ∀ (ss : List Scalar) (vs : List Str) (i : Nat) (s : Scalar) (v : Str),
        ss[i]? = some s → vs[i]? = some v → (v, s.init) ∈ vItems ss vs := by
      intro ss
      induction ss with
      | nil => intro vs i s v h; simp at h
      | cons s0 ss ih =>
        intro vs i s v h h'
        cases vs with
        | nil => simp at h'
        | cons v0 vs =>
          cases i with
          | zero => simp at h h'; subst h h'; simp [vItems]
          | succ i =>
            simp only [List.getElem?_cons_succ] at h h'
            exact List.mem_cons_of_mem _ (ih vs i s v h h')
    intro i s v h1 h2
    rw [hv]
    simp [key ss vs i s v h1 h2]
  · have hnames := pItems_names ss vs hl
    obtain ⟨q1, q2, -⟩ := C07_keywords w.parse
    rw [hp] at q1 q2 ⊢
    split
    · rename_i he
      refine q1 ?_
      intro it hit
      rw [he, List.map_nil, List.map_eq_nil_iff] at hnames
      rw [hnames] at hit
      simp at hit
    · rename_i hne
      have hne' : pItems ss vs ≠ [] := by
        intro he
        rw [he] at hnames
        simp only [List.map_nil] at hnames
        exact hne (List.map_eq_nil_iff.mp hnames.symm)
      obtain ⟨kw, hk, hk'⟩ := q2 hne' (by
        intro it hit
        have : it.name ∈ (pItems ss vs).map (·.name) := List.mem_map.mpr ⟨it, hit, rfl⟩
        rw [hnames, List.mem_map] at this
        obtain ⟨s, -, hs⟩ := this
        rw [← hs]; simp)
      rw [hk]
      rw [hnames] at hk'
      have : (List.map (fun s => s.name) (List.filter (fun s => s.isIn) ss)).map some = kw.map some := by
        rw [← hk']; simp
      rw [(List.map_injective_iff.mpr (fun _ _ h => Option.some.inj h)) this]

/-- Without the hypothesis on names two variables of the same name are declared, here for
`int f(int retval, int retval2)`: not valid C++. -/
theorem C41_clash_counterexample :
    (do generateBody (scalarConfig false [byValue "i".toList "int".toList "retval".toList none,
          byValue "i".toList "int".toList "retval2".toList none] none "retval = ".toList "f".toList [] []
          none (scalarReturn "i".toList "retval".toList) [] []) (← initState true (some "int".toList) {})
      : PyRes W).toOption.map (fun w => w.vars.map (fun p => String.ofList p.1)) =
    some ["py_retval", "retval", "retval2", "retval2", "keywords"] := by
  decide +kernel

/-- Names that do not end in a digit never clash. -/
theorem noClash_of_last {B : Str → Prop}
    (h : ∀ a, B a → ∀ c, a.getLast? = some c → c.isDigit = false) : NoClash B := by
  intro a b ha hb d hd hdig he
  have hl : d.getLast? = some (d.getLast hd) := List.getLast?_eq_some_getLast hd
  have : a.getLast? = some (d.getLast hd) := by
    rw [he, List.getLast?_append, hl]; rfl
  have h1 := h a ha _ this
  rw [hdig _ (List.getLast_mem hd)] at h1
  cases h1

/-! Non-vacuity: `int f(int a, int &b /* inout */, int *c /* out */)`, with an exception. -/

def exampleScalars : List Scalar :=
  [byValue "i".toList "int".toList "a".toList none, byRef "i".toList "int".toList "b".toList true true,
   byPointer "i".toList "int".toList "c".toList [] false true]

example : NoClash (· ∈ usedNames exampleScalars) :=
  noClash_of_last (by decide +kernel)

example : ∀ s ∈ exampleScalars, Plain (s.name ++ s.suffix) := by
  unfold Plain; decide +kernel

def exampleBody : PyRes W := do
  generateBody (scalarConfig true exampleScalars none "retval = ".toList "f".toList
    [("Err".toList, "x;".toList)] "return NULL;".toList none (scalarReturn "i".toList "retval".toList)
    [("self".toList, "py_a".toList)] []) (← initState true (some "int".toList) {})

/-- Python integers and C integers with `conv` failing on negative numbers, say. -/
def exampleLang : Lang Int Int := ⟨fun _ x => if x < 0 then none else some x, fun _ x => x, fun _ => 0⟩

example : exampleBody.toOption.map (fun w => w.call) = some ["a".toList, "b".toList, "&c".toList] := by
  decide +kernel

example : exampleBody.toOption.bind (fun w => exec exampleLang (some "retval".toList) w [some 3, some 4]
    (fun xs => (100, xs.map (fun x => x.getD 7 + 1)))) = some [100, 5, 8] := by
  decide +kernel

end Verif.Wrap
