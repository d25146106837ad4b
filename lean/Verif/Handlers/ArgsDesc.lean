import Verif.Handlers.Args
import Verif.Wrapper.DescGen

/-!
# Class parameters as handler data

The handlers of `Handlers/Args.lean` written as a `Desc` (`Wrapper/Desc.lean`): `snip_desc` says that this is the same
handler, so that C41 holds for functions with class parameters among the others.
-/
namespace Verif.Handlers
open Verif Verif.Flow Verif.Params Verif.Wrap Verif.DeclScope

/-- The variables, in the order in which they are declared. -/
def Snip.vars (s : Snip) (name : Str) : List DVar :=
  (s.py.map (fun p => { ctype := p.1, base := name, init := p.2 : DVar })).toList ++
  (s.val.map (fun p => { ctype := p.1, base := name ++ p.2 : DVar })).toList ++
  (s.dfltVar.map (fun p => { ctype := p.1, base := name ++ "_default".toList, init := some p.2 : DVar })).toList

/-- The Python object: the first variable, or `self`. -/
def Snip.pyPiece (s : Snip) : Piece := if s.py.isSome then .var 0 else tx "self"

/-- The value variable. -/
def Snip.valPiece (s : Snip) : Piece := if s.val.isSome then .var s.py.toList.length else .text []

/-- The variable of the default value. -/
def Snip.dfltPiece (s : Snip) : Option Piece :=
  s.dfltVar.map (fun _ => .var (s.py.toList.length + s.val.toList.length))

/-- `E.render` with holes. -/
def E.tmpl (py val : Piece) (d : Option Piece) : E → Tmpl
  | .deref k => [tx "*((", .text k.pystruct, tx " *) ", py, tx ")->obj"]
  | .derefShort => [tx "*", py, tx "->obj"]
  | .obj => [py, tx "->obj"]
  | .null => [tx "NULL"]
  | .val => [val]
  | .dflt s => [.text s]
  | .orDflt k s => [tx "(", py, tx " ? (*((", .text k.pystruct, tx " *) ", py, tx ")->obj) : ", d.getD (.text s), tx ")"]
  | .objOrNull => [tx "(", py, tx " ? ", py, tx "->obj : NULL)"]

theorem e_render (vs : List Str) (py val : Piece) (d : Option Piece) (e : E) :
    Wrap.render vs (e.tmpl py val d) = e.render (py.render vs) (val.render vs) (d.map (Piece.render vs)) := by
  cases e with
  | orDflt k s => cases d <;> simp [E.tmpl, E.render, Wrap.render, tx, Piece.render]
  | _ => simp [E.tmpl, E.render, Wrap.render, tx, Piece.render]

def C.tmpl (py : Piece) : C → Tmpl
  | .isNull => [py, tx " == NULL"]
  | .isInstance k => [tx "PyObject_IsInstance(", py, tx ", (PyObject*) &", .text k.pytype, tx ")"]

theorem c_render (vs : List Str) (py : Piece) (c : C) :
    Wrap.render vs (c.tmpl py) = c.render (py.render vs) := by
  cases c with
  | isNull => exact congrArg (py.render vs ++ ·) (List.append_nil _)
  | isInstance k =>
    show "PyObject_IsInstance(".toList ++ (py.render vs ++ (", (PyObject*) &".toList ++ (k.pytype ++ (")".toList ++ [])))) =
      "PyObject_IsInstance(".toList ++ py.render vs ++ ", (PyObject*) &".toList ++ k.pytype ++ ")".toList
    generalize "PyObject_IsInstance(".toList = a
    generalize ", (PyObject*) &".toList = b
    generalize ")".toList = c
    simp

/-- `chainOps` with holes. -/
def chainTops (py val : Piece) : Bool → List (C × E) → List TOp
  | _, [] => []
  | first, (c, e) :: rest =>
    .write ((if first then tx "if (" else tx "} else if (") :: c.tmpl py ++ tx ") {\n    " :: val :: tx " = " ::
      e.tmpl py val none ++ [tx ";"]) :: chainTops py val false rest

/-- `S.ops` with holes. -/
def S.tops (py val : Piece) : S → List TOp
  | .set e => [.write (val :: tx " = " :: e.tmpl py val none ++ [tx ";"])]
  | .chain l names => chainTops py val true l ++
      [.check [tx "} else {"] (some [tx "PyErr_Format(PyExc_TypeError, \"parameter must an instance of one of the types (",
        .text (pyJoin ", ".toList names), tx "), not %s\", Py_TYPE(", py, tx ")->tp_name);"])]
  | .noneOrInstance k num => [.check [py, tx " && ((PyObject *) ", py,
      tx " != Py_None) && !PyObject_IsInstance((PyObject *) ", py, tx ", (PyObject *) &", .text k.pytype, tx ")"]
      (some [tx "PyErr_SetString(PyExc_TypeError, \"Parameter ", .text (natStr num), tx " must be of type ", .text k.name,
        tx "\");"])]
  | .setNullOk => [.write [tx "if (", py, tx ") {\n    if ((PyObject *) ", py, tx " == Py_None)\n        ", val,
      tx " = NULL;\n    else\n        ", val, tx " = ", py, tx "->obj;\n} else {\n    ", val, tx " = NULL;\n}"]]
  | .setIf => [.write [tx "if (", py, tx ") { ", val, tx " = ", py, tx "->obj; }"]]
  | .incref t => [.write [tx "if (", py, tx ") {"], .write [.text t], .write [tx "}"]]

theorem render_cons (vs : List Str) (p : Piece) (t : Tmpl) : render vs (p :: t) = p.render vs ++ render vs t := rfl

theorem render_append (vs : List Str) (t u : Tmpl) : render vs (t ++ u) = render vs t ++ render vs u := by
  simp [Wrap.render]

theorem render_tx (vs : List Str) (s : String) : (tx s).render vs = s.toList := rfl

theorem chainTops_ops (vs : List Str) (py val : Piece) : ∀ (first : Bool) (l : List (C × E)),
    (chainTops py val first l).map (TOp.op vs) = chainOps (py.render vs) (val.render vs) first l
  | _, [] => rfl
  | first, (c, e) :: rest => by
    simp only [chainTops, chainOps, List.map_cons, chainTops_ops vs py val false rest, TOp.op, render_cons, render_append,
      c_render, e_render, render_tx, Option.map_none]
    cases first <;> simp [render_tx, Wrap.render]

theorem s_ops (vs : List Str) (py val : Piece) (s : S) :
    (s.tops py val).map (TOp.op vs) = s.ops (py.render vs) (val.render vs) := by
  cases s with
  | set e =>
    simp only [S.tops, S.ops, TOp.op, List.map_cons, List.map_nil, render_cons, render_append, e_render, render_tx,
      Option.map_none]
    simp [Wrap.render]
  | chain l names =>
    simp only [S.tops, S.ops, List.map_append, chainTops_ops]
    simp [TOp.op, Wrap.render, tx, Piece.render]
  | noneOrInstance k num => simp [S.tops, S.ops, TOp.op, Wrap.render, tx, Piece.render]
  | setNullOk => simp [S.tops, S.ops, TOp.op, Wrap.render, tx, Piece.render]
  | setIf => simp [S.tops, S.ops, TOp.op, Wrap.render, tx, Piece.render]
  | incref t => simp [S.tops, S.ops, TOp.op, Wrap.render, tx, Piece.render]

/-- Does the statement assign to the value variable? -/
def S.sets : S → Bool
  | .set _ => true
  | .chain _ _ => true
  | .setNullOk => true
  | .setIf => true
  | _ => false

/-- The handler as data; `unregister` is the text of `write_unregister_wrapper`. -/
def Snip.desc (s : Snip) (name : Str) (unregister : Option Str) : Desc :=
  { name
    vars := s.vars name
    unit := s.parse.map (fun
      | .any => ⟨"O".toList, [match s.pyPiece with | .var i => .addr i | .text t => .text ('&' :: t)], s.optional⟩
      | .typed k => ⟨"O!".toList, [.text ('&' :: k.pytype),
          match s.pyPiece with | .var i => .addr i | .text t => .text ('&' :: t)], s.optional⟩)
    before := s.before.map (fun x =>
      { ops := x.tops s.pyPiece s.valPiece
        target := if x.sets && s.val.isSome then some s.py.toList.length else none })
    arg := s.arg.tmpl s.pyPiece s.valPiece s.dfltPiece
    after := if s.clearAfter then
        [{ texts := [tx "if (", s.pyPiece, tx ") {"] :: unregister.toList.map (fun u => [.text u]) ++
            [[s.pyPiece, tx "->obj = NULL;"], [tx "}"]] }]
      else [] }

/-- What `Snip.convert` does after declaring its variables. -/
def Snip.rest (s : Snip) (name : Str) (unregister : Option Str) (w : W) (py val dv : Str) : W :=
  let w := match s.parse with
    | none => w
    | some .any => w.addParse ⟨"O".toList, ['&' :: py], some name, s.optional⟩ false
    | some (.typed k) => w.addParse ⟨"O!".toList, ['&' :: k.pytype, '&' :: py], some name, s.optional⟩ false
  let w := { w with ops := w.ops ++ s.before.flatMap (S.ops py val) }
  let w := w.addCall (s.arg.render py val (s.dfltVar.map (fun _ => dv)))
  if s.clearAfter then { w with ops := w.ops ++ clearOps py unregister } else w

/-- What `Desc.convert` does after declaring its variables. -/
def restD (d : Desc) (w : W) (vs : List Str) : W :=
  { w with parse := w.parse ++ d.items vs, ops := w.ops ++ d.opsAt vs,
           call := w.call ++ [Wrap.render vs d.arg], build := w.build ++ d.builds vs }

theorem before_ops (vs : List Str) (p v : Piece) (t : S → Option Nat) (before : List S) :
    (before.map (fun x => ({ ops := x.tops p v, target := t x } : BStmt))).flatMap (fun s => s.ops.map (TOp.op vs)) =
      before.flatMap (S.ops (p.render vs) (v.render vs)) := by
  rw [List.flatMap_map]
  exact List.flatMap_congr (fun x _ => s_ops vs p v x)

theorem addr_render (vs : List Str) (p : Piece) :
    PArg.render vs (match p with | .var i => .addr i | .text t => .text ('&' :: t)) = '&' :: p.render vs := by
  cases p <;> rfl

theorem after_ops (vs : List Str) (p : Piece) (u : Option Str) :
    ([tx "if (", p, tx ") {"] :: u.toList.map (fun u => [Piece.text u]) ++ [[p, tx "->obj = NULL;"], [tx "}"]]).map
      (fun t => Op.write 2 (Wrap.render vs t)) = clearOps (p.render vs) u := by
  cases u <;> simp [clearOps, Wrap.render, tx, Piece.render]

theorem rest_eq (s : Snip) (name : Str) (u : Option Str) (w : W) (vs : List Str) (dv : Str)
    (hd : s.dfltPiece.map (Piece.render vs) = s.dfltVar.map (fun _ => dv)) :
    restD (s.desc name u) w vs = s.rest name u w (s.pyPiece.render vs) (s.valPiece.render vs) dv := by
  have hb := before_ops vs s.pyPiece s.valPiece
    (fun x => if x.sets && s.val.isSome then some s.py.toList.length else none) s.before
  have ha := after_ops vs s.pyPiece u
  have he := e_render vs s.pyPiece s.valPiece s.dfltPiece s.arg
  rw [hd] at he
  have hr := addr_render vs s.pyPiece
  unfold restD Snip.rest Desc.items Desc.opsAt Desc.builds
  cases hp : s.parse with
  | none =>
    cases hc : s.clearAfter <;>
      simp only [Snip.desc, hp, hc, he, hb, if_true, if_false, Bool.false_eq_true, Option.map_none, Option.toList_none,
        List.map_nil, List.append_nil, List.flatMap_nil, List.flatMap_cons, ha, W.addCall, List.append_assoc]
  | some fm =>
    cases fm <;> cases hc : s.clearAfter <;>
      simp only [Snip.desc, hp, hc, he, hb, if_true, if_false, Bool.false_eq_true, Option.toList_none,
        List.map_nil, List.append_nil, List.flatMap_nil, List.flatMap_cons, ha, W.addCall, List.append_assoc,
        Option.map_some, Option.toList_some, List.map_cons, hr, W.addParse] <;> rfl

/-- **It is the same handler.** -/
theorem snip_desc (s : Snip) (name : Str) (u : Option Str) : (s.desc name u).convert = s.convert name u := by
  funext w
  have h1 : (s.desc name u).convert w = (declareAll (s.vars name) w >>= fun p => pure (restD (s.desc name u) p.1 p.2)) := rfl
  have h2 : s.convert name u w =
      (declOpt w (s.py.map (fun p => (p.1, name, p.2))) "self".toList >>= fun p =>
        declOpt p.1 (s.val.map (fun p => (p.1, name ++ p.2, none))) [] >>= fun v =>
        declOpt v.1 (s.dfltVar.map (fun p => (p.1, name ++ "_default".toList, some p.2))) [] >>= fun d =>
        pure (s.rest name u d.1 p.2 v.2 d.2)) := rfl
  rw [h1, h2]
  have hr := rest_eq s name u
  obtain ⟨py, val, dv, parse, opt, before, arg, clear⟩ := s
  cases py <;> cases val <;> cases dv <;>
    simp only [Snip.vars, declareAll, declOpt, Option.map_none, Option.map_some, Option.toList_none, Option.toList_some,
      List.nil_append, List.cons_append, List.append_nil, bind_assoc, pure_bind]
  all_goals
    first
    | exact congrArg Except.ok (hr w [] [] rfl)
    | exact bind_congr (fun a => congrArg Except.ok (hr a.1 [a.2] [] rfl))
    | exact bind_congr (fun a => congrArg Except.ok (hr a.1 [a.2] a.2 rfl))
    | exact bind_congr (fun a => bind_congr (fun b => congrArg Except.ok (hr b.1 [a.2, b.2] [] rfl)))
    | exact bind_congr (fun a => bind_congr (fun b => congrArg Except.ok (hr b.1 [a.2, b.2] b.2 rfl)))
    | exact bind_congr (fun a => bind_congr (fun b => bind_congr (fun c => congrArg Except.ok
        (hr c.1 [a.2, b.2, c.2] c.2 rfl))))

/-! ## Well formed -/

/-- A text `write_code` accepts as one statement. -/
def textOk : Str → Bool
  | [] => false
  | c :: _ => c != '\n'

/-- Assignments need the value variable; the text of `write_incref` is a statement. -/
def S.good (hasVal : Bool) : S → Bool
  | .set _ => hasVal
  | .incref t => textOk t
  | _ => true

theorem startOk_text (n : Nat) (t : Str) (rest : Tmpl) (h : textOk t = true) : startOk n (.text t :: rest) = true := by
  cases t with
  | nil => exact absurd h (by simp [textOk])
  | cons c t => exact h

theorem chainTops_ok (n : Nat) (py val : Piece) : ∀ (first : Bool) (l : List (C × E)),
    ∀ o ∈ chainTops py val first l, o.startOk n = true
  | _, [], o, ho => nomatch ho
  | first, (c, e) :: rest, o, ho => by
    rcases List.mem_cons.1 ho with rfl | ho
    · cases first
      · rfl
      · rfl
    · exact chainTops_ok n py val false rest o ho

theorem tops_ok (n : Nat) (py val : Piece) (hasVal : Bool) (hv : hasVal = true → ∃ i, val = .var i ∧ i < n) (s : S)
    (hs : s.good hasVal = true) : ∀ o ∈ s.tops py val, o.startOk n = true := by
  cases s with
  | set e =>
    obtain ⟨i, rfl, hi⟩ := hv hs
    intro o ho
    cases List.mem_singleton.1 ho
    exact decide_eq_true hi
  | chain l names =>
    intro o ho
    rcases List.mem_append.1 ho with ho | ho
    · exact chainTops_ok n py val true l o ho
    · cases List.mem_singleton.1 ho
      rfl
  | noneOrInstance k num =>
    intro o ho
    cases List.mem_singleton.1 ho
    rfl
  | setNullOk =>
    intro o ho
    cases List.mem_singleton.1 ho
    rfl
  | setIf =>
    intro o ho
    cases List.mem_singleton.1 ho
    rfl
  | incref t =>
    intro o ho
    rcases List.mem_cons.1 ho with rfl | ho
    · rfl
    rcases List.mem_cons.1 ho with rfl | ho
    · exact startOk_text _ _ _ hs
    cases List.mem_singleton.1 ho
    rfl

theorem vars_length (s : Snip) (name : Str) :
    (s.vars name).length = s.py.toList.length + s.val.toList.length + s.dfltVar.toList.length := by
  unfold Snip.vars
  cases s.py <;> cases s.val <;> cases s.dfltVar <;> rfl

/-- Handlers whose statements are in order are well formed; a handler without Python variable parses nothing. -/
theorem snip_wf (s : Snip) (name : Str) (u : Option Str) (hb : ∀ x ∈ s.before, x.good s.val.isSome = true)
    (hu : ∀ t, u = some t → textOk t = true) :
    (s.desc name u).WF := by
  have hlen : (s.desc name u).vars.length = s.py.toList.length + s.val.toList.length + s.dfltVar.toList.length :=
    vars_length s name
  have hpy : ∀ i, s.pyPiece = .var i → i < (s.desc name u).vars.length := by
    intro i hi
    unfold Snip.pyPiece at hi
    rw [hlen]
    cases hp : s.py with
    | none => rw [hp] at hi; cases hi
    | some x => rw [hp] at hi; cases hi; exact Nat.lt_of_lt_of_le Nat.one_pos (by simp; omega)
  have hval : s.val.isSome = true → s.py.toList.length < (s.desc name u).vars.length := by
    intro h
    rw [hlen]
    cases hv : s.val with
    | none => rw [hv] at h; cases h
    | some x => simp; omega
  refine ⟨?_, ?_, ?_, ?_, ?_, ?_, nofun⟩
  · intro x hx
    have hx : s.parse.map _ = some x := hx
    obtain ⟨f, -, rfl⟩ := Option.map_eq_some_iff.1 hx
    cases f with
    | any =>
      refine ⟨by simp, fun i hi => hpy i ?_⟩
      have hi := List.mem_singleton.1 hi
      revert hi
      cases s.pyPiece with
      | var j => intro hi; cases hi; rfl
      | text t => nofun
    | typed k =>
      refine ⟨by simp, fun i hi => hpy i ?_⟩
      rcases List.mem_cons.1 hi with hi | hi
      · cases hi
      have hi := List.mem_singleton.1 hi
      revert hi
      cases s.pyPiece with
      | var j => intro hi; cases hi; rfl
      | text t => nofun
  · intro hn v hv
    have hv : v ∈ s.vars name := hv
    unfold Snip.vars at hv
    rcases List.mem_append.1 hv with hv | hv
    · rcases List.mem_append.1 hv with hv | hv
      · obtain ⟨p, -, rfl⟩ := Option.map_eq_some_iff.1 (Option.mem_toList.1 hv)
        exact hn
      · obtain ⟨p, -, rfl⟩ := Option.map_eq_some_iff.1 (Option.mem_toList.1 hv)
        exact nameOk_append hn _
    · obtain ⟨p, -, rfl⟩ := Option.map_eq_some_iff.1 (Option.mem_toList.1 hv)
      exact nameOk_append hn _
  · intro b hbm o ho
    obtain ⟨x, hx, rfl⟩ := List.mem_map.1 hbm
    refine tops_ok _ s.pyPiece s.valPiece s.val.isSome (fun h => ⟨_, ?_, hval h⟩) x (hb x hx) o ho
    exact if_pos h
  · intro a ha t ht
    have ha : a ∈ (if s.clearAfter then _ else _ : List AStmt) := ha
    split at ha
    · cases List.mem_singleton.1 ha
      rcases List.mem_append.1 ht with ht | ht
      · rcases List.mem_cons.1 ht with rfl | ht
        · rfl
        · obtain ⟨x, hx, rfl⟩ := List.mem_map.1 ht
          exact startOk_text _ _ _ (hu x (Option.mem_toList.1 hx))
      · rcases List.mem_cons.1 ht with rfl | ht
        · cases hp : s.pyPiece with
          | var i => exact decide_eq_true (hpy i hp)
          | text x =>
            unfold Snip.pyPiece at hp
            split at hp
            · cases hp
            · cases hp; rfl
        · cases List.mem_singleton.1 ht
          rfl
    · cases ha
  · intro b hbm i hi
    obtain ⟨x, hx, rfl⟩ := List.mem_map.1 hbm
    have hi : (if x.sets && s.val.isSome then some s.py.toList.length else none) = some i := hi
    split at hi
    · next h => cases hi; exact hval (by simp at h; exact h.2)
    · cases hi
  · intro a ha i hi
    have ha : a ∈ (if s.clearAfter then _ else _ : List AStmt) := ha
    split at ha
    · cases List.mem_singleton.1 ha
      cases hi
    · cases ha

/-- The text of the memory policy's `write_incref`, if the parameter has one, is a statement. -/
def Par.policyOk (p : Par) : Bool :=
  match p.kind with
  | .ptr _ _ (some t) => textOk t
  | _ => true

theorem convSnip_good (p : Par) (d : Option Str) : ∀ x ∈ (convSnip p d).before, x.good (convSnip p d).val.isSome = true := by
  intro x hx
  cases List.mem_singleton.1 hx
  rfl

/-- The statements of every class handler are in order. -/
theorem par_good (p : Par) (num : Nat) (s : Snip) (h : p.snip num = .ok s) (hp : p.policyOk = true) :
    ∀ x ∈ s.before, x.good s.val.isSome = true := by
  unfold Par.snip at h
  cases hk : p.kind with
  | value =>
    rw [hk] at h
    have h : valueSnip p = .ok s := h
    unfold valueSnip at h
    split at h
    · cases h; nofun
    · split at h
      · split at h
        · split at h
          · cases h; nofun
          · cases h
        · cases h; nofun
      · cases h; exact convSnip_good p _
  | ref c t =>
    rw [hk] at h
    have h : refSnip p c t = .ok s := h
    unfold refSnip at h
    split at h
    · cases h; nofun
    · split at h
      · split at h
        · split at h
          · cases h; nofun
          · split at h
            · cases h; nofun
            · cases h
        · cases h; nofun
      · cases h; exact convSnip_good p _
  | refInout =>
    rw [hk] at h
    dsimp only at h
    split at h
    · cases h
    · cases h; nofun
  | ptr n t c =>
    rw [hk] at h
    cases h
    unfold Par.policyOk at hp
    rw [hk] at hp
    have hinc : ∀ b, ∀ x ∈ (match t, c with | true, some t => [S.incref t] | _, _ => []), S.good b x = true := by
      intro b x hx
      cases t with
      | false => cases hx
      | true =>
        cases c with
        | none => cases hx
        | some t => cases List.mem_singleton.1 hx; exact hp
    unfold ptrSnip
    dsimp only
    split
    · exact hinc _
    · intro x hx
      rcases List.mem_append.1 hx with hx | hx
      · cases n with
        | true =>
          rcases List.mem_cons.1 hx with rfl | hx
          · rfl
          · cases List.mem_singleton.1 hx; rfl
        | false => cases List.mem_singleton.1 hx; rfl
      · exact hinc _ x hx
  | shared n t =>
    rw [hk] at h
    cases h
    intro x hx
    cases n with
    | true =>
      rcases List.mem_cons.1 hx with rfl | hx
      · rfl
      · cases List.mem_singleton.1 hx; rfl
    | false => cases List.mem_singleton.1 hx; rfl

/-- A class parameter as a handler; `snip` does not depend on the position in whether it fails. -/
def Par.pdesc (p : Par) (u : Option Str) : PDesc := fun num =>
  match p.snip num with
  | .ok s => s.desc p.name u
  | .error _ => { name := p.name, vars := [], arg := [] }

/-- **Every class parameter is such a handler.** -/
theorem par_desc (p : Par) (u : Option Str) (h : ∀ num, ∃ s, p.snip num = .ok s) :
    (p.pdesc u).convert = p.convert u := by
  funext w
  obtain ⟨s, hs⟩ := h (w.parse.length + 1)
  have h1 : (p.pdesc u).convert w = ((p.pdesc u) (w.parse.length + 1)).convert w := rfl
  have h2 : p.convert u w = (p.snip (w.parse.length + 1) >>= fun s => s.convert p.name u w) := rfl
  have h3 : (p.pdesc u) (w.parse.length + 1) = s.desc p.name u := by
    unfold Par.pdesc
    rw [hs]
  rw [h1, h2, hs, h3, snip_desc]
  rfl

/-- Class handlers are well formed. -/
theorem par_wf (p : Par) (u : Option Str) (num : Nat) (h : ∀ num, ∃ s, p.snip num = .ok s) (hp : p.policyOk = true)
    (hu : ∀ t, u = some t → textOk t = true) : (p.pdesc u num).WF := by
  obtain ⟨s, hs⟩ := h num
  unfold Par.pdesc
  rw [hs]
  exact snip_wf s p.name u (par_good p num s hs hp) hu

/-! ## C41 for functions with class parameters -/

/-- A parameter: of a class, or handled by one of the handlers of `Wrapper/Desc.lean`. -/
inductive Param where
  | data (d : PDesc)
  | cls (p : Par) (unregister : Option Str)

def Param.convert : Param → Gen1
  | .data d => d.convert
  | .cls p u => p.convert u

def Param.pdesc : Param → PDesc
  | .data d => d
  | .cls p u => p.pdesc u

/-- Handlers that generate code: the class handlers do not raise, and the texts they are given are statements. -/
def Param.Ok : Param → Prop
  | .data d => ∀ n, (d n).WF
  | .cls p u => (∀ num, ∃ s, p.snip num = .ok s) ∧ p.policyOk = true ∧ ∀ t, u = some t → textOk t = true

theorem params_convert (ps : List Param) (h : ∀ p ∈ ps, p.Ok) :
    (ps.map Param.pdesc).map PDesc.convert = ps.map Param.convert := by
  rw [List.map_map]
  refine List.map_congr_left (fun p hp => ?_)
  cases p with
  | data d => rfl
  | cls p u => exact par_desc p u (h _ hp).1

theorem params_wf : ∀ (ps : List Param) (n : Nat), (∀ p ∈ ps, p.Ok) → ∀ d ∈ resolve n (ps.map Param.pdesc), d.WF
  | [], _, _, d, hd => nomatch hd
  | p :: ps, n, h, d, hd => by
    rcases List.mem_cons.1 hd with rfl | hd
    · cases p with
      | data d => exact h _ List.mem_cons_self n
      | cls p u =>
        obtain ⟨h1, h2, h3⟩ := h _ List.mem_cons_self
        exact par_wf p u n h1 h2 h3
    · exact params_wf ps _ (fun q hq => h q (List.mem_cons_of_mem _ hq)) d hd

/-- **C41 with class parameters (partial, as `C41_handlers_partial`).**  A wrapper of a function with any parameters of
wrapped classes among other ones: every parameter gets its own argument, and the C++ function gets what each parameter's
own code makes of it, in order. -/
theorem C41_classes_partial {unblock : Bool} {ps : List Param} {dep : Option Str} {assign callee : Str}
    {excs : List (Str × Str)} {er : Str} {force : Option ParseKind} {ret : RDesc}
    {before after : List (Str × Str)} {retDecl : Option Str} {w0 w : W}
    (h0 : initState true retDecl {} = .ok w0)
    (h : generateBody { unblock, params := ps.map Param.convert, deprecated := dep, pre := addWards 1 before
                        call := genCall assign callee excs er, force, ret := some ret.convert
                        post := addWards 2 after } w0 = .ok w)
    (hps : ∀ p ∈ ps, p.Ok) (hB : NoClash (· ∈ descNames (resolve 1 (ps.map Param.pdesc)) ret))
    (rv : Option Str) (hrv : rv = none ∧ ret.out = none ∨ rv = some "retval".toList ∧ (retDecl ≠ none ∨
      ret.pinned = true ∧ ret.vars.head?.map (·.base) = some "retval".toList ∨
      ∀ d ∈ resolve 1 (ps.map Param.pdesc), ∀ v ∈ d.vars, v.base ≠ "retval".toList)) :
    ∃ its rvs, its.map (·.d) = resolve 1 (ps.map Param.pdesc) ∧ Wrapper w its ret rvs unblock assign callee ∧
      ∀ {Val Py : Type} (S : Sem Val Py) (args : List (Option Py)) (F : Callee Val),
        (∀ xs, (F xs).2.length = xs.length) →
        execD S w.vars its ret rv args F = callSpec S (resolve 1 (ps.map Param.pdesc)) ret args F := by
  rw [← params_convert ps hps] at h
  exact C41_handlers_partial h0 h (params_wf ps 1 hps) hB rv hrv

/-! Non-vacuity: `void f(K const &k, std::string s, K *p)` where `L` converts to `K`. -/

def kK : K := ⟨0, "K".toList, "ns::K".toList, "PyK".toList, "PyK_Type".toList⟩
def kL : K := ⟨1, "L".toList, "ns::L".toList, "PyL".toList, "PyL_Type".toList⟩

def exampleParams : List Param :=
  [.cls { kind := .ref true none, k := kK, name := "k".toList, srcs := [kL] } none,
   .data (fun _ => stdStringDesc "s".toList none),
   .cls { kind := .ptr true true none, k := kK, name := "p".toList } none]

theorem exampleParams_ok : ∀ p ∈ exampleParams, p.Ok := by
  intro p hp
  rcases List.mem_cons.mp hp with rfl | hp
  · exact ⟨fun _ => ⟨_, rfl⟩, rfl, nofun⟩
  rcases List.mem_cons.mp hp with rfl | hp
  · exact fun _ => stdString_wf _ _
  · cases List.mem_singleton.mp hp
    exact ⟨fun _ => ⟨_, rfl⟩, rfl, nofun⟩

example : NoClash (· ∈ descNames (resolve 1 (exampleParams.map Param.pdesc)) voidRet) :=
  noClash_of_last (by decide +kernel)

example : (generate none (exampleParams.map Param.pdesc) "" voidRet).toOption.map (fun w => w.call.map String.ofList) =
    some ["k2", "std::string(s, s_len)", "p_ptr"] := by
  decide +kernel

end Verif.Handlers
