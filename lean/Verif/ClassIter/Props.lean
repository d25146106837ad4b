import Verif.ClassIter.Model
import Verif.Container.Memory
import Verif.Wrapper.DescGen

/-!
# C107: iterating instances of wrapped classes
-/
namespace Verif.ClassIter
open Verif Verif.Wrap Verif.Flow Verif.Params
open _root_.Verif.Lifetime (upd upd_same upd_ne)

/-! ## The generated text -/

theorem pick_name {w : W} {T n v : Str} {w' : W} {f : DeclScope.Family} (hf : w.decls = f) (h : w.declare T n none none = .ok (w', v)) :
    v = (f.pick n).2 := by
  unfold W.declare at h
  rw [hf] at h
  unfold DeclScope.Family.declare at h
  dsimp only at h
  cases hj : DeclScope.joinCtypeAndName T (f.pick n).2 with
  | error e => rw [hj] at h; cases h
  | ok d => rw [hj] at h; cases h; rfl

/-- The state of the generator after `reset_code_generation_state`. -/
theorem iternext_ok {t : Traits} {w : W} (h : iternext t = .ok w) : ∃ w1,
    generateBody { haveRet := true, call := iternextCall t "iter".toList } w1 = .ok w ∧
      w1.ops = [] ∧ w1.build = [] ∧ w1.parse = [] := by
  unfold iternext at h
  obtain ⟨w0, h0, h⟩ := bind_ok.mp h
  obtain ⟨⟨w1, v⟩, h1, h⟩ := bind_ok.mp h
  cases h0
  have hv := pick_name rfl h1
  rw [show ((DeclScope.Family.pick _ "iter".toList).2) = "iter".toList from rfl] at hv
  subst hv
  refine ⟨w1, h, ?_, ?_, ?_⟩
  · rw [Wrap.declare_ops h1]; rfl
  · rw [(declare_spec h1).2]; rfl
  · rw [(declare_spec h1).2]; rfl

theorem ret_ops_block (vs : List Str) (l : List ROp) : ∀ o ∈ l.map (ROp.op vs), o.block = 2 := by
  intro o ho
  obtain ⟨r, -, rfl⟩ := List.mem_map.mp ho
  cases r <;> rfl

/-- The first three operations. -/
def loopOps (t : Traits) : List Op :=
  [.write 1 (Act.text t .load), .check 1 (Act.text t .checkEnd) (some "PyErr_SetNone(PyExc_StopIteration);".toList),
    .write 1 (Act.text t .advance)]

theorem loopOps_block (t : Traits) : ∀ o ∈ loopOps t, o.block = 1 := by
  intro o ho
  simp only [loopOps, List.mem_cons, List.not_mem_nil, or_false] at ho
  rcases ho with rfl | rfl | rfl <;> rfl

/-- The code generated by the handlers of the element. -/
def handlers (t : Traits) : List RDesc :=
  match t.key with
  | none => [t.value "(*iter)".toList]
  | some k => [t.value "iter->second".toList, k "iter->first".toList]

/-- What the handlers leave: their operations, and the items of the result. -/
def convertAll : List RDesc → W → PyRes W
  | [], w => .ok w
  | d :: ds, w => do convertAll ds (← d.convert w)

theorem call_eq (t : Traits) (w : W) :
    iternextCall t "iter".toList w = convertAll (handlers t) { w with ops := w.ops ++ loopOps t } := by
  have e : ((w.op (.write 1 ("iter".toList ++ " = *self->iterator;".toList))).op
      (.check 1 ("iter".toList ++ " == self->container->obj->".toList ++ t.endM ++ "()".toList)
        (some "PyErr_SetNone(PyExc_StopIteration);".toList))).op (.write 1 "++(*self->iterator);".toList) =
      { w with ops := w.ops ++ loopOps t } := by
    simp only [W.op, List.append_assoc, List.cons_append, List.nil_append]
    rfl
  unfold iternextCall
  dsimp only
  rw [e]
  unfold handlers
  cases t.key with
  | none =>
    simp only [convertAll]
    show (t.value "(*iter)".toList).convert _ = ((t.value "(*iter)".toList).convert _ >>= fun w => Except.ok w)
    cases (t.value "(*iter)".toList).convert { w with ops := w.ops ++ loopOps t } <;> rfl
  | some k =>
    simp only [convertAll]
    show ((t.value "iter->second".toList).convert _ >>= _) = _
    cases h : (t.value "iter->second".toList).convert { w with ops := w.ops ++ loopOps t } with
    | error e => rfl
    | ok w' =>
      show (k "iter->first".toList).convert w' = ((k "iter->first".toList).convert w' >>= fun w => Except.ok w)
      cases (k "iter->first".toList).convert w' <;> rfl

/-- The build items of handlers run one after the other. -/
def buildAll : List (RDesc × List Str) → List BItem → List BItem
  | [], b => b
  | (d, vs) :: ds, b => buildAll ds (if d.prepend then d.builds vs ++ b else b ++ d.builds vs)

theorem convertAll_spec : ∀ {ds : List RDesc} {w w' : W}, convertAll ds w = .ok w' →
    ∃ names : List (List Str), names.length = ds.length ∧
      w'.ops = w.ops ++ (ds.zip names).flatMap (fun p => p.1.ops.map (ROp.op p.2)) ∧
      w'.build = buildAll (ds.zip names) w.build ∧ w'.parse = w.parse ∧ w'.call = w.call
  | [], w, w', h => by
    cases h
    exact ⟨[], rfl, (List.append_nil _).symm, rfl, rfl, rfl⟩
  | d :: ds, w, w', h => by
    obtain ⟨w1, h1, h⟩ := bind_ok.mp h
    obtain ⟨w2, vs, hd, -, -, rfl⟩ := rdesc_spec h1
    obtain ⟨ns, hl, ho, hb, hp, hc⟩ := convertAll_spec h
    refine ⟨vs :: ns, by simp [hl], ?_, ?_, ?_, ?_⟩
    · rw [ho]
      simp [List.append_assoc]
    · rw [hb]
      simp only [List.zip_cons_cons, buildAll]
    · rw [hp]; exact hd.parse
    · rw [hc]; exact hd.call

theorem parse_none {w w' : W} (hp : w.parse = []) (h : parseStep none w = .ok w') :
    w' = { w with flags := w.flags ++ ["METH_NOARGS".toList] } := by
  unfold parseStep at h
  obtain ⟨d, v, o, p, b, c, f⟩ := w
  cases hp
  exact (Except.ok.inj h).symm

/-- C107 (text of `next`): before the conversion the generated `tp_iternext` consists of exactly three statements:
it takes the position, leaves with `StopIteration` if that is the end, and moves on; then the handlers convert
the element it took, and the result is built from their values, the key in front of the value if its handler
puts its value in front. -/
theorem C107_text {t : Traits} {w : W} (h : iternext t = .ok w) :
    onBlock 0 w.ops = [] ∧ onBlock 1 w.ops = loopOps t ∧
    ∃ names : List (List Str), names.length = (handlers t).length ∧
      w.build = buildAll ((handlers t).zip names) [] ∧
      ∃ rest, onBlock 2 w.ops = ((handlers t).zip names).flatMap (fun p => p.1.ops.map (ROp.op p.2)) ++ rest ∧
        (buildParameters w.build false ≠ ["\"\"".toList] → .write 2 (resultText w.build) ∈ rest) := by
  obtain ⟨w1, h, i1, i2, i3⟩ := iternext_ok h
  obtain ⟨wa, ts, wb, wc, wd, we, wf, wg, h1, h2, h3, h4, h5, h6, h7, hw⟩ := generateBody_stages h
  cases h1; cases h2; cases h3
  have h4 : iternextCall t "iter".toList w1 = .ok wd := h4
  rw [call_eq] at h4
  obtain ⟨names, hl, ho, hb, hp, -⟩ := convertAll_spec h4
  have h5 := parse_none (by rw [hp]; exact i3) h5
  subst h5
  have h6 : wf = { wd with flags := wd.flags ++ ["METH_NOARGS".toList] } := by
    unfold retStep at h6
    dsimp only at h6
    rw [if_neg (by simp)] at h6
    exact (Except.ok.inj h6).symm
  subst h6
  cases h7
  rw [show finishStep { haveRet := true, call := iternextCall t "iter".toList } { wd with flags := wd.flags ++ ["METH_NOARGS".toList] } =
    resultStep { wd with flags := wd.flags ++ ["METH_NOARGS".toList] } from rfl] at hw
  obtain ⟨rest, hr, hrb, hrt⟩ := result_ops { wd with flags := wd.flags ++ ["METH_NOARGS".toList] }
  have hops : w.ops = loopOps t ++ (((handlers t).zip names).flatMap (fun p => p.1.ops.map (ROp.op p.2)) ++ rest) := by
    rw [hw, hr]
    show wd.ops ++ rest = _
    rw [ho]
    show (w1.ops ++ loopOps t) ++ _ ++ rest = _
    rw [i1, List.nil_append, List.append_assoc]
  have hbu : w.build = wd.build := by
    rw [hw]
    unfold resultStep
    dsimp only
    split <;> rfl
  have hh : ∀ o ∈ ((handlers t).zip names).flatMap (fun p => p.1.ops.map (ROp.op p.2)) ++ rest, o.block = 2 := by
    intro o ho
    rcases List.mem_append.mp ho with ho | ho
    · obtain ⟨p, -, hp⟩ := List.mem_flatMap.mp ho
      exact ret_ops_block _ _ o hp
    · exact hrb o ho
  refine ⟨?_, ?_, names, hl, ?_, rest, ?_, ?_⟩
  · rw [hops, onBlock_append, onBlock_none (loopOps_block t) (by decide), onBlock_none hh (by decide)]
    rfl
  · rw [hops, onBlock_append, onBlock_all (loopOps_block t), onBlock_none hh (by decide), List.append_nil]
  · rw [hbu, hb, show W.build { w1 with ops := w1.ops ++ loopOps t } = w1.build from rfl, i2]
  · rw [hops, onBlock_append, onBlock_none (loopOps_block t) (by decide), onBlock_all hh]
    rfl
  · rw [hbu]
    exact hrt

/-- What the three statements are. -/
theorem loop_acts (t : Traits) : (loopOps t).map (actOf t) = [some .load, some .checkEnd, some .advance] := by
  have hne : Act.text t .advance ≠ Act.text t .load := by
    intro h
    have h : "++(*self->iterator);".toList = "iter = *self->iterator;".toList := h
    exact absurd h (by decide)
  simp only [loopOps, List.map_cons, List.map_nil, actOf, if_true, and_self, if_neg hne]

end Verif.ClassIter
