import Verif.Wrapper.Desc
import Verif.Wrapper.Flags
import Verif.Wrapper.Unblock
import Verif.DeclScope.Props

/-!
# C40, C42, C44 for all handlers written as data
-/
namespace Verif.Wrap
open Verif Verif.Flow Verif.Params Verif.DeclScope

/-- What declaring variables does. -/
structure Declared (ds : List DVar) (w w' : W) (vs : List Str) : Prop where
  length : vs.length = ds.length
  ops : w'.ops = w.ops
  parse : w'.parse = w.parse
  build : w'.build = w.build
  call : w'.call = w.call
  flags : w'.flags = w.flags
  vars : w'.vars = w.vars ++ vs.zip (ds.map (·.init))
  named : ∀ v ∈ vs, ∃ d ∈ ds, ∃ k, v = nthName d.base k
  nameOk : (∀ d ∈ ds, NameOk d.base) → ∀ v ∈ vs, NameOk v

theorem declareAll_spec : ∀ {ds : List DVar} {w w' : W} {vs : List Str},
    declareAll ds w = .ok (w', vs) → Declared ds w w' vs
  | [], w, w', vs, h => by
    cases h
    exact ⟨rfl, rfl, rfl, rfl, rfl, rfl, by simp, by simp, by simp⟩
  | d :: ds, w, w', vs, h => by
    simp only [declareAll] at h
    obtain ⟨⟨w1, v⟩, h1, h⟩ := bind_ok.mp h
    obtain ⟨⟨w2, vs'⟩, h2, h⟩ := bind_ok.mp h
    simp only [pure, Except.pure, Except.ok.injEq, Prod.mk.injEq] at h
    obtain ⟨rfl, rfl⟩ := h
    have ih := declareAll_spec h2
    obtain ⟨hv, e⟩ := declare_spec h1
    have hn : v = nthName d.base _ :=
      step_name (f := w.decls) (r := .declare 0 d.ctype d.base d.init d.arr) hv
    refine ⟨by simp [ih.length], by rw [ih.ops, e], by rw [ih.parse, e], by rw [ih.build, e],
      by rw [ih.call, e], by rw [ih.flags, e], ?_, ?_, ?_⟩
    · rw [ih.vars, e]; simp
    · intro u hu
      rcases List.mem_cons.mp hu with rfl | hu
      · exact ⟨d, List.mem_cons_self, _, hn⟩
      · obtain ⟨d', hd', k, hk⟩ := ih.named u hu
        exact ⟨d', List.mem_cons_of_mem _ hd', k, hk⟩
    · intro hok u hu
      rcases List.mem_cons.mp hu with rfl | hu
      · exact declare_nameOk h1 (hok d List.mem_cons_self)
      · exact ih.nameOk (fun d' hd' => hok d' (List.mem_cons_of_mem _ hd')) u hu

/-- A text that starts with one of the handler's variables or with something other than a newline. -/
def startOk (n : Nat) : Tmpl → Bool
  | .text (c :: _) :: _ => c != '\n'
  | .var i :: _ => decide (i < n)
  | _ => false

def TOp.startOk (n : Nat) : TOp → Bool
  | .write t => Wrap.startOk n t
  | .check _ none => true
  | .check _ (some t) => Wrap.startOk n t

def ROp.startOk (n : Nat) : ROp → Bool
  | .write t => Wrap.startOk n t
  | .add t => Wrap.startOk n t

/-- A well formed handler: it refers to its own variables only, its parsing unit is not empty. -/
structure Desc.WF (d : Desc) : Prop where
  unit : ∀ u, d.unit = some u → u.fmt ≠ [] ∧ ∀ i, PArg.addr i ∈ u.args → i < d.vars.length
  names : NameOk d.name → ∀ v ∈ d.vars, NameOk v.base
  before : ∀ s ∈ d.before, ∀ o ∈ s.ops, o.startOk d.vars.length = true
  after : ∀ s ∈ d.after, ∀ t ∈ s.texts, startOk d.vars.length t = true
  targetB : ∀ s ∈ d.before, ∀ i, s.target = some i → i < d.vars.length
  targetA : ∀ s ∈ d.after, ∀ i, s.target = some i → i < d.vars.length
  place : ∀ i, d.place = some i → i < d.vars.length

theorem render_q0 {vs : List Str} (hv : ∀ v ∈ vs, NameOk v) : ∀ {t : Tmpl}, startOk vs.length t = true →
    Q0 (render vs t)
  | [], h => by simp [startOk] at h
  | .text [] :: _, h => by simp [startOk] at h
  | .text (c :: cs) :: t, h => by
    simp only [startOk, bne_iff_ne, ne_eq] at h
    simpa [render, Piece.render, Q0] using h
  | .var i :: t, h => by
    simp only [startOk, decide_eq_true_eq] at h
    have hm : NameOk (vs.getD i []) := by
      rw [List.getD_eq_getElem?_getD, List.getElem?_eq_getElem h]
      exact hv _ (List.getElem_mem h)
    show Q0 (vs.getD i [] ++ _)
    exact q0_name hm _

/-- The effect of a handler. -/
theorem desc_spec {d : Desc} {w w' : W} (h : d.convert w = .ok w') :
    ∃ w1 vs, Declared d.vars w w1 vs ∧ declareAll d.vars w = .ok (w1, vs) ∧
      w' = { w1 with parse := w.parse ++ d.items vs, ops := w.ops ++ d.opsAt vs
                     call := w.call ++ [render vs d.arg], build := w.build ++ d.builds vs } := by
  unfold Desc.convert at h
  obtain ⟨⟨w1, vs⟩, h1, h⟩ := bind_ok.mp h
  have hd := declareAll_spec h1
  refine ⟨w1, vs, hd, h1, ?_⟩
  have h := (Except.ok.inj h).symm
  rw [h, hd.parse, hd.ops, hd.call, hd.build]

theorem opsAt_block {d : Desc} {vs : List Str} : ∀ op ∈ d.opsAt vs,
    Early op ∧ parseChecks [op] = [] := by
  intro op hop
  simp only [Desc.opsAt, List.mem_append, List.mem_flatMap, List.mem_map] at hop
  rcases hop with ⟨s, -, o, -, rfl⟩ | ⟨s, -, t, -, rfl⟩
  · cases o <;> exact ⟨by simp [TOp.op, Early], rfl⟩
  · exact ⟨trivial, rfl⟩

theorem checks_nil : ∀ {l : List Op}, (∀ op ∈ l, parseChecks [op] = []) → parseChecks l = []
  | [], _ => rfl
  | op :: l, h => by
    rw [show op :: l = [op] ++ l from rfl, parseChecks_append, h op List.mem_cons_self,
      checks_nil (fun o ho => h o (List.mem_cons_of_mem _ ho))]
    rfl

/-- A well formed handler follows the rules. -/
def Desc.handler (d : Desc) (hd : d.WF) : Handler where
  convert := d.convert
  name := d.name
  isIn := d.unit.isSome
  early := by
    intro w w' h
    obtain ⟨w1, vs, -, -, rfl⟩ := desc_spec h
    exact ⟨d.opsAt vs, rfl, fun op hop => (opsAt_block op hop).1⟩
  parses := by
    intro w w' h
    obtain ⟨w1, vs, hv, -, rfl⟩ := desc_spec h
    refine ⟨hv.flags, ?_, d.items vs, rfl, ?_, ?_⟩
    · show parseChecks (w.ops ++ d.opsAt vs) = _
      rw [parseChecks_append, checks_nil (fun op hop => (opsAt_block op hop).2), List.append_nil]
    · unfold Desc.items
      cases d.unit <;> simp
    · intro it hit
      simp only [Desc.items, List.mem_map, Option.mem_toList] at hit
      obtain ⟨u, hu, rfl⟩ := hit
      exact (hd.unit u hu).1
  quiet := by
    intro hn w w' h
    obtain ⟨w1, vs, hv, -, rfl⟩ := desc_spec h
    refine ⟨d.opsAt vs, rfl, ?_⟩
    have hvs := hv.nameOk (hd.names hn)
    intro op hop
    simp only [Desc.opsAt, List.mem_append, List.mem_flatMap, List.mem_map] at hop
    rcases hop with ⟨s, hs, o, ho, rfl⟩ | ⟨s, hs, t, ht, rfl⟩
    · have h1 := hd.before s hs o ho
      rw [← hv.length] at h1
      cases o with
      | write t => exact render_q0 hvs h1
      | check c e =>
        intro x hx
        cases e with
        | none => cases hx
        | some t => cases hx; exact render_q0 hvs h1
    · have h1 := hd.after s hs t ht
      rw [← hv.length] at h1
      exact render_q0 hvs h1

/-- A well formed return value handler. -/
structure RDesc.WF (d : RDesc) : Prop where
  names : ∀ v ∈ d.vars, NameOk v.base
  ops : ∀ o ∈ d.ops, o.startOk d.vars.length = true

theorem rdesc_spec {d : RDesc} {w w' : W} (h : d.convert w = .ok w') :
    ∃ w1 vs, Declared d.vars w w1 vs ∧ declareAll d.vars w = .ok (w1, vs) ∧
      (d.pinned = true → vs.head? = d.vars.head?.map (·.base)) ∧
      w' = { w1 with ops := w.ops ++ d.ops.map (ROp.op vs)
                     build := if d.prepend then d.builds vs ++ w.build else w.build ++ d.builds vs } := by
  unfold RDesc.convert at h
  obtain ⟨⟨w1, vs⟩, h1, h⟩ := bind_ok.mp h
  have hd := declareAll_spec h1
  dsimp only at h
  split at h
  · cases h
  · rename_i hp
    refine ⟨w1, vs, hd, h1, ?_, ?_⟩
    · intro hpin
      simpa [hpin] using hp
    · have h := (Except.ok.inj h).symm
      rw [h, hd.ops, hd.build]

def RDesc.handler (d : RDesc) (hd : d.WF) : RetHandler where
  convert := d.convert
  late := by
    intro w w' h
    obtain ⟨w1, vs, -, -, -, rfl⟩ := rdesc_spec h
    refine ⟨_, rfl, ?_⟩
    intro op hop
    obtain ⟨o, -, rfl⟩ := List.mem_map.mp hop
    cases o <;> rfl
  keeps := by
    intro w w' h
    obtain ⟨w1, vs, hv, -, -, rfl⟩ := rdesc_spec h
    exact ⟨hv.parse, hv.flags, _, hv.vars⟩
  quiet := by
    intro w w' h
    obtain ⟨w1, vs, hv, -, -, rfl⟩ := rdesc_spec h
    refine ⟨_, rfl, ?_⟩
    intro op hop
    obtain ⟨o, ho, rfl⟩ := List.mem_map.mp hop
    have h1 := hd.ops o ho
    rw [← hv.length] at h1
    cases o <;> exact render_q0 (hv.nameOk hd.names) h1

/-! ## The package's handlers are well formed -/

theorem nameOk_append {n : Str} (h : NameOk n) (s : Str) : NameOk (n ++ s) := by
  obtain ⟨c, cs, rfl, hc⟩ := h
  exact ⟨c, cs ++ s, rfl, hc⟩

theorem nameOk_py (n : Str) : NameOk ("py_".toList ++ n) := ⟨'p', 'y' :: '_' :: n, rfl, by decide⟩

theorem scalar_wf (s : Scalar) (h : s.fmt ≠ []) : s.desc.WF := by
  constructor
  · intro u hu
    simp only [Scalar.desc] at hu ⊢
    split at hu
    · cases hu; exact ⟨h, by simp⟩
    · cases hu
  · intro hn v hv
    simp only [Scalar.desc, List.mem_singleton] at hv
    subst hv
    exact nameOk_append hn _
  · intro st hst o ho
    simp only [Scalar.desc] at hst ⊢
    cases hc : s.check <;> simp [hc] at hst
    subst hst
    simp at ho; subst ho; rfl
  · simp [Scalar.desc]
  · intro st hst
    simp only [Scalar.desc] at hst
    cases hc : s.check <;> simp [hc] at hst
    subst hst
    simp
  · simp [Scalar.desc]
  · simp [Scalar.desc]

theorem bool_wf (t n : Str) (d : Option Str) : (boolDesc t n d).WF := by
  constructor
  · intro u hu; cases hu; exact ⟨by simp, by simp [boolDesc]⟩
  · intro hn v hv
    simp only [boolDesc, List.mem_cons, List.not_mem_nil, or_false] at hv
    rcases hv with rfl | rfl
    · exact hn
    · exact nameOk_py _
  · intro s hs o ho
    simp only [boolDesc, List.mem_singleton] at hs
    subst hs
    simp only [List.mem_singleton] at ho
    subst ho
    simp only [TOp.startOk]
    split <;> rfl
  · simp [boolDesc]
  · simp [boolDesc]
  · simp [boolDesc]
  · simp [boolDesc]

theorem boolRef_wf (t n : Str) (i o p : Bool) : (boolRefDesc t n i o p).WF := by
  constructor
  · intro u hu
    cases i with
    | false => cases hu
    | true => cases hu; exact ⟨by decide, fun j hj => by cases List.mem_singleton.mp hj; exact Nat.lt_succ_self 1⟩
  · intro hn v hv
    simp only [boolRefDesc] at hv
    rcases List.mem_cons.mp hv with rfl | hv
    · exact hn
    · cases i <;> simp at hv
      subst hv; exact nameOk_py _
  · cases i
    · exact fun s hs => by cases hs
    · exact List.forall_mem_singleton.mpr (List.forall_mem_singleton.mpr rfl)
  · exact fun s hs => by cases hs
  · cases i
    · exact fun s hs => by cases hs
    · exact List.forall_mem_singleton.mpr (fun j hj => by cases hj; exact Nat.succ_pos _)
  · exact fun s hs => by cases hs
  · exact fun j hj => by cases hj; exact Nat.succ_pos _

theorem cstring_wf (t n : Str) (d : Option Str) : (cstringDesc t n d).WF := by
  constructor
  · intro u hu; cases hu; exact ⟨by simp, by simp [cstringDesc]⟩
  · intro hn v hv; simp only [cstringDesc, List.mem_singleton] at hv; subst hv; exact hn
  all_goals simp [cstringDesc]

theorem char_wf (t n : Str) (d : Option Str) : (charDesc t n d).WF := by
  constructor
  · intro u hu; cases hu; exact ⟨by simp, by simp [charDesc]⟩
  · intro hn v hv; simp only [charDesc, List.mem_singleton] at hv; subst hv; exact hn
  all_goals simp [charDesc]

theorem strVars_ok {n : Str} (hn : NameOk n) (x : Option Str) : ∀ v ∈ strVars n x, NameOk v.base := by
  intro v hv
  simp only [strVars, List.mem_cons, List.not_mem_nil, or_false] at hv
  rcases hv with rfl | rfl
  · exact hn
  · exact nameOk_append hn _

theorem strUnit_lt {o : Bool} {n : Nat} (h : 2 ≤ n) : ∀ i, PArg.addr i ∈ (strUnit o).args → i < n := by
  intro i hi
  rcases List.mem_cons.mp hi with hi | hi
  · cases hi; omega
  · cases List.mem_singleton.mp hi; omega

theorem glibUnit_lt {o : Bool} {n : Nat} (h : 1 ≤ n) : ∀ i, PArg.addr i ∈ (glibUnit o).args → i < n := by
  intro i hi
  rcases List.mem_cons.mp hi with hi | hi
  · cases hi
  · cases List.mem_singleton.mp hi; omega

theorem stdString_wf (n : Str) (d : Option Str) : (stdStringDesc n d).WF := by
  constructor
  · intro u hu; cases hu; exact ⟨by simp [strUnit], by simp [stdStringDesc, strUnit, strVars]⟩
  · intro hn; exact strVars_ok hn _
  all_goals simp [stdStringDesc]

theorem stdStringRef_wf (n : Str) (i o : Bool) (d : Option Str) : (stdStringRefDesc n i o d).WF := by
  constructor
  · intro u hu
    cases i with
    | false => cases hu
    | true => cases hu; exact ⟨by simp [strUnit], strUnit_lt (Nat.succ_le_succ (Nat.succ_le_succ (Nat.zero_le 1)))⟩
  · intro hn v hv
    rcases List.mem_append.mp hv with hv | hv
    · exact strVars_ok hn _ v hv
    · simp only [List.mem_singleton] at hv; subst hv; exact nameOk_append hn _
  · intro s hs op hop
    cases i with
    | false => cases hs
    | true =>
    cases List.mem_singleton.mp hs
    cases List.mem_singleton.mp hop
    cases d <;> rfl
  · exact fun s hs => by cases hs
  · cases i
    · exact fun s hs => by cases hs
    · exact List.forall_mem_singleton.mpr (fun j hj => by cases hj; exact Nat.lt_succ_self 2)
  · exact fun s hs => by cases hs
  · exact fun j hj => by cases hj; exact Nat.lt_succ_self 2

theorem stdStringPtr_wf (n : Str) (i o t : Bool) : (stdStringPtrDesc n i o t).WF := by
  constructor
  · intro u hu
    cases i with
    | false => cases hu
    | true => cases hu; exact ⟨by simp [strUnit], strUnit_lt (Nat.succ_le_succ (Nat.succ_le_succ (Nat.zero_le 1)))⟩
  · intro hn v hv
    rcases List.mem_append.mp hv with hv | hv
    · exact strVars_ok hn _ v hv
    · simp only [List.mem_singleton] at hv; subst hv; cases t <;> exact nameOk_append hn _
  · intro s hs op hop
    cases i with
    | false => cases hs
    | true =>
    cases List.mem_singleton.mp hs
    cases List.mem_singleton.mp hop
    cases t <;> rfl
  · exact fun s hs => by cases hs
  · cases i
    · exact fun s hs => by cases hs
    · exact List.forall_mem_singleton.mpr (fun j hj => by cases hj; exact Nat.lt_succ_self 2)
  · exact fun s hs => by cases hs
  · exact fun j hj => by cases hj; exact Nat.lt_succ_self 2

theorem glib_wf (n : Str) (d : Option Str) : (glibDesc n d).WF := by
  constructor
  · intro u hu; cases hu; exact ⟨by simp [glibUnit], by simp [glibDesc, glibUnit]⟩
  · intro hn v hv; simp only [glibDesc, List.mem_singleton] at hv; subst hv; exact hn
  all_goals simp [glibDesc]

theorem glibRef_wf (n : Str) (i o : Bool) : (glibRefDesc n i o).WF := by
  constructor
  · intro u hu
    cases i with
    | false => cases hu
    | true => cases hu; exact ⟨by simp [glibUnit], glibUnit_lt (Nat.succ_le_succ (Nat.zero_le 1))⟩
  · intro hn v hv
    simp only [glibRefDesc, List.mem_cons, List.not_mem_nil, or_false] at hv
    rcases hv with rfl | rfl
    · exact hn
    · exact nameOk_append hn _
  · cases i
    · exact fun s hs => by cases hs
    · exact List.forall_mem_singleton.mpr (List.forall_mem_singleton.mpr rfl)
  · exact fun s hs => by cases hs
  · cases i
    · exact fun s hs => by cases hs
    · exact List.forall_mem_singleton.mpr (fun j hj => by cases hj; exact Nat.lt_succ_self 1)
  · exact fun s hs => by cases hs
  · exact fun j hj => by cases hj; exact Nat.lt_succ_self 1

theorem glibPtr_wf (n : Str) (i o t : Bool) : (glibPtrDesc n i o t).WF := by
  constructor
  · intro u hu
    cases i with
    | false => cases hu
    | true => cases hu; exact ⟨by simp [glibUnit], glibUnit_lt (Nat.succ_le_succ (Nat.zero_le 1))⟩
  · intro hn v hv
    simp only [glibPtrDesc, List.mem_cons, List.not_mem_nil, or_false] at hv
    rcases hv with rfl | rfl
    · exact hn
    · cases t <;> exact nameOk_append hn _
  · cases i
    · exact fun s hs => by cases hs
    · exact List.forall_mem_singleton.mpr (List.forall_mem_singleton.mpr (by cases t <;> rfl))
  · exact fun s hs => by cases hs
  · cases i
    · exact fun s hs => by cases hs
    · exact List.forall_mem_singleton.mpr (fun j hj => by cases hj; exact Nat.lt_succ_self 1)
  · exact fun s hs => by cases hs
  · exact fun j hj => by cases hj; exact Nat.lt_succ_self 1

theorem pyObject_wf (c n : Str) (t : Bool) : (pyObjectDesc c n t).WF := by
  constructor
  · intro u hu; cases hu; exact ⟨by simp, by simp [pyObjectDesc]⟩
  · intro hn v hv; simp only [pyObjectDesc, List.mem_singleton] at hv; subst hv; exact hn
  · cases t
    · exact fun s hs => by cases hs
    · exact List.forall_mem_singleton.mpr (List.forall_mem_singleton.mpr rfl)
  · simp [pyObjectDesc]
  · cases t <;> simp [pyObjectDesc]
  · simp [pyObjectDesc]
  · simp [pyObjectDesc]

theorem container_wf (f c ps pt s n : Str) (i o : Bool) (d : Option Str) :
    (containerDesc f c ps pt s n i o d).WF := by
  constructor
  · intro u hu
    cases i <;> simp [containerDesc] at hu
    subst hu; cases o <;> simp [containerDesc]
  · intro hn v hv
    simp only [containerDesc] at hv
    rcases List.mem_cons.mp hv with rfl | hv
    · exact nameOk_append hn _
    · cases o <;> simp at hv
      subst hv; exact nameOk_py _
  · simp [containerDesc]
  · cases o
    · exact fun s hs => by cases hs
    · exact List.forall_mem_singleton.mpr (List.forall_mem_cons.mpr ⟨rfl, List.forall_mem_singleton.mpr rfl⟩)
  · simp [containerDesc]
  · cases o <;> simp [containerDesc]
  · simp [containerDesc]

theorem containerPtrIn_wf (f c n : Str) (t : Bool) : (containerPtrInDesc f c n t).WF := by
  constructor
  · intro u hu; cases hu; exact ⟨by simp, by simp [containerPtrInDesc]⟩
  · intro hn v hv; simp only [containerPtrInDesc, List.mem_singleton] at hv; subst hv; exact nameOk_append hn _
  all_goals cases t <;> simp [containerPtrInDesc]

theorem containerPtrOut_wf (f ps pt s n : Str) : (containerPtrOutDesc f ps pt s n).WF := by
  constructor
  · intro u hu; cases hu
  · intro hn v hv
    simp only [containerPtrOutDesc, List.mem_cons, List.not_mem_nil, or_false] at hv
    rcases hv with rfl | rfl
    · exact nameOk_append hn _
    · exact nameOk_py _
  all_goals simp [containerPtrOutDesc, startOk]

theorem array_wf (c n : Str) (l : Nat) (i o : Bool) (e g m : Tmpl → Tmpl) : (arrayDesc c n l i o e g m).WF := by
  constructor
  · intro u hu
    cases i with
    | false => cases hu
    | true =>
      cases hu
      refine ⟨by decide, fun j hj => ?_⟩
      rcases List.mem_cons.mp hj with hj | hj
      · cases hj
      · cases List.mem_singleton.mp hj; exact Nat.succ_lt_succ (Nat.succ_pos _)
  · intro hn v hv
    simp only [arrayDesc, List.mem_append, List.mem_cons, List.not_mem_nil, or_false] at hv
    rcases hv with (rfl | rfl | rfl) | hv
    · exact hn
    · exact ⟨_, _, rfl, by decide⟩
    · exact ⟨_, _, rfl, by decide⟩
    · cases i <;> simp at hv
      subst hv; exact ⟨_, _, rfl, by decide⟩
  · cases i
    · exact fun s hs => by cases hs
    · refine List.forall_mem_singleton.mpr ?_
      intro o ho
      simp only [List.mem_cons, List.not_mem_nil, or_false] at ho
      rcases ho with rfl | rfl | rfl | rfl | rfl | rfl <;> rfl
  · cases o
    · exact fun s hs => by cases hs
    · refine List.forall_mem_singleton.mpr ?_
      intro t ht
      simp only [List.mem_cons, List.not_mem_nil, or_false] at ht
      rcases ht with rfl | rfl | rfl | rfl <;> cases i <;> rfl
  · cases i
    · exact fun s hs => by cases hs
    · exact List.forall_mem_singleton.mpr (fun j hj => by cases hj; exact Nat.succ_pos _)
  · cases o
    · exact fun s hs => by cases hs
    · exact List.forall_mem_singleton.mpr (fun j hj => by cases hj; exact Nat.succ_lt_succ (Nat.succ_pos _))
  · exact fun j hj => by cases hj; exact Nat.succ_pos _

theorem refOut_wf (ps n : Str) (a : List Tmpl) (c : Tmpl) (r p : List Tmpl) (d : Bool)
    (h : ∀ t ∈ a ++ c :: r ++ p, startOk 1 t = true) : (refOutDesc ps n a c r p d).WF := by
  constructor
  · intro u hu; cases hu
  · intro hn v hv; simp only [refOutDesc, List.mem_singleton] at hv; subst hv; exact hn
  · intro s hs o ho
    simp only [refOutDesc, List.mem_singleton] at hs
    subst hs
    obtain ⟨t, ht, rfl⟩ := List.mem_map.mp ho
    exact h t ht
  · cases d <;> simp [refOutDesc, startOk]
  · simp [refOutDesc]
  · simp [refOutDesc]
  · simp [refOutDesc]

theorem scalarRet_wf (f v : Str) : (scalarRet f v).WF := ⟨by simp [scalarRet], by simp [scalarRet]⟩
theorem voidRet_wf : voidRet.WF := ⟨by simp [voidRet], by simp [voidRet]⟩
theorem charRet_wf (v : Str) : (charRet v).WF := ⟨by simp [charRet], by simp [charRet]⟩
theorem cstringRet_wf (v c f : Str) (b : Bool) : (cstringRet v c f b).WF := by
  refine ⟨by simp [cstringRet], ?_⟩
  cases b <;> simp [cstringRet, ROp.startOk]
  exact ⟨rfl, rfl⟩
theorem stringRet_wf (v : Str) (s : String) : (stringRet v s).WF := ⟨by simp [stringRet], by simp [stringRet]⟩
theorem pyObjectRet_wf (v : Str) (b : Bool) : (pyObjectRet v b).WF := ⟨by simp [pyObjectRet], by simp [pyObjectRet]⟩
theorem containerRet_wf (c f ps pt s : Str) : (containerRet c f ps pt s).WF := by
  refine ⟨?_, by simp [containerRet, ROp.startOk, startOk]⟩
  intro v hv
  simp only [containerRet, List.mem_cons, List.not_mem_nil, or_false] at hv
  rcases hv with rfl | rfl
  · exact ⟨_, _, rfl, by decide⟩
  · exact nameOk_py _
theorem classRet_wf (ps s : Str) (a : List Tmpl) (d : Bool) (c : Tmpl) (r p : List Tmpl)
    (h : ∀ t ∈ a ++ c :: r ++ p, startOk 1 t = true) : (classRet ps s a d c r p).WF := by
  constructor
  · intro v hv; simp only [classRet, List.mem_singleton] at hv; subst hv; exact nameOk_py _
  · intro o ho
    simp only [classRet, List.mem_map] at ho
    obtain ⟨t, ht, rfl⟩ := ho
    simp only [List.append_assoc, List.cons_append, List.mem_append, List.mem_cons] at ht h
    show startOk 1 t = true
    rcases ht with ht | ht | rfl | rfl | ht | ht
    · exact h t (Or.inl ht)
    · cases d <;> simp at ht
      subst ht; rfl
    · rfl
    · exact h _ (Or.inr (Or.inl rfl))
    · exact h t (Or.inr (Or.inr (Or.inl ht)))
    · exact h t (Or.inr (Or.inr (Or.inr ht)))

/-! ## Where a handler was also written out step by step, both agree -/

theorem scalar_desc (s : Scalar) : s.desc.convert = s.convert := by
  funext w
  simp only [Desc.convert, Scalar.convert, Scalar.desc, declareAll]
  cases hd : w.declare s.ctype (s.name ++ s.suffix) s.init none with
  | error e => rfl
  | ok p =>
    obtain ⟨w1, v⟩ := p
    cases hi : s.isIn <;> cases ho : s.isOut <;> cases hc : s.check <;> cases hb : s.byPtr <;>
      simp [bind, Except.bind, pure, Except.pure, W.addCall, W.addBuild, W.addParse, W.op, addParam,
        Params.addBuild, Desc.items, Desc.opsAt, Desc.builds, render, Piece.render, TOp.op, PArg.render, tx]

theorem bool_desc (t n : Str) (d : Option Str) : (boolDesc t n d).convert = boolParam t n d := by
  funext w
  simp only [Desc.convert, boolParam, boolDesc, declareAll]
  cases hd : w.declare t n none none with
  | error e => rfl
  | ok p =>
    obtain ⟨w1, v⟩ := p
    simp only [bind, Except.bind]
    generalize w1.declare _ _ _ _ = r
    cases r with
    | error e => rfl
    | ok p =>
      obtain ⟨w2, u⟩ := p
      cases truthy d <;> simp [pure, Except.pure, W.addCall, W.addParse, W.op, addParam,
        Desc.items, Desc.opsAt, Desc.builds, render, Piece.render, TOp.op, PArg.render, tx]

end Verif.Wrap
