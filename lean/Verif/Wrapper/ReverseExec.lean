import Verif.Wrapper.ReverseProps
import Verif.Wrapper.Exec

/-!
# C56: what becomes of the values returned by a Python override

Semantics of the end of a reverse wrapper (base.py:639-654) on the object `r` the Python method
returned.
-/
namespace Verif.Wrap
open Verif Verif.Flow Verif.Params Verif.DeclScope

variable {Val Py : Type}

/-- `Py_BuildValue((char*) "(N)", py_retval)`, base.py:645. -/
def wrapText : Str := "py_retval = Py_BuildValue((char*) \"(N)\", py_retval);".toList

/-- The lvalue `PyArg_ParseTuple` writes when given the expression `e` as an address: `&v` denotes
the variable, a pointer parameter what it points to; anything else is not an address (`none`:
undefined behaviour).  `ptrs` are the pointer parameters of the C++ method. -/
def written (ptrs : List Str) : Str → Option Str
  | '&' :: v => some v
  | e => if e ∈ ptrs then some ('*' :: e) else none

/-- Outcome of the parsing step. -/
inductive Got (Val : Type) where
  /-- the stores made, in order -/
  | stored (l : List (Str × Val))
  /-- an error is printed and the wrapper returns through its error path -/
  | refused
  /-- a value was written through something that is not an address -/
  | undefined
  deriving DecidableEq, Repr

/-- `PyArg_ParseTuple` on a tuple with the given elements: the number of elements must be that of
the format units (no unit is optional here). -/
def parseTuple (L : Lang Val Py) (ptrs : List Str) : List PItem → List Py → Got Val
  | [], [] => .stored []
  | it :: its, x :: xs =>
    match L.conv it.template x with
    | none => .refused
    | some y =>
      match it.values with
      | [e] =>
        match written ptrs e with
        | none => .undefined
        | some v =>
          match parseTuple L ptrs its xs with
          | .stored l => .stored ((v, y) :: l)
          | o => o
      | _ => .undefined
  | _, _ => .refused

/-- The number of elements is checked before anything is converted. -/
def parseTupleTop (L : Lang Val Py) (ptrs : List Str) (items : List PItem) (xs : List Py) : Got Val :=
  if items.length = xs.length then parseTuple L ptrs items xs else .refused

/-- The end of the wrapper on the object returned by Python; `elems` are the elements of a tuple
object, `isNone` tells `None`. -/
def received (L : Lang Val Py) (elems : Py → Option (List Py)) (isNone : Py → Bool) (ptrs : List Str)
    (w : W) (r : Py) : Got Val :=
  if w.parse = [] then (if isNone r then .stored [] else .refused)
  else if .write 0 wrapText ∈ w.ops then parseTupleTop L ptrs w.parse [r]
  else match elems r with
    | some xs => parseTupleTop L ptrs w.parse xs
    | none => .refused

/-! ## Proof -/

theorem runAll_rscalars : ∀ (ss : List RScalar) {w w' : W}, runAll (ss.map RScalar.convert) w = .ok w' →
    w'.parse = w.parse ++ (ss.filter (·.isOut)).map (fun s => ⟨s.fmt, [s.target], some s.name, false⟩) ∧
      w'.ops = w.ops
  | [], w, w', h => by cases h; simp
  | s :: ss, w, w', h => by
    simp only [List.map_cons, runAll] at h
    obtain ⟨w1, h1, h2⟩ := bind_ok.mp h
    obtain ⟨e1, e2⟩ := runAll_rscalars ss h2
    have h1 : _ = w1 := Except.ok.inj h1
    have p1 : w1.parse = w.parse ++ (if s.isOut then [⟨s.fmt, [s.target], some s.name, false⟩] else []) := by
      rw [← h1]; cases s.isIn <;> cases s.isOut <;> simp [W.addParse, W.addBuild, addParam]
    have o1 : w1.ops = w.ops := by
      rw [← h1]; cases s.isIn <;> cases s.isOut <;> simp [W.addParse, W.addBuild]
    refine ⟨?_, e2.trans o1⟩
    rw [e1, p1, List.filter_cons]
    split <;> simp

theorem declare_parse {w w' : W} {t n v : Str} {x a : Option Str}
    (h : w.declare t n x a = .ok (w', v)) : w'.parse = w.parse := by
  rw [(declare_spec h).2]

theorem prologue_parse {p : Proxy} {w w' : W} (h : p.prologue w = .ok w') : w'.parse = w.parse := by
  unfold Proxy.prologue at h
  obtain ⟨⟨w1, m⟩, h1, h⟩ := bind_ok.mp h
  dsimp only at h
  obtain ⟨⟨w2, o⟩, h2, h⟩ := bind_ok.mp h
  cases h
  simp only [W.op]
  rw [declare_parse h2]
  simp only [W.op]
  cases p.newError <;> simp [W.op, declare_parse h1]

/-- The parse list of a proxy with scalar parameters, and how the result is unpacked. -/
theorem proxy_parse {p : Proxy} {retDecl : Option Str} {ss : List RScalar} {ret : Gen1} {pre : List PItem}
    {w0 w : W} (hret : ∀ u, ret u = .ok { u with parse := pre ++ u.parse })
    (h : reverseGenerate (p.config retDecl (ss.map RScalar.convert) ret) w0 = .ok w)
    (h0 : w0.parse = []) (hops : .write 0 wrapText ∉ w0.ops) :
    w.parse = pre ++ (ss.filter (·.isOut)).map (fun s => ⟨s.fmt, [s.target], some s.name, false⟩) ∧
    ((∀ it ∈ w.parse, it.template ≠ []) → w.parse ≠ [] → .write 0 wrapText ∈ w.ops) := by
  unfold reverseGenerate at h
  obtain ⟨w1, h1, h⟩ := bind_ok.mp h
  obtain ⟨w2, h2, h⟩ := bind_ok.mp h
  obtain ⟨w3, h3, h⟩ := bind_ok.mp h
  obtain ⟨w4, h4, h⟩ := bind_ok.mp h
  obtain ⟨w5, h5, h⟩ := bind_ok.mp h
  obtain ⟨w6, h6, h⟩ := bind_ok.mp h
  obtain ⟨w7, h7, h⟩ := bind_ok.mp h
  obtain ⟨w8, h8, h⟩ := bind_ok.mp h
  cases h
  have e1 : w1.parse = [] := by
    unfold gilCode at h1
    split at h1
    · cases h1; exact h0
    · obtain ⟨⟨wa, v⟩, hd, h1⟩ := bind_ok.mp h1
      cases h1
      simp [W.op, declare_parse hd, h0]
  have e2 : w2.parse = [] := by rw [prologue_parse h2, e1]
  have e3 : w3.parse = [] := by
    unfold declRetval at h3
    obtain ⟨⟨wa, v⟩, hd, h3⟩ := bind_ok.mp h3
    dsimp only at h3
    by_cases hv : v = "py_retval".toList
    · rw [if_pos hv] at h3
      have h3 := Except.ok.inj h3
      rw [← h3, declare_parse hd, e2]
    · rw [if_neg hv] at h3
      nomatch h3
  have e4 : w4.parse = [] := by
    unfold declCRetval at h4
    split at h4
    · obtain ⟨⟨wa, v⟩, hd, h4⟩ := bind_ok.mp h4
      cases h4; rw [declare_parse hd, e3]
    · cases h4; exact e3
  obtain ⟨e5, -⟩ := runAll_rscalars ss h5
  rw [e4, List.nil_append] at e5
  have e6 : w6.parse = w5.parse := by
    have h6 : Proxy.pycall p w5 = .ok w6 := h6
    unfold Proxy.pycall at h6
    cases h6; rfl
  have e7 : w7.parse = pre ++ w6.parse := by
    have := hret w6
    rw [show ret w6 = .ok w7 from h7] at this
    cases this; rfl
  have e8 : w8.parse = w7.parse := by
    unfold revParse at h8
    obtain ⟨ps, -, h8⟩ := bind_ok.mp h8
    dsimp only at h8
    split at h8 <;> (cases h8; rfl)
  have eend : (revFinish (p.config retDecl (ss.map RScalar.convert) ret).isVoid w8).parse = w8.parse := rfl
  refine ⟨by rw [eend, e8, e7, e6, e5], ?_⟩
  intro hu hne
  rw [eend, e8] at hu hne
  have hin : .write 0 wrapText ∈ w8.ops := by
    unfold revParse at h8
    obtain ⟨ps, hps, h8⟩ := bind_ok.mp h8
    dsimp only at h8
    split at h8
    · rename_i he
      exfalso
      subst he
      unfold getParameters at hps
      obtain ⟨t, ht, hps⟩ := bind_ok.mp hps
      cases items : w7.parse with
      | nil => exact hne items
      | cons it rest =>
        have hit := hu it (by rw [items]; exact List.mem_cons_self)
        rw [items] at ht
        have htne : t ≠ [] := by
          unfold templateLoop at ht
          split at ht
          · cases ht
          · split at ht
            · obtain ⟨t', -, ht⟩ := bind_ok.mp ht
              cases ht; simp
            · obtain ⟨t', -, ht⟩ := bind_ok.mp ht
              cases ht; simp [hit]
        have := Except.ok.inj hps
        simp only [List.cons.injEq] at this
        have hl := congrArg List.length this.1
        rw [show ("\"\"".toList).length = 2 from rfl] at hl
        simp only [List.length_append, List.length_cons, List.length_nil] at hl
        exact htne (List.eq_nil_of_length_eq_zero (by omega))
    · have h8 := Except.ok.inj h8
      rw [← h8]
      exact List.mem_append_left _ (List.mem_append_right _ (List.mem_singleton.mpr rfl))
  exact List.mem_append_left _ (List.mem_append_left _ hin)

/-- The scalar return classes of the reverse direction and the value they parse. -/
inductive RetH where
  | void
  | value (fmt : Str)

def RetH.convert : RetH → Gen1
  | .void => voidReturn
  | .value f => rReturn f

def RetH.items : RetH → List PItem
  | .void => []
  | .value f => [⟨f, ["&retval".toList], none, false⟩]

theorem RetH.convert_eq (r : RetH) (u : W) : r.convert u = .ok { u with parse := r.items ++ u.parse } := by
  cases r <;> rfl

/-- Format units expected back from Python, with the C++ lvalues meant to receive the values: the
return value first, then the output parameters in declaration order. -/
def expectedBack (r : RetH) (ss : List RScalar) (lv : RScalar → Str) : List (Str × Str) :=
  (match r with | .void => [] | .value f => [(f, "retval".toList)]) ++
    (ss.filter (·.isOut)).map (fun s => (s.fmt, lv s))

/-- C56 for overrides from which exactly one value is expected — the return value of a method
without output parameters, or the single output parameter, of pointer type, of a `void` method: the
object returned by Python is converted and stored there, and refused exactly when it cannot be
converted; with nothing expected, exactly `None` is accepted. -/
theorem C56_single_partial (L : Lang Val Py) (elems : Py → Option (List Py)) (isNone : Py → Bool)
    (p : Proxy) (retDecl : Option Str) (ret : RetH) (ss : List RScalar) (w0 w : W)
    (h : reverseGenerate (p.config retDecl (ss.map RScalar.convert) ret.convert) w0 = .ok w)
    (h0 : w0.parse = []) (hops : .write 0 wrapText ∉ w0.ops)
    (hptr : ∀ s ∈ ss, s.isOut = true → ∃ n i o, s = rPtr s.fmt n i o ∧ n.head? ≠ some '&')
    (hu : ∀ f e, (f, e) ∈ expectedBack ret ss (fun s => '*' :: s.name) → f ≠ []) (r : Py) :
    (∀ f e, expectedBack ret ss (fun s => '*' :: s.name) = [(f, e)] →
      received L elems isNone (ss.map (·.name)) w r =
        match L.conv f r with
        | some y => .stored [(e, y)]
        | none => .refused) ∧
    (expectedBack ret ss (fun s => '*' :: s.name) = [] →
      received L elems isNone (ss.map (·.name)) w r = if isNone r then .stored [] else .refused) := by
  obtain ⟨hp, hw⟩ := proxy_parse (fun u => ret.convert_eq u) h h0 hops
  have hunit : ∀ it ∈ w.parse, it.template ≠ [] := by
    intro it hit
    rw [hp] at hit
    rcases List.mem_append.mp hit with hit | hit
    · cases ret with
      | void => simp [RetH.items] at hit
      | value f =>
        simp only [RetH.items, List.mem_singleton] at hit
        subst hit
        exact hu f "retval".toList (List.mem_append_left _ (List.mem_singleton.mpr rfl))
    · obtain ⟨s, hs, rfl⟩ := List.mem_map.mp hit
      exact hu s.fmt _ (List.mem_append_right _ (List.mem_map.mpr ⟨s, hs, rfl⟩))
  constructor
  · intro f e he
    -- which of the two cases
    have hone : ∃ it, w.parse = [it] ∧ it.template = f ∧ ∃ x, it.values = [x] ∧
        written (ss.map (·.name)) x = some e := by
      rw [hp]
      cases ret with
      | void =>
        simp only [expectedBack, List.nil_append] at he
        cases hf : ss.filter (·.isOut) with
        | nil => rw [hf] at he; simp at he
        | cons s rest =>
          rw [hf] at he
          simp only [List.map_cons, List.cons.injEq, List.map_eq_nil_iff, Prod.mk.injEq] at he
          obtain ⟨⟨e1, e2⟩, e3⟩ := he
          subst e3
          have hmem : s ∈ ss.filter (·.isOut) := by rw [hf]; simp
          obtain ⟨hm, ho⟩ := List.mem_filter.mp hmem
          obtain ⟨n, i, o, hs, hn⟩ := hptr s hm ho
          refine ⟨_, by simp [RetH.items]; rfl, e1, s.target, rfl, ?_⟩
          have ht : s.target = s.name := by rw [hs]; rfl
          have hname : s.name = n := by rw [hs]; rfl
          rw [ht, ← e2]
          unfold written
          split
          · rename_i v hv
            exact absurd (by rw [← hname, hv]; rfl) hn
          · rw [if_pos (List.mem_map.mpr ⟨s, hm, rfl⟩)]
      | value g =>
        simp only [expectedBack, List.cons_append, List.nil_append, List.cons.injEq, Prod.mk.injEq,
          List.map_eq_nil_iff] at he
        obtain ⟨⟨e1, e2⟩, e3⟩ := he
        refine ⟨_, by rw [e3]; simp [RetH.items]; rfl, e1, _, rfl, ?_⟩
        rw [← e2]; rfl
    obtain ⟨it, h1, h2, x, h3, h4⟩ := hone
    have hwr := hw hunit (by rw [h1]; simp)
    unfold received
    rw [if_neg (by rw [h1]; simp), if_pos hwr, h1]
    simp only [parseTupleTop, List.length_cons, List.length_nil, if_true, parseTuple, h2, h3, h4]
    cases L.conv f r <;> rfl
  · intro he
    have : w.parse = [] := by
      rw [hp]
      unfold expectedBack at he
      obtain ⟨h1, h2⟩ := List.append_eq_nil_iff.mp he
      rw [List.map_eq_nil_iff] at h2
      cases ret with
      | void => simp [RetH.items, h2]
      | value f => cases h1
    unfold received
    rw [if_pos this]

/-- The claim is false whenever two or more values are expected back: whatever the Python override
returns — in particular a tuple of the right values — is refused, because the object is first wrapped
into a tuple of one element (base.py:645) and then parsed as a tuple of several. -/
theorem C56_several_counterexample (L : Lang Val Py) (elems : Py → Option (List Py)) (isNone : Py → Bool)
    (p : Proxy) (retDecl : Option Str) (ret : RetH) (ss : List RScalar) (w0 w : W) (lv : RScalar → Str)
    (h : reverseGenerate (p.config retDecl (ss.map RScalar.convert) ret.convert) w0 = .ok w)
    (h0 : w0.parse = []) (hops : .write 0 wrapText ∉ w0.ops)
    (hu : ∀ f e, (f, e) ∈ expectedBack ret ss lv → f ≠ [])
    (h2 : 2 ≤ (expectedBack ret ss lv).length) (ptrs : List Str) (r : Py) :
    received L elems isNone ptrs w r = .refused := by
  obtain ⟨hp, hw⟩ := proxy_parse (fun u => ret.convert_eq u) h h0 hops
  have hunit : ∀ it ∈ w.parse, it.template ≠ [] := by
    intro it hit
    rw [hp] at hit
    rcases List.mem_append.mp hit with hit | hit
    · cases ret with
      | void => simp [RetH.items] at hit
      | value f =>
        simp only [RetH.items, List.mem_singleton] at hit
        subst hit
        exact hu f "retval".toList (List.mem_append_left _ (List.mem_singleton.mpr rfl))
    · obtain ⟨s, hs, rfl⟩ := List.mem_map.mp hit
      exact hu s.fmt (lv s) (List.mem_append_right _ (List.mem_map.mpr ⟨s, hs, rfl⟩))
  have hlen : w.parse.length = (expectedBack ret ss lv).length := by
    rw [hp]
    cases ret <;> simp [RetH.items, expectedBack]
  have hne : w.parse ≠ [] := by
    intro he
    rw [he] at hlen
    simp only [List.length_nil] at hlen
    omega
  unfold received
  rw [if_neg hne, if_pos (hw hunit hne)]
  unfold parseTupleTop
  rw [if_neg (by simp only [List.length_cons, List.length_nil]; omega)]

/-- Nor is it true of output parameters of arithmetic reference types: the value is parsed into the
place whose *address* is the present value of the variable. -/
theorem C56_reference_counterexample (L : Lang Val Py) (elems : Py → Option (List Py)) (isNone : Py → Bool)
    (p : Proxy) (retDecl : Option Str) (fmt n : Str) (hf : fmt ≠ []) (hn : n.head? ≠ some '&') (i : Bool) (w0 w : W)
    (h : reverseGenerate (p.config retDecl [(rRef fmt n i true).convert] voidReturn) w0 = .ok w)
    (h0 : w0.parse = []) (hops : .write 0 wrapText ∉ w0.ops) (r : Py) (y : Val) (hy : L.conv fmt r = some y) :
    received L elems isNone [] w r = .undefined := by
  obtain ⟨hp, hw⟩ := proxy_parse (ss := [rRef fmt n i true]) (ret := voidReturn) (pre := []) (fun u => rfl) h h0 hops
  have hp : w.parse = [⟨fmt, [n], some n, false⟩] := by rw [hp]; rfl
  have hwr := hw (by rw [hp]; simpa using hf) (by rw [hp]; simp)
  unfold received
  rw [if_neg (by rw [hp]; simp), if_pos hwr, hp]
  have hwn : written [] n = none := by
    unfold written
    split
    · exact absurd rfl hn
    · simp
  simp [parseTupleTop, parseTuple, hy, hwn]

/-! Non-vacuity: `int f(int x)`, and `int f(int *x /* out */)`. -/

example : (reverseGenerate (proxyExample.config (some "int".toList)
    [({ name := "x".toList, fmt := "i".toList, source := "x".toList } : RScalar).convert]
    (RetH.value "i".toList).convert) {}).toOption.map (fun w =>
      received (Val := Int) (Py := Int) ⟨fun _ x => some x, fun _ x => x, fun _ => 0⟩ (fun _ => none) (fun _ => false)
        ["x".toList] w 5) = some (.stored [("retval".toList, 5)]) := by decide +kernel

example : (reverseGenerate (proxyExample.config (some "int".toList)
    [(rPtr "i".toList "x".toList false true).convert] (RetH.value "i".toList).convert) {}).toOption.map (fun w =>
      received (Val := Int) (Py := List Int) ⟨fun _ x => x.head?, fun _ x => [x], fun _ => 0⟩
        (fun x => some (x.map ([·]))) (fun _ => false)
        ["x".toList] w [5, 6]) = some .refused := by decide +kernel

end Verif.Wrap
