import Verif.Wrapper.Ledger

/-!
# C99: no call leaves anything nobody owns
-/
namespace Verif.Ledger
open Verif Verif.Wrap Verif.Handlers

/-! ## Handlers that acquire nothing before the call -/

/-- Nothing is acquired by declarations, parsing and the code before the call, nothing is given to the function, and what is
acquired after the call is put into the result. -/
structure Quiet (a : Arg) : Prop where
  decl : ∀ v ∈ a.d.vars, v.init.any isNew = false
  unit : ∀ u, a.d.unit = some u → u.fmt ≠ "et".toList
  before : ∀ o ∈ ops a.d, opEff a.inc o = zero
  takes : a.takes = []
  after : ∀ i, sumEff (writeEff a.inc) (posts a.d) i + outEff a.d.out i = 0

theorem sumEff_zero {α : Type} (f : α → Nat → Int) (l : List α) (h : ∀ x ∈ l, f x = zero) (i : Nat) : sumEff f l i = 0 := by
  unfold sumEff
  induction l with
  | nil => rfl
  | cons x l ih =>
    rw [List.map_cons, List.sum_cons, ih (fun y hy => h y (List.mem_cons_of_mem _ hy)), h x List.mem_cons_self]
    rfl

theorem declEff_zero (d : Desc) (h : ∀ v ∈ d.vars, v.init.any isNew = false) (i : Nat) : declEff d i = 0 := by
  unfold declEff
  cases hv : d.vars[i]? with
  | none => rfl
  | some v =>
    have := h v (List.mem_of_getElem? hv)
    simp [this]

theorem unitEff_zero (u : Wrap.PUnit) (h : u.fmt ≠ "et".toList) (i : Nat) : unitEff u i = 0 := if_neg (fun x => h x.1)

theorem executed_sub (a : Arg) (pos : Nat) (e : End) : ∀ o ∈ a.executed pos e, o ∈ ops a.d := by
  intro o ho
  cases e with
  | parse => cases ho
  | before k j =>
    simp only [Arg.executed] at ho
    split at ho
    · exact ho
    · split at ho
      · exact List.mem_of_mem_take ho
      · cases ho
  | threw => exact ho
  | done => exact ho

theorem quiet_balance {a : Arg} (h : Quiet a) (given : Bool) (pos : Nat) (e : End) (i : Nat) :
    a.balance given pos e i = 0 := by
  unfold Arg.balance
  rw [declEff_zero _ h.decl, sumEff_zero _ _ (fun o ho => h.before o (executed_sub a pos e o ho)), h.takes]
  have hu : a.parsed given e i = 0 := by
    unfold Arg.parsed
    cases hd : a.d.unit with
    | none => cases e <;> rfl
    | some u =>
      have := unitEff_zero u (h.unit u hd) i
      cases e <;> cases given <;> simp [this]
  rw [hu]
  have ha := h.after i
  rw [if_neg (by simp : ¬ (e.called && ([] : List Nat).contains i) = true)]
  split
  · rw [ha]; rfl
  · rfl

/-- No statements. -/
theorem quiet_simple {d : Desc} {inc : Option Str} (hd : ∀ v ∈ d.vars, v.init.any isNew = false)
    (hu : ∀ u, d.unit = some u → u.fmt ≠ "et".toList) (hb : ∀ o ∈ ops d, opEff inc o = zero)
    (ha : d.after = []) (ho : ∀ i, outEff d.out i = 0) : Quiet ⟨d, [], inc⟩ :=
  ⟨hd, hu, hb, rfl, fun i => by simp [posts, ha, sumEff, ho]⟩

theorem any_none (o : Option Str) (h : ∀ x, o = some x → isNew x = false) : o.any isNew = false := by
  cases o with
  | none => rfl
  | some x => exact h x rfl

theorem scalar_quiet (s : Scalar) (h : (H.scalar s).Plain) : Quiet (H.scalar s).arg := by
  obtain ⟨h1, h2, h3⟩ := h
  refine quiet_simple ?_ ?_ ?_ rfl ?_
  · intro v hv
    cases List.mem_singleton.1 hv
    exact any_none _ h1
  · intro u hu
    have hu : (if s.isIn then some (⟨s.fmt, [.addr 0], s.optional⟩ : Wrap.PUnit) else none) = some u := hu
    split at hu
    · cases hu; exact h2
    · cases hu
  · intro o ho
    simp only [ops, H.desc, Scalar.desc] at ho
    cases hc : s.check with
    | none => rw [hc] at ho; cases ho
    | some c => rw [hc] at ho; cases List.mem_singleton.1 ho; rfl
  · intro i
    show outEff (if s.isOut then some (s.fmt, [[.var 0]]) else none) i = 0
    split
    · exact congrFun (if_neg h3) i
    · rfl

theorem bool_quiet (t n : Str) (d : Option Str) : Quiet (H.bool t n d).arg := by
  refine quiet_simple ?_ ?_ ?_ rfl (fun _ => rfl)
  · intro v hv
    rcases List.mem_cons.1 hv with rfl | hv
    · rfl
    · cases List.mem_singleton.1 hv
      cases d <;> rfl
  · intro u hu
    cases hu
    show "O".toList ≠ _
    decide
  · intro o ho
    cases List.mem_singleton.1 ho
    cases truthy d <;> rfl

theorem boolRef_quiet (t n : Str) (i o p : Bool) : Quiet (H.boolRef t n i o p).arg := by
  refine quiet_simple ?_ ?_ ?_ rfl ?_
  · intro v hv
    rcases List.mem_cons.1 hv with rfl | hv
    · rfl
    · cases i with
      | false => cases hv
      | true => cases List.mem_singleton.1 hv; rfl
  · intro u hu
    cases i with
    | false => cases hu
    | true => cases hu; show "O".toList ≠ _; decide
  · intro x hx
    cases i with
    | false => cases hx
    | true => cases List.mem_singleton.1 hx; rfl
  · intro k
    cases o <;> rfl

theorem cstring_quiet (t n : Str) (d : Option Str) (h : (H.cstring t n d).Plain) : Quiet (H.cstring t n d).arg := by
  refine quiet_simple ?_ ?_ nofun rfl (fun _ => rfl)
  · intro v hv
    cases List.mem_singleton.1 hv
    exact any_none _ h
  · intro u hu
    cases hu
    show "s".toList ≠ _
    decide

theorem char_quiet (t n : Str) (d : Option Str) (h : (H.char t n d).Plain) : Quiet (H.char t n d).arg := by
  refine quiet_simple ?_ ?_ nofun rfl (fun _ => rfl)
  · intro v hv
    cases List.mem_singleton.1 hv
    exact any_none _ h
  · intro u hu
    cases hu
    show "c".toList ≠ _
    decide

theorem strVars_quiet (n : Str) (x : Option Str) (hx : x = none ∨ x = some "NULL".toList) :
    ∀ v ∈ strVars n x, v.init.any isNew = false := by
  intro v hv
  rcases List.mem_cons.1 hv with rfl | hv
  · rcases hx with rfl | rfl <;> rfl
  · cases List.mem_singleton.1 hv; rfl

theorem null_or (d : Option Str) : d.map (fun _ => "NULL".toList) = none ∨ d.map (fun _ => "NULL".toList) = some "NULL".toList := by
  cases d
  · exact .inl rfl
  · exact .inr rfl

theorem strUnit_quiet (o : Bool) : (strUnit o).fmt ≠ "et".toList := by
  show "s#".toList ≠ _
  decide

theorem strOut_quiet (v : Tmpl) (s : String) (i : Nat) : outEff (some (strOut v s)) i = 0 := rfl

theorem stdString_quiet (n : Str) (d : Option Str) : Quiet (H.stdString n d).arg := by
  refine quiet_simple (strVars_quiet n _ (null_or d)) ?_ nofun rfl (fun _ => rfl)
  intro u hu
  cases hu
  exact strUnit_quiet _

theorem stdStringRef_quiet (n : Str) (i o : Bool) (d : Option Str) : Quiet (H.stdStringRef n i o d).arg := by
  refine quiet_simple ?_ ?_ ?_ rfl ?_
  · intro v hv
    rcases List.mem_append.1 hv with hv | hv
    · exact strVars_quiet n _ (.inr rfl) v hv
    · cases List.mem_singleton.1 hv; rfl
  · intro u hu
    cases i with
    | false => cases hu
    | true => cases hu; exact strUnit_quiet _
  · intro x hx
    cases i with
    | false => cases hx
    | true => cases List.mem_singleton.1 hx; cases d <;> rfl
  · intro k
    cases o <;> rfl

theorem stdStringPtr_quiet (n : Str) (i o : Bool) : Quiet (H.stdStringPtr n i o false).arg := by
  refine quiet_simple ?_ ?_ ?_ rfl ?_
  · intro v hv
    rcases List.mem_append.1 hv with hv | hv
    · exact strVars_quiet n _ (.inl rfl) v hv
    · cases List.mem_singleton.1 hv; rfl
  · intro u hu
    cases i with
    | false => cases hu
    | true => cases hu; exact strUnit_quiet _
  · intro x hx
    cases i with
    | false => cases hx
    | true => cases List.mem_singleton.1 hx; rfl
  · intro k
    cases o <;> rfl

theorem glibRef_quiet (n : Str) (o : Bool) : Quiet (H.glibRef n false o).arg := by
  refine quiet_simple ?_ nofun nofun rfl ?_
  · intro v hv
    rcases List.mem_cons.1 hv with rfl | hv
    · rfl
    · cases List.mem_singleton.1 hv; rfl
  · intro k
    cases o <;> rfl

theorem glibPtr_quiet (n : Str) (o : Bool) : Quiet (H.glibPtr n false o false).arg := by
  refine quiet_simple ?_ nofun nofun rfl ?_
  · intro v hv
    rcases List.mem_cons.1 hv with rfl | hv
    · rfl
    · cases List.mem_singleton.1 hv; rfl
  · intro k
    cases o <;> rfl

theorem pyObject_quiet (c n : Str) : Quiet (H.pyObject c n false).arg := by
  refine quiet_simple ?_ ?_ nofun rfl (fun _ => rfl)
  · intro v hv
    cases List.mem_singleton.1 hv
    rfl
  · intro u hu
    cases hu
    show "O".toList ≠ _
    decide

/-- A wrapper is made after the call and put into the result. -/
theorem given_new (i k : Nat) : one k 1 i + (0 + 0) + one k (-1) i = 0 := by
  unfold one
  split <;> decide

theorem container_quiet (f c ps pt s n : Str) (i o : Bool) (d : Option Str)
    (h : (H.container f c ps pt s n i o d).Plain) : Quiet (H.container f c ps pt s n i o d).arg := by
  refine ⟨?_, ?_, nofun, rfl, ?_⟩
  · intro v hv
    rcases List.mem_cons.1 hv with rfl | hv
    · exact any_none _ h
    · cases o with
      | false => cases hv
      | true => cases List.mem_singleton.1 hv; rfl
  · intro u hu
    cases i with
    | false => cases hu
    | true => cases hu; show "O&".toList ≠ _; decide
  · intro k
    cases o with
    | false => rfl
    | true => exact given_new k 1

theorem containerPtrIn_quiet (f c n : Str) (t : Bool) : Quiet (H.containerPtrIn f c n t).arg := by
  refine quiet_simple ?_ ?_ nofun rfl (fun _ => rfl)
  · intro v hv
    cases List.mem_singleton.1 hv
    rfl
  · intro u hu
    cases hu
    show "O&".toList ≠ _
    decide

theorem array_quiet (c n : Str) (l : Nat) (i o : Bool) (e g m : Tmpl → Tmpl) : Quiet (H.array c n l i o e g m).arg := by
  refine ⟨?_, ?_, ?_, rfl, ?_⟩
  · intro v hv
    rcases List.mem_append.1 hv with hv | hv
    · rcases List.mem_cons.1 hv with rfl | hv
      · rfl
      rcases List.mem_cons.1 hv with rfl | hv
      · rfl
      cases List.mem_singleton.1 hv; rfl
    · cases i with
      | false => cases hv
      | true => cases List.mem_singleton.1 hv; rfl
  · intro u hu
    cases i with
    | false => cases hu
    | true => cases hu; show "O!".toList ≠ _; decide
  · intro x hx
    cases i with
    | false => cases hx
    | true =>
      rcases List.mem_cons.1 hx with rfl | hx
      · rfl
      rcases List.mem_cons.1 hx with rfl | hx
      · rfl
      rcases List.mem_cons.1 hx with rfl | hx
      · rfl
      rcases List.mem_cons.1 hx with rfl | hx
      · rfl
      rcases List.mem_cons.1 hx with rfl | hx
      · rfl
      cases List.mem_singleton.1 hx; rfl
  · intro k
    cases o with
    | false => rfl
    | true =>
      show one 1 1 k + (0 + (0 + (0 + 0))) + one 1 (-1) k = 0
      unfold one
      split <;> decide

/-! ## Class parameters -/

theorem writeEff_text (inc : Option Str) (t : Str) (rest : Tmpl) (h1 : t ≠ "Py_INCREF((PyObject*) ".toList)
    (h2 : rest ≠ [tx "->obj = NULL;"]) (h3 : inc ≠ some t) : writeEff inc (.text t :: rest) = zero := by
  show textEff inc t rest = zero
  unfold textEff
  rw [if_neg h1, if_neg (fun h => h2 h.2), if_neg h3]

theorem writeEff_if (inc : Option Str) (hinc : ∀ t, inc = some t → t ∉ ["if (".toList, "}".toList, "Py_INCREF((PyObject*) ".toList])
    (p q : Piece) (rest : Tmpl) : writeEff inc (tx "if (" :: p :: q :: rest) = zero :=
  writeEff_text inc "if (".toList _ (by decide) (by simp) (fun h => hinc _ h List.mem_cons_self)

theorem tops_zero (py : Piece) (val : Piece)
    (inc : Option Str) (hinc : ∀ t, inc = some t → t ∉ ["if (".toList, "}".toList, "Py_INCREF((PyObject*) ".toList])
    (s : S) (hs : ∀ t, s ≠ .incref t) (hg : ∀ e, s = .set e → ∃ i, val = .var i) (hch : ∀ l n, s = .chain l n → inc = none) :
    ∀ o ∈ s.tops py val, opEff inc o = zero := by
  cases s with
  | set e =>
    obtain ⟨i, rfl⟩ := hg e rfl
    intro o ho
    cases List.mem_singleton.1 ho
    rfl
  | chain l names =>
    cases hch _ _ rfl
    have : ∀ (first : Bool) (l : List (C × E)), ∀ o ∈ chainTops py val first l, opEff none o = zero := by
      intro first l
      induction l generalizing first with
      | nil => nofun
      | cons x l ih =>
        intro o ho
        rcases List.mem_cons.1 ho with rfl | ho
        · cases first <;> rfl
        · exact ih false o ho
    intro o ho
    rcases List.mem_append.1 ho with ho | ho
    · exact this _ _ o ho
    · cases List.mem_singleton.1 ho; rfl
  | noneOrInstance k num =>
    intro o ho
    cases List.mem_singleton.1 ho
    rfl
  | setNullOk =>
    intro o ho
    cases List.mem_singleton.1 ho
    exact writeEff_if inc hinc _ _ _
  | setIf =>
    intro o ho
    cases List.mem_singleton.1 ho
    exact writeEff_if inc hinc _ _ _
  | incref t => exact absurd rfl (hs t)


/-- What the class handlers write. -/
structure Facts (p : Par) (s : Snip) : Prop where
  vars : (∀ d, p.dflt = some d → isNew d = false) → ∀ v ∈ s.vars p.name, v.init.any isNew = false
  set : ∀ e, S.set e ∈ s.before → s.val.isSome = true
  incref : ∀ t, S.incref t ∈ s.before → ∃ n, p.kind = .ptr n true (some t)
  chain : ∀ l names, S.chain l names ∈ s.before → ∀ n t c, p.kind ≠ .ptr n t c
  clear : s.clearAfter = true → ∃ n, p.kind = .ptr n true none

theorem vars_py (p : Par) (s : Snip) (hpy : ∀ q, s.py = some q → q.2 = none ∨ q.2 = some "NULL".toList)
    (hd : ∀ q, s.dfltVar = some q → p.dflt = some q.2) (h : ∀ d, p.dflt = some d → isNew d = false) :
    ∀ v ∈ s.vars p.name, v.init.any isNew = false := by
  intro v hv
  obtain ⟨py, val, dv, parse, opt, before, arg, clear⟩ := s
  simp only [Snip.vars, List.mem_append, Option.mem_toList, Option.map_eq_some_iff] at hv
  rcases hv with (⟨q, hq, rfl⟩ | ⟨q, hq, rfl⟩) | ⟨q, hq, rfl⟩
  · rcases hpy q hq with h | h
    · show q.2.any isNew = false; rw [h]; rfl
    · show q.2.any isNew = false; rw [h]; rfl
  · rfl
  · exact h _ (hd q hq)

theorem conv_facts (p : Par) (d : Option Str) (hk : ∀ n t c, p.kind ≠ .ptr n t c) : Facts p (convSnip p d) := by
  refine ⟨vars_py p _ ?_ nofun, ?_, ?_, ?_, nofun⟩
  · intro q hq
    cases hq
    exact (null_or d)
  · intro e he
    cases List.mem_singleton.1 he
  · intro t ht
    cases List.mem_singleton.1 ht
  · exact fun _ _ _ => hk

/-- A handler without code. -/
theorem plain_facts (p : Par) (s : Snip) (h1 : ∀ q, s.py = some q → q.2 = none ∨ q.2 = some "NULL".toList)
    (h2 : ∀ q, s.dfltVar = some q → p.dflt = some q.2) (h3 : s.before = []) (h4 : s.clearAfter = false) : Facts p s := by
  refine ⟨vars_py p _ h1 h2, ?_, ?_, ?_, ?_⟩ <;> simp [h3, h4]

theorem value_facts (p : Par) (s : Snip) (hk : p.kind = .value) (h : valueSnip p = .ok s) : Facts p s := by
  unfold valueSnip at h
  split at h
  · cases h; exact plain_facts _ _ nofun nofun rfl rfl
  split at h
  · split at h
    · split at h
      · cases h; exact plain_facts _ _ (fun q hq => by cases hq; exact .inr rfl) nofun rfl rfl
      · cases h
    · cases h; exact plain_facts _ _ (fun q hq => by cases hq; exact .inl rfl) nofun rfl rfl
  · cases h; exact conv_facts _ _ (fun n t c h => by rw [hk] at h; cases h)

theorem ref_facts (p : Par) (s : Snip) (c : Bool) (t : Option Str) (hk : p.kind = .ref c t) (h : refSnip p c t = .ok s) :
    Facts p s := by
  unfold refSnip at h
  split at h
  · cases h; exact plain_facts _ _ nofun nofun rfl rfl
  split at h
  · split at h
    · rename_i hd
      split at h
      · cases h
        exact plain_facts _ _ (fun q hq => by cases hq; exact .inr rfl) (fun q hq => by cases hq; exact hd) rfl rfl
      · split at h
        · cases h; exact plain_facts _ _ (fun q hq => by cases hq; exact .inr rfl) nofun rfl rfl
        · cases h
    · cases h; exact plain_facts _ _ (fun q hq => by cases hq; exact .inl rfl) nofun rfl rfl
  · cases h; exact conv_facts _ _ (fun n t c h => by rw [hk] at h; cases h)

theorem null_if (b : Bool) : (if b then some "NULL".toList else none) = none ∨
    (if b then some "NULL".toList else none) = some "NULL".toList := by
  cases b
  · exact .inl rfl
  · exact .inr rfl

theorem ptr_facts (p : Par) (n t : Bool) (c : Option Str) (num : Nat) (hk : p.kind = .ptr n t c) :
    Facts p (ptrSnip p n t c num) := by
  have hsplit : ∀ x ∈ (ptrSnip p n t c num).before, (x = .noneOrInstance p.k num ∨ x = .setNullOk ∨
      (x = .set .objOrNull ∧ (ptrSnip p n t c num).val.isSome = true)) ∨ ∃ u, t = true ∧ c = some u ∧ x = .incref u := by
    intro x hx
    unfold ptrSnip at hx ⊢
    cases hf : p.fromSelf <;> cases t <;> cases c <;> cases n <;> simp [hf] at hx ⊢ <;> tauto
  refine ⟨vars_py p _ ?_ ?_, ?_, ?_, ?_, ?_⟩
  · intro q hq
    cases hf : p.fromSelf with
    | true => simp only [ptrSnip, hf, if_true] at hq; cases hq
    | false =>
      simp only [ptrSnip, hf, Bool.false_eq_true, if_false] at hq
      cases hq
      exact null_if _
  · intro q hq
    cases hf : p.fromSelf with
    | true => simp only [ptrSnip, hf, if_true] at hq; cases hq
    | false => simp only [ptrSnip, hf, Bool.false_eq_true, if_false] at hq; cases hq
  · intro e he
    rcases hsplit _ he with (h | h | h) | ⟨u, _, _, h⟩
    · cases h
    · cases h
    · exact h.2
    · cases h
  · intro u hu
    rcases hsplit _ hu with (h | h | h) | ⟨v, ht, hc, h⟩
    · cases h
    · cases h
    · cases h.1
    · cases h; subst ht hc; exact ⟨n, hk⟩
  · intro l names hl
    rcases hsplit _ hl with (h | h | h) | ⟨v, ht, hc, h⟩
    · cases h
    · cases h
    · cases h.1
    · cases h
  · intro hc
    have : (t && c.isNone) = true := by
      cases hf : p.fromSelf with
      | true => simp only [ptrSnip, hf, if_true] at hc; exact hc
      | false => simp only [ptrSnip, hf, Bool.false_eq_true, if_false] at hc; exact hc
    cases t <;> cases c <;> simp at this
    exact ⟨n, hk⟩

theorem snip_facts (p : Par) (num : Nat) (s : Snip) (h : p.snip num = .ok s) : Facts p s := by
  unfold Par.snip at h
  split at h
  · exact value_facts p s ‹_› h
  · exact ref_facts p s _ _ ‹_› h
  · split at h
    · cases h
    · cases h; exact plain_facts _ _ (fun q hq => by cases hq; exact .inl rfl) nofun rfl rfl
  · cases h; exact ptr_facts p _ _ _ num ‹_›
  · rename_i n t hk
    cases h
    refine ⟨vars_py p _ (fun q hq => by cases hq; exact null_if _) nofun, fun _ _ => rfl, ?_, ?_, nofun⟩
    · intro u hu
      cases n <;> simp [sharedSnip] at hu
    · intro l names hl
      cases n <;> simp [sharedSnip] at hl

theorem cls_unit (s : Snip) (name : Str) (u : Option Str) (x : Wrap.PUnit) (h : (s.desc name u).unit = some x) :
    x.fmt ≠ "et".toList := by
  have h : s.parse.map _ = some x := h
  cases hp : s.parse with
  | none => rw [hp] at h; cases h
  | some f =>
    rw [hp] at h
    cases f <;> cases h
    · show "O!".toList ≠ _; decide
    · show "O".toList ≠ _; decide

theorem cls_ops (s : Snip) (name : Str) (u : Option Str) : ops (s.desc name u) = s.before.flatMap (S.tops s.pyPiece s.valPiece) := by
  unfold ops
  show (s.before.map _).flatMap _ = _
  rw [List.flatMap_map]

theorem valPiece_var {s : Snip} (h : s.val.isSome = true) : ∃ i, s.valPiece = .var i := by
  unfold Snip.valPiece
  rw [if_pos h]
  exact ⟨_, rfl⟩

theorem cls_inc (p : Par) (s : Snip) (u : Option Str) (h : (H.cls p s u).eager = false) :
    (H.cls p s u).inc = none ∧ (H.cls p s u).takes = [] := by
  simp only [H.eager] at h
  simp only [H.inc, H.takes]
  cases hk : p.kind with
  | ptr n t c =>
    rw [hk] at h
    cases (show t = false from h)
    exact ⟨rfl, rfl⟩
  | _ => exact ⟨rfl, rfl⟩

theorem cls_quiet (p : Par) (s : Snip) (u : Option Str) (h : (H.cls p s u).Plain) (he : (H.cls p s u).eager = false) :
    Quiet (H.cls p s u).arg := by
  obtain ⟨⟨num, hs⟩, hd, hu, hi⟩ := h
  have f := snip_facts p num s hs
  obtain ⟨hinc, htk⟩ := cls_inc p s u he
  have hno : ∀ n c, p.kind ≠ .ptr n true c := by
    intro n c hk
    simp only [H.eager, hk] at he
    cases he
  refine ⟨f.vars hd, fun x hx => cls_unit s p.name u x hx, ?_, htk, ?_⟩
  · intro o ho
    have ho : o ∈ ops (s.desc p.name u) := ho
    rw [cls_ops] at ho
    obtain ⟨x, hx, ho⟩ := List.mem_flatMap.1 ho
    refine tops_zero s.pyPiece s.valPiece _ hi x ?_ ?_ (fun _ _ _ => hinc) o ho
    · rintro t rfl
      obtain ⟨n, hn⟩ := f.incref t hx
      exact hno _ _ hn
    · rintro e rfl
      exact valPiece_var (f.set e hx)
  · intro i
    have hc : s.clearAfter = false := by
      by_contra hc
      obtain ⟨n, hn⟩ := f.clear (by simpa using hc)
      exact hno _ _ hn
    have hp : posts (s.desc p.name u) = [] := by
      unfold posts
      show (if s.clearAfter then _ else []).flatMap _ = _
      rw [hc]
      rfl
    show sumEff _ (posts (s.desc p.name u)) i + 0 = 0
    rw [hp]
    rfl


/-! ## Handlers that acquire something before the call -/

theorem one_neg (i k : Nat) : one k 1 i + (if [k].contains i then (-1 : Int) else 0) = 0 := by
  unfold one
  by_cases h : i = k <;> simp [h]

theorem sumEff_cons {α : Type} (f : α → Nat → Int) (x : α) (l : List α) (i : Nat) : sumEff f (x :: l) i = f x i + sumEff f l i := by
  simp [sumEff]

theorem sumEff_append {α : Type} (f : α → Nat → Int) (l m : List α) (i : Nat) :
    sumEff f (l ++ m) i = sumEff f l i + sumEff f m i := by
  simp [sumEff]

theorem sumEff_nil {α : Type} (f : α → Nat → Int) (i : Nat) : sumEff f [] i = 0 := rfl

/-- The ledger of a call that returns. -/
theorem done_balance (a : Arg) (given : Bool) (pos i : Nat) (hu : ∀ u, a.d.unit = some u → u.fmt ≠ "et".toList) :
    a.balance given pos .done i = declEff a.d i + sumEff (opEff a.inc) (ops a.d) i +
      (if a.takes.contains i then -1 else 0) + (sumEff (writeEff a.inc) (posts a.d) i + outEff a.d.out i) := by
  have hp : a.parsed given .done i = 0 := by
    unfold Arg.parsed
    cases hd : a.d.unit with
    | none => rfl
    | some u =>
      have := unitEff_zero u (hu u hd) i
      cases given <;> simp [this]
  unfold Arg.balance
  rw [hp, if_pos rfl]
  show declEff a.d i + 0 + _ + _ + _ = _
  rw [Int.add_zero]
  rfl

theorem stdStringPtr_done (n : Str) (i o given : Bool) (pos k : Nat) :
    (H.stdStringPtr n i o true).arg.balance given pos .done k = 0 := by
  rw [done_balance]
  · have h1 : declEff (H.stdStringPtr n i o true).arg.d k = one 2 1 k := by
      rcases k with _ | _ | _ | k <;> rfl
    have h2 : sumEff (opEff (H.stdStringPtr n i o true).arg.inc) (ops (H.stdStringPtr n i o true).arg.d) k = 0 := by
      cases i <;> rfl
    have h3 : sumEff (writeEff (H.stdStringPtr n i o true).arg.inc) (posts (H.stdStringPtr n i o true).arg.d) k +
        outEff (H.stdStringPtr n i o true).arg.d.out k = 0 := by
      cases o <;> rfl
    rw [h1, h2, h3, Int.add_zero, Int.add_zero]
    exact one_neg k 2
  · intro u hu
    cases i with
    | false => cases hu
    | true => cases hu; exact strUnit_quiet _

theorem glibPtr_done (n : Str) (o given : Bool) (pos k : Nat) :
    (H.glibPtr n false o true).arg.balance given pos .done k = 0 := by
  rw [done_balance _ _ _ _ (fun u hu => by cases (show none = some u from hu))]
  have h1 : declEff (H.glibPtr n false o true).arg.d k = one 1 1 k := by
    rcases k with _ | _ | k <;> rfl
  have h2 : sumEff (opEff (H.glibPtr n false o true).arg.inc) (ops (H.glibPtr n false o true).arg.d) k = 0 := rfl
  have h3 : sumEff (writeEff (H.glibPtr n false o true).arg.inc) (posts (H.glibPtr n false o true).arg.d) k +
      outEff (H.glibPtr n false o true).arg.d.out k = 0 := by
    cases o <;> rfl
  rw [h1, h2, h3, Int.add_zero, Int.add_zero]
  exact one_neg k 1

theorem pyObject_done (c n : Str) (given : Bool) (pos k : Nat) :
    (H.pyObject c n true).arg.balance given pos .done k = 0 := by
  rw [done_balance]
  · have h1 : declEff (H.pyObject c n true).arg.d k = 0 := by
      rcases k with _ | k <;> rfl
    have h2 : sumEff (opEff (H.pyObject c n true).arg.inc) (ops (H.pyObject c n true).arg.d) k = one 0 1 k + 0 := rfl
    have h3 : sumEff (writeEff (H.pyObject c n true).arg.inc) (posts (H.pyObject c n true).arg.d) k +
        outEff (H.pyObject c n true).arg.d.out k = 0 := rfl
    rw [h1, h2, h3, Int.add_zero, Int.add_zero, Int.zero_add]
    exact one_neg k 0
  · intro u hu
    cases hu
    show "O".toList ≠ _
    decide

theorem containerPtrOut_done (f ps pt s n : Str) (given : Bool) (pos k : Nat) :
    (H.containerPtrOut f ps pt s n).arg.balance given pos .done k = 0 := by
  rw [done_balance _ _ _ _ (fun u hu => by cases (show none = some u from hu))]
  have h1 : declEff (H.containerPtrOut f ps pt s n).arg.d k = one 0 1 k := by
    rcases k with _ | _ | k <;> rfl
  rw [h1]
  show one 0 1 k + 0 + 0 + (one 1 1 k + (one 0 (-1) k + 0) + one 1 (-1) k) = 0
  unfold one
  rcases k with _ | _ | k <;> rfl

theorem refOut_done (c : Returns.RCls) (n : Str) (r : List Tmpl) (cr : Tmpl) (rg po : List Tmpl)
    (h : (H.refOut c n r cr rg po).Plain) (given : Bool) (pos k : Nat) :
    (H.refOut c n r cr rg po).arg.balance given pos .done k = 0 := by
  rw [done_balance _ _ _ _ (fun u hu => by cases (show none = some u from hu))]
  have h1 : declEff (H.refOut c n r cr rg po).arg.d k = 0 := by
    rcases k with _ | k <;> rfl
  have h2 : sumEff (opEff none) (ops (H.refOut c n r cr rg po).arg.d) k = one 0 1 k := by
    have ho : ops (H.refOut c n r cr rg po).arg.d = (allocTmpl c r ++ cr :: rg ++ po).map TOp.write := List.append_nil _
    rw [ho]
    show opEff none _ k + sumEff (opEff none) ((r ++ cr :: rg ++ po).map TOp.write) k = one 0 1 k
    rw [sumEff_zero]
    · rw [Int.add_zero]
      show varEff 0 (if c.subclassing then " = PyObject_GC_New(" else " = PyObject_New(").toList _ k = one 0 1 k
      cases c.subclassing <;> rfl
    · intro o ho
      obtain ⟨t, ht, rfl⟩ := List.mem_map.1 ho
      exact h t ht
  have h3 : sumEff (writeEff none) (posts (H.refOut c n r cr rg po).arg.d) k = 0 := by
    refine sumEff_zero _ _ ?_ k
    intro t ht
    have ht : t ∈ ((if c.subclassing then [[.var 0, tx "->inst_dict = NULL;"]] else []) ++
      [[.var 0, tx "->flags = PYBINDGEN_WRAPPER_FLAG_NONE;"]] : List Tmpl) ++ [] := ht
    rw [List.append_nil] at ht
    cases hc : c.subclassing with
    | false => rw [hc] at ht; cases List.mem_singleton.1 ht; rfl
    | true =>
      rw [hc] at ht
      rcases List.mem_cons.1 ht with rfl | ht
      · rfl
      · cases List.mem_singleton.1 ht; rfl
  rw [h1]
  show 0 + sumEff (opEff none) (ops (H.refOut c n r cr rg po).arg.d) k + 0 +
    (sumEff (writeEff none) (posts (H.refOut c n r cr rg po).arg.d) k + one 0 (-1) k) = 0
  rw [h2, h3]
  unfold one
  split <;> decide


theorem clear_posts (s : Snip) (name : Str) (u : Option Str) (h : s.clearAfter = true) : posts (s.desc name u) =
    [tx "if (", s.pyPiece, tx ") {"] :: u.toList.map (fun u => [.text u]) ++ [[s.pyPiece, tx "->obj = NULL;"], [tx "}"]] := by
  unfold posts
  show (if s.clearAfter then _ else []).flatMap _ = _
  rw [h]
  exact List.append_nil _

theorem noclear_posts (s : Snip) (name : Str) (u : Option Str) (h : s.clearAfter = false) : posts (s.desc name u) = [] := by
  unfold posts
  show (if s.clearAfter then _ else []).flatMap _ = _
  rw [h]
  rfl

theorem clear_eff (inc : Option Str) (hinc : inc = none) (s : Snip) (u : Option Str)
    (hu : ∀ t, u = some t → t ≠ "Py_INCREF((PyObject*) ".toList) (k : Nat) :
    sumEff (writeEff inc) ([tx "if (", s.pyPiece, tx ") {"] :: u.toList.map (fun u => [.text u]) ++
      [[s.pyPiece, tx "->obj = NULL;"], [tx "}"]]) k = one 0 1 k := by
  subst hinc
  have h1 : writeEff none [tx "if (", s.pyPiece, tx ") {"] = zero := rfl
  have h2 : sumEff (writeEff none) (u.toList.map (fun u => [Piece.text u])) k = 0 := by
    refine sumEff_zero _ _ ?_ k
    intro t ht
    obtain ⟨x, hx, rfl⟩ := List.mem_map.1 ht
    exact writeEff_text none x [] (hu x (Option.mem_toList.1 hx)) nofun nofun
  have h3 : writeEff none [s.pyPiece, tx "->obj = NULL;"] = one 0 1 := by
    unfold Snip.pyPiece
    split <;> rfl
  have h4 : writeEff none [tx "}"] = zero := rfl
  rw [sumEff_append, sumEff_cons, h2, h1, sumEff_cons, h3, sumEff_cons, h4, sumEff_nil]
  show 0 + 0 + (one 0 1 k + (0 + 0)) = _
  omega

theorem ptr_before (p : Par) (n : Bool) (t : Str) (num : Nat) : ∃ l, (ptrSnip p n true (some t) num).before = l ++ [.incref t] ∧
    (∀ x ∈ l, ∀ t, x ≠ S.incref t) ∧ ∀ x ∈ l, ∀ l n, x ≠ S.chain l n := by
  cases hf : p.fromSelf with
  | true => exact ⟨[], by simp [ptrSnip, hf], nofun, nofun⟩
  | false =>
    refine ⟨if n then [.noneOrInstance p.k num, .setNullOk] else [.set .objOrNull], by simp [ptrSnip, hf], ?_, ?_⟩ <;>
      cases n <;> simp

theorem incref_eff (t : Str) (py val : Piece) (ht : t ∉ ["if (".toList, "}".toList, "Py_INCREF((PyObject*) ".toList]) (k : Nat) :
    sumEff (opEff (some t)) ((S.incref t).tops py val) k = one 0 1 k := by
  have hinc : ∀ x, some t = some x → x ∉ ["if (".toList, "}".toList, "Py_INCREF((PyObject*) ".toList] := by
    rintro x h; cases h; exact ht
  have h1 : opEff (some t) (.write [tx "if (", py, tx ") {"]) = zero := writeEff_if _ hinc _ _ _
  have h2 : opEff (some t) (.write [.text t]) = one 0 1 := by
    show textEff (some t) t [] = _
    unfold textEff
    rw [if_neg (fun h : t = "Py_INCREF((PyObject*) ".toList => ht (by rw [h]; simp)), if_neg (fun h => nomatch h.2), if_pos rfl]
  have h3 : opEff (some t) (.write [tx "}"]) = zero :=
    writeEff_text _ _ _ (by decide) nofun (fun h => hinc _ h (by simp))
  show sumEff (opEff (some t)) [.write [tx "if (", py, tx ") {"], .write [.text t], .write [tx "}"]] k = _
  rw [sumEff_cons, h1, sumEff_cons, h2, sumEff_cons, h3, sumEff_nil]
  show 0 + (one 0 1 k + (0 + 0)) = _
  omega

theorem sumEff_flatMap {α β : Type} (f : β → Nat → Int) (g : α → List β) (l : List α) (i : Nat) (h : ∀ x ∈ l, sumEff f (g x) i = 0) :
    sumEff f (l.flatMap g) i = 0 := by
  induction l with
  | nil => rfl
  | cons x l ih =>
    rw [List.flatMap_cons, sumEff_append, h x List.mem_cons_self, ih (fun y hy => h y (List.mem_cons_of_mem _ hy))]
    rfl

/-- A class pointer the function takes over. -/
theorem cls_done (p : Par) (s : Snip) (u : Option Str) (h : (H.cls p s u).Plain) (he : (H.cls p s u).eager = true)
    (given : Bool) (pos k : Nat) : (H.cls p s u).arg.balance given pos .done k = 0 := by
  obtain ⟨⟨num, hs⟩, hd, hu, hi⟩ := h
  have f := snip_facts p num s hs
  have hkind : ∃ n c, p.kind = .ptr n true c := by
    simp only [H.eager] at he
    cases hk : p.kind with
    | ptr n t c =>
      rw [hk] at he
      cases (show t = true from he)
      exact ⟨n, c, rfl⟩
    | _ => rw [hk] at he; cases he
  obtain ⟨n, c, hk⟩ := hkind
  have htk : (H.cls p s u).arg.takes = [0] := by
    show (match p.kind with | .ptr _ true _ => [0] | _ => []) = [0]
    rw [hk]
  have hinc : (H.cls p s u).inc = c := by
    show (match p.kind with | .ptr _ true (some t) => some t | _ => none) = c
    rw [hk]
    cases c <;> rfl
  have hsn : s = ptrSnip p n true c num := by
    unfold Par.snip at hs
    rw [hk] at hs
    cases hs
    rfl
  have h0 : declEff (H.cls p s u).arg.d k = 0 := declEff_zero _ (f.vars hd) k
  rw [done_balance _ _ _ _ (fun x hx => cls_unit s p.name u x hx), h0, htk]
  have hrest : ∀ l : List S, (∀ x ∈ l, x ∈ s.before) → (∀ x ∈ l, ∀ t, x ≠ S.incref t) → (∀ x ∈ l, ∀ l n, x ≠ S.chain l n) →
      sumEff (opEff (H.cls p s u).inc) (l.flatMap (S.tops s.pyPiece s.valPiece)) k = 0 := by
    intro l hsub h1 h2
    refine sumEff_flatMap _ _ _ _ (fun x hx => sumEff_zero _ _ ?_ k)
    refine tops_zero s.pyPiece s.valPiece _ hi x (h1 x hx) ?_ (fun l n h => absurd h (h2 x hx l n))
    rintro e rfl
    exact valPiece_var (f.set e (hsub _ hx))
  have hout : outEff (H.cls p s u).arg.d.out k = 0 := rfl
  have hops : ops (H.cls p s u).arg.d = s.before.flatMap (S.tops s.pyPiece s.valPiece) := cls_ops s p.name u
  have hin : (H.cls p s u).arg.inc = (H.cls p s u).inc := rfl
  rw [hout, hops, hin]
  cases c with
  | none =>
    have hcl : s.clearAfter = true := by
      subst hsn
      cases hf : p.fromSelf <;> simp [ptrSnip, hf]
    have hp : posts (H.cls p s u).arg.d = _ := clear_posts s p.name u hcl
    have h1 := hrest s.before (fun _ h => h) (fun x hx t ht => by
        subst ht
        obtain ⟨n', hn'⟩ := f.incref t hx
        rw [hk] at hn'
        cases hn') (fun x hx l m hl => by
        subst hl
        exact f.chain l m hx n true none hk)
    rw [h1, hp, clear_eff _ hinc s u (fun t ht => (hu t ht).1) k]
    have := one_neg k 0
    omega
  | some t =>
    have hcl : s.clearAfter = false := by
      subst hsn
      cases hf : p.fromSelf <;> simp [ptrSnip, hf]
    have hp : posts (H.cls p s u).arg.d = _ := noclear_posts s p.name u hcl
    obtain ⟨l, hl, h1, h2⟩ := ptr_before p n t num
    rw [← hsn] at hl
    have h3 := hrest l (fun x hx => by rw [hl]; exact List.mem_append_left _ hx) h1 h2
    rw [hl, List.flatMap_append, sumEff_append, h3, hp]
    rw [List.flatMap_cons, List.flatMap_nil, List.append_nil, hinc, incref_eff t _ _ (hi t hinc) k, sumEff_nil]
    have := one_neg k 0
    omega

/-! ## Results -/

theorem ret_clean (r : RH) (h : r.Plain) : r.ret.resultEff = 0 ∧ ∀ i, r.ret.varEff i = 0 := by
  cases r with
  | void => exact ⟨rfl, fun _ => rfl⟩
  | scalar f =>
    refine ⟨?_, fun _ => rfl⟩
    show (0 : Int) + 0 + (if f = "N".toList ∧ "retval".toList = "retval".toList then -1 else 0) = 0
    rw [if_neg (fun x => h x.1)]
    rfl
  | char => exact ⟨rfl, fun _ => rfl⟩
  | cstring c f b =>
    cases b with
    | false => exact ⟨rfl, fun _ => rfl⟩
    | true => exact ⟨rfl, fun _ => rfl⟩
  | string s => exact ⟨rfl, fun _ => rfl⟩
  | pyObject o =>
    cases o with
    | false => exact ⟨by decide, fun _ => rfl⟩
    | true => exact ⟨by decide, fun _ => rfl⟩
  | container c f ps pt s => exact ⟨rfl, fun i => given_new i 1⟩
  | cls c s r cr rg po =>
    refine ⟨?_, ?_⟩
    · have : (RH.cls c s r cr rg po).ret.d.ops.contains (.add [tx "free(retval);"]) = false := by
        have : ∀ x ∈ (RH.cls c s r cr rg po).ret.d.ops, x ≠ .add [tx "free(retval);"] := by
          intro x hx
          have hx : x ∈ List.map ROp.write _ := hx
          obtain ⟨t, _, rfl⟩ := List.mem_map.1 hx
          nofun
        simpa using fun h => this _ h rfl
      unfold Ret.resultEff
      rw [this]
      rfl
    · intro k
      have hsum : sumEff ropEff (RH.cls c s r cr rg po).ret.d.ops k = one 0 1 k := by
        have ho : (RH.cls c s r cr rg po).ret.d.ops = ((allocTmpl c r ++ (if c.subclassing then
          [[.var 0, tx "->inst_dict = NULL;"]] else []) ++
          [.var 0, tx "->flags = PYBINDGEN_WRAPPER_FLAG_NONE;"] :: cr :: rg ++ po : List Tmpl)).map ROp.write := rfl
        rw [ho]
        show ropEff _ k + sumEff ropEff ((r ++ (if c.subclassing then
          [[.var 0, tx "->inst_dict = NULL;"]] else []) ++
          [.var 0, tx "->flags = PYBINDGEN_WRAPPER_FLAG_NONE;"] :: cr :: rg ++ po : List Tmpl).map ROp.write) k = _
        rw [sumEff_zero]
        · rw [Int.add_zero]
          show varEff 0 (if c.subclassing then " = PyObject_GC_New(" else " = PyObject_New(").toList _ k = one 0 1 k
          cases c.subclassing <;> rfl
        · intro o ho
          obtain ⟨t, ht, rfl⟩ := List.mem_map.1 ho
          show writeEff none t = zero
          simp only [List.mem_append, List.mem_cons] at ht
          rcases ht with (((ht | ht) | rfl | rfl | ht) | ht)
          · exact h t (by simp [ht])
          · cases hc : c.subclassing with
            | false => rw [hc] at ht; cases ht
            | true => rw [hc] at ht; cases List.mem_singleton.1 ht; rfl
          · rfl
          · exact h _ (by simp)
          · exact h t (by simp [ht])
          · exact h t (by simp [ht])
      unfold Ret.varEff
      rw [hsum]
      show one 0 1 k + one 0 (-1) k = 0
      unfold one
      split <;> decide


/-! ## The theorems -/

theorem quiet_of (h : H) (hp : h.Plain) (he : h.eager = false) : Quiet h.arg := by
  cases h with
  | scalar s => exact scalar_quiet s hp
  | bool t n d => exact bool_quiet t n d
  | boolRef t n i o p => exact boolRef_quiet t n i o p
  | cstring t n d => exact cstring_quiet t n d hp
  | char t n d => exact char_quiet t n d hp
  | stdString n d => exact stdString_quiet n d
  | stdStringRef n i o d => exact stdStringRef_quiet n i o d
  | stdStringPtr n i o t =>
    cases (show t = false from he)
    exact stdStringPtr_quiet n i o
  | glib n d => cases he
  | glibRef n i o =>
    cases (show i = false from he)
    exact glibRef_quiet n o
  | glibPtr n i o t =>
    have he : (i || t) = false := he
    cases i
    · cases t
      · exact glibPtr_quiet n o
      · cases he
    · cases he
  | pyObject c n t =>
    cases (show t = false from he)
    exact pyObject_quiet c n
  | container f c ps pt s n i o d => exact container_quiet f c ps pt s n i o d hp
  | containerPtrIn f c n t => exact containerPtrIn_quiet f c n t
  | containerPtrOut f ps pt s n => cases he
  | array c n l i o e g m => exact array_quiet c n l i o e g m
  | refOut c n r cr rg po => cases he
  | cls p s u => exact cls_quiet p s u hp he

/-- **C99 (partial: parameters nothing is acquired for before the call).**  However the call ends — arguments of the wrong
number or type, a refused value, an exception of the C++ function, or the result — everything acquired has been freed,
handed over or returned. -/
theorem C99_balanced_partial (l : List (H × Bool)) (r : RH) (hp : ∀ x ∈ l, x.1.Plain) (hr : r.Plain)
    (he : ∀ x ∈ l, x.1.eager = false) (e : End) : Clean l r e := by
  refine ⟨?_, fun _ => ret_clean r hr⟩
  intro pos h given hx i
  have hm := List.mem_of_getElem? hx
  exact quiet_balance (quiet_of h (hp _ hm) (he _ hm)) given pos e i

/-- **C99 for calls that return (partial: no `Glib::ustring` read from Python).**  Whatever the function takes over, what the
wrapper has acquired is handed over or put into the result exactly once. -/
theorem C99_success_partial (l : List (H × Bool)) (r : RH) (hp : ∀ x ∈ l, x.1.Plain) (hr : r.Plain)
    (hg : ∀ x ∈ l, x.1.glibIn = false) : Clean l r .done := by
  refine ⟨?_, fun _ => ret_clean r hr⟩
  intro pos h given hx k
  have hm := List.mem_of_getElem? hx
  have hp := hp _ hm
  have hg := hg _ hm
  cases he : h.eager with
  | false => exact quiet_balance (quiet_of h hp he) given pos .done k
  | true =>
    cases h with
    | stdStringPtr n i o t =>
      cases (show t = true from he)
      exact stdStringPtr_done n i o given pos k
    | glib n d => cases hg
    | glibRef n i o =>
      cases (show i = true from he)
      cases hg
    | glibPtr n i o t =>
      cases (show i = false from hg)
      cases (show t = true from he)
      exact glibPtr_done n o given pos k
    | pyObject c n t =>
      cases (show t = true from he)
      exact pyObject_done c n given pos k
    | containerPtrOut f ps pt s n => exact containerPtrOut_done f ps pt s n given pos k
    | refOut c n r cr rg po => exact refOut_done c n r cr rg po hp given pos k
    | cls p s u => exact cls_done p s u hp he given pos k
    | _ => cases he

/-! ### Where it fails -/

/-- A `Glib::ustring` parameter leaves the buffer `PyArg_ParseTuple` allocates behind, in every call that gives it an
argument and gets past the parsing. -/
theorem C99_ustring_counterexample (n : Str) (d : Option Str) (pos : Nat) (e : End) (he : e ≠ .parse) :
    (H.glib n d).arg.balance true pos e 0 = 1 := by
  have h1 : (H.glib n d).arg.parsed true e 0 = 1 := by
    cases e with
    | parse => exact absurd rfl he
    | before k j => rfl
    | threw => rfl
    | done => rfl
  have h2 : ∀ x, sumEff (opEff (H.glib n d).arg.inc) ((H.glib n d).arg.executed pos x) 0 = 0 := by
    intro x
    refine sumEff_zero _ _ (fun o ho => ?_) 0
    have : o ∈ ([] : List TOp) := executed_sub _ pos x o ho
    cases this
  unfold Arg.balance
  rw [h1, h2]
  have h3 : declEff (H.glib n d).arg.d 0 = 0 := by cases d <;> rfl
  rw [h3]
  cases e <;> rfl

/-- A string created for the function is lost if the arguments are refused, or a later one is. -/
theorem C99_transfer_string_counterexample (n : Str) (i o given : Bool) (pos k j : Nat) :
    (H.stdStringPtr n i o true).arg.balance given pos .parse 2 = 1 ∧
    (H.stdStringPtr n i o true).arg.balance given pos (.before k j) 2 = 1 := by
  refine ⟨?_, ?_⟩
  · rfl
  · have h1 : (H.stdStringPtr n i o true).arg.parsed given (.before k j) 2 = 0 := by
      cases i <;> cases given <;> rfl
    have h2 : sumEff (opEff (H.stdStringPtr n i o true).arg.inc) ((H.stdStringPtr n i o true).arg.executed pos (.before k j)) 2 = 0 := by
      refine sumEff_zero _ _ (fun x hx => ?_) 2
      have hx : x ∈ ops (H.stdStringPtr n i o true).arg.d := executed_sub _ pos _ x hx
      cases i with
      | false => cases hx
      | true => cases List.mem_singleton.1 hx; rfl
    unfold Arg.balance
    rw [h1, h2]
    rfl

/-- An output container is lost whenever the call does not return. -/
theorem C99_container_counterexample (f ps pt s n : Str) (given : Bool) (pos : Nat) (e : End) (he : e ≠ .done) :
    (H.containerPtrOut f ps pt s n).arg.balance given pos e 0 = 1 := by
  have h2 : sumEff (opEff none) ((H.containerPtrOut f ps pt s n).arg.executed pos e) 0 = 0 := by
    refine sumEff_zero _ _ (fun x hx => ?_) 0
    have : x ∈ ([] : List TOp) := executed_sub _ pos e x hx
    cases this
  have h3 : (H.containerPtrOut f ps pt s n).arg.parsed given e 0 = 0 := by cases e <;> rfl
  unfold Arg.balance
  rw [h3, if_neg he]
  show 1 + 0 + sumEff (opEff none) ((H.containerPtrOut f ps pt s n).arg.executed pos e) 0 + _ + 0 = 1
  rw [h2]
  cases e <;> rfl

/-- The reference taken for a `PyObject*` the function is to own is lost if a later argument is refused. -/
theorem C99_pyobject_counterexample (c n : Str) (given : Bool) (pos k j : Nat) (hk : pos < k) :
    (H.pyObject c n true).arg.balance given pos (.before k j) 0 = 1 := by
  have h1 : (H.pyObject c n true).arg.executed pos (.before k j) = ops (H.pyObject c n true).arg.d := if_pos hk
  have h2 : (H.pyObject c n true).arg.parsed given (.before k j) 0 = 0 := by cases given <;> rfl
  unfold Arg.balance
  rw [h1, h2]
  rfl

/-- The wrapper made for an output reference is lost if a later argument is refused or the function throws. -/
theorem C99_out_reference_counterexample (c : Returns.RCls) (n : Str) (r : List Tmpl) (cr : Tmpl) (rg po : List Tmpl)
    (h : (H.refOut c n r cr rg po).Plain) (given : Bool) (pos : Nat) :
    (H.refOut c n r cr rg po).arg.balance given pos .threw 0 = 1 ∧
    ∀ k j, pos < k → (H.refOut c n r cr rg po).arg.balance given pos (.before k j) 0 = 1 := by
  have h2 : sumEff (opEff none) (ops (H.refOut c n r cr rg po).arg.d) 0 = 1 := by
    have ho : ops (H.refOut c n r cr rg po).arg.d = (allocTmpl c r ++ cr :: rg ++ po).map TOp.write := List.append_nil _
    rw [ho]
    show opEff none _ 0 + sumEff (opEff none) ((r ++ cr :: rg ++ po).map TOp.write) 0 = 1
    rw [sumEff_zero]
    · show varEff 0 (if c.subclassing then " = PyObject_GC_New(" else " = PyObject_New(").toList _ 0 + 0 = 1
      cases c.subclassing <;> rfl
    · intro o ho
      obtain ⟨t, ht, rfl⟩ := List.mem_map.1 ho
      exact h t ht
  refine ⟨?_, fun k j hk => ?_⟩
  · unfold Arg.balance
    show 0 + 0 + sumEff (opEff none) (ops (H.refOut c n r cr rg po).arg.d) 0 + 0 + 0 = 1
    rw [h2]
    rfl
  · have he : (H.refOut c n r cr rg po).arg.executed pos (.before k j) = ops (H.refOut c n r cr rg po).arg.d := if_pos hk
    unfold Arg.balance
    rw [he]
    show 0 + 0 + sumEff (opEff none) (ops (H.refOut c n r cr rg po).arg.d) 0 + 0 + 0 = 1
    rw [h2]
    rfl

/-- An object handed to a function that throws: the function owns it, and so does the wrapper still. -/
theorem C99_thrown_transfer_counterexample (p : Par) (nullOk : Bool) (num : Nat) (u : Option Str)
    (hk : p.kind = .ptr nullOk true none) (hd : ∀ d, p.dflt = some d → isNew d = false) (given : Bool) (pos : Nat) :
    (H.cls p (ptrSnip p nullOk true none num) u).arg.balance given pos .threw 0 = -1 := by
  have f := ptr_facts p nullOk true none num hk
  have hinc : (H.cls p (ptrSnip p nullOk true none num) u).arg.inc = none := by
    show (match p.kind with | .ptr _ true (some t) => some t | _ => none) = none
    rw [hk]
  have htk : (H.cls p (ptrSnip p nullOk true none num) u).arg.takes = [0] := by
    show (match p.kind with | .ptr _ true _ => [0] | _ => []) = [0]
    rw [hk]
  have h0 : declEff (H.cls p (ptrSnip p nullOk true none num) u).arg.d 0 = 0 := declEff_zero _ (f.vars hd) 0
  have h1 : sumEff (opEff (H.cls p (ptrSnip p nullOk true none num) u).arg.inc)
      (ops (H.cls p (ptrSnip p nullOk true none num) u).arg.d) 0 = 0 := by
    rw [hinc]
    have hops : ops (H.cls p (ptrSnip p nullOk true none num) u).arg.d = _ := cls_ops _ p.name u
    rw [hops]
    refine sumEff_flatMap _ _ _ _ (fun x hx => sumEff_zero _ _ ?_ 0)
    refine tops_zero _ _ none (fun _ h => nomatch h) x ?_ ?_ (fun _ _ _ => rfl)
    · rintro t rfl
      obtain ⟨n', hn'⟩ := f.incref t hx
      rw [hk] at hn'
      cases hn'
    · rintro e rfl
      exact valPiece_var (f.set e hx)
  have h2 : (H.cls p (ptrSnip p nullOk true none num) u).arg.parsed given .threw 0 = 0 := by
    unfold Arg.parsed
    cases hu : (H.cls p (ptrSnip p nullOk true none num) u).arg.d.unit with
    | none => rfl
    | some x =>
      have := unitEff_zero x (cls_unit _ p.name u x hu) 0
      cases given <;> simp [this]
  have he : (H.cls p (ptrSnip p nullOk true none num) u).arg.executed pos .threw =
    ops (H.cls p (ptrSnip p nullOk true none num) u).arg.d := rfl
  unfold Arg.balance
  rw [h0, h2, he, h1, htk]
  rfl

/-! ### Non-vacuity: `PyObject *f(std::string &s, PyObject *o, K *k, V *v)`, `o` and `k` with transfer, `v` out. -/

def kK : K := ⟨0, "K".toList, "ns::K".toList, "PyK".toList, "PyK_Type".toList⟩

def kPar : Par := { kind := .ptr true true none, k := kK, name := "k".toList }

def exCall : List (H × Bool) :=
  [(.stdStringRef "s".toList true true none, true), (.pyObject "PyObject*".toList "o".toList true, true),
   (.cls kPar (ptrSnip kPar true true none 3) (some "PyK_wrapper_registry.erase((void *) k->obj);".toList), true),
   (.containerPtrOut "V".toList "PyV".toList "PyV_Type".toList "V".toList "v".toList, false)]

theorem exCall_plain : ∀ x ∈ exCall, x.1.Plain := by
  intro x hx
  rcases List.mem_cons.1 hx with rfl | hx
  · trivial
  rcases List.mem_cons.1 hx with rfl | hx
  · trivial
  rcases List.mem_cons.1 hx with rfl | hx
  · refine ⟨⟨3, rfl⟩, nofun, ?_, nofun⟩
    intro t ht
    cases ht
    refine ⟨by decide, nofun⟩
  · cases List.mem_singleton.1 hx
    trivial

example : Clean exCall (.pyObject true) .done :=
  C99_success_partial exCall _ exCall_plain trivial (by decide)

/-- Only the string: the call is clean however it ends. -/
example (e : End) : Clean (exCall.take 1) (.cstring "char *".toList "f".toList true) e :=
  C99_balanced_partial _ (.cstring _ _ true) (fun x hx => exCall_plain x (List.mem_of_mem_take hx)) trivial (by decide) e

end Verif.Ledger
