import Verif.Parser.MemberProps

/-!
# C88 and C89 for whole classes

C88: operators and members, each registered as declared or reported.  C89: whether a class can be constructed without
arguments or by copying.
-/
namespace Verif.Scan
open Verif Verif.Pygen
open Verif.Annot (ODict)

/-! ## Operators -/

/-- What an operator means for a class: writing to a stream, comparing two objects of the class, arithmetic with an object
of the class on the left, negation. -/
inductive OpMeans (num : Str → Option Int) (o : OpDecl) : Line → Prop where
  | stream {a b : OpArg} (symbol : o.symbol = "<<".toList) (ret : o.retOstream = true) (free : o.isMember = false)
      (args : o.args = [a, b]) (left : a.ostream = true) (right : b.convertible = true) : OpMeans num o .stream
  | cmp {a b : OpArg} (symbol : o.symbol ∈ ["==", "!=", "<", "<=", ">", ">="].map String.toList)
      (args : o.args = [a, b]) (left : a.convertible = true) (right : b.convertible = true) : OpMeans num o (.cmp o.symbol)
  | binary {a b : OpArg} {result arg : Str} {p : Spec} {ws : List Warn} (symbol : o.symbol ∈ ["+", "-", "/", "*"].map String.toList)
      (args : o.args = [a, b]) (left : a.convertible = true) (ret : o.retCls = some result) (cls : a.cls = some arg)
      (right : lookupParameter num b.type "right".toList (annsOf o.params "right".toList) none = .ok (p, ws)) :
      OpMeans num o (.binop o.symbol result arg p)
  | inplace {a b : OpArg} {p : Spec} {ws : List Warn} (symbol : o.symbol ∈ ["+=", "-=", "/=", "*="].map String.toList)
      (args : o.args = [a, b]) (left : a.convertible = true) (ret : o.retCls.isSome = true) (cls : a.cls.isSome = true)
      (right : lookupParameter num b.type "right".toList (annsOf o.params "right".toList) none = .ok (p, ws)) :
      OpMeans num o (.inplace o.symbol p)
  | neg {a : OpArg} (symbol : o.symbol = "-".toList) (args : o.args = [a]) (left : a.convertible = true)
      (ret : o.retCls.isSome = true) (cls : a.cls.isSome = true) : OpMeans num o (.unop o.symbol)

/-- The right operand has a known type. -/
def OpResolves (env : Env) : Line → Prop
  | .binop _ _ _ p => env.par p = .ok
  | .inplace _ p => env.par p = .ok
  | _ => True

/-- What happens to an operator: it is registered exactly as what it means. -/
structure OpHandled (env : Env) (o : OpDecl) (evs : List Ev) : Prop where
  iff : ∀ l, Act.reg l ∈ acts evs ↔ OpMeans env.num o l ∧ OpResolves env l
  once : (acts evs).length ≤ 1
  told : ∀ l, OpMeans env.num o l → ¬ OpResolves env l → ∃ w, Ev.warn w ∈ evs

/-- Symbols fall into different groups. -/
theorem cmp_not {s : Str} (h : s ∈ ["==", "!=", "<", "<=", ">", ">="].map String.toList) :
    s ≠ "<<".toList ∧ s ∉ ["+", "-", "/", "*"].map String.toList ∧ s ∉ ["+=", "-=", "/=", "*="].map String.toList ∧
    s ≠ "-".toList := by
  simp only [List.map_cons, List.map_nil, List.mem_cons, List.not_mem_nil, or_false] at h
  rcases h with rfl | rfl | rfl | rfl | rfl | rfl <;> decide

theorem shl_not {s : Str} (h : s = "<<".toList) :
    s ∉ ["==", "!=", "<", "<=", ">", ">="].map String.toList ∧ s ∉ ["+", "-", "/", "*"].map String.toList ∧
    s ∉ ["+=", "-=", "/=", "*="].map String.toList ∧ s ≠ "-".toList := by
  subst h; decide

theorem arith_not {s : Str} (h : s ∈ ["+", "-", "/", "*"].map String.toList) : s ∉ ["+=", "-=", "/=", "*="].map String.toList := by
  simp only [List.map_cons, List.map_nil, List.mem_cons, List.not_mem_nil, or_false] at h
  rcases h with rfl | rfl | rfl | rfl <;> decide

theorem neg_arith : "-".toList ∈ ["+", "-", "/", "*"].map String.toList := by decide

/-- A registration that is the only meaning. -/
theorem handled_one {env : Env} {o : OpDecl} {evs : List Ev} {l : Line} (ha : acts evs = [.reg l])
    (hm : OpMeans env.num o l) (hr : OpResolves env l) (hu : ∀ l', OpMeans env.num o l' → l' = l) : OpHandled env o evs where
  iff l' := by
    rw [ha, List.mem_singleton]
    constructor
    · intro h; cases h; exact ⟨hm, hr⟩
    · rintro ⟨h, _⟩; rw [hu _ h]
  once := by rw [ha]; exact Nat.le_refl _
  told l' h hn := by rw [hu _ h] at hn; exact absurd hr hn

/-- No registration because there is no meaning. -/
theorem handled_none {env : Env} {o : OpDecl} {evs : List Ev} (ha : acts evs = [])
    (hu : ∀ l', ¬ OpMeans env.num o l') : OpHandled env o evs where
  iff l' := by
    rw [ha]
    exact ⟨fun h => (nomatch h), fun h => absurd h.1 (hu l')⟩
  once := by rw [ha]; exact Nat.zero_le _
  told l' h := absurd h (hu l')

/-- No registration because the right operand has an unknown type. -/
theorem handled_failed {env : Env} {o : OpDecl} {evs : List Ev} (ha : acts evs = []) (hw : ∃ w, Ev.warn w ∈ evs)
    (hu : ∀ l', OpMeans env.num o l' → ¬ OpResolves env l') : OpHandled env o evs where
  iff l' := by
    rw [ha]
    exact ⟨fun h => (nomatch h), fun h => absurd h.2 (hu l' h.1)⟩
  once := by rw [ha]; exact Nat.zero_le _
  told _ _ _ := hw

theorem scanOperator_handled {env : Env} {o : OpDecl} {evs : List Ev} (hlen : o.args.length ≤ 2)
    (h : scanOperator env o = .ok evs) : OpHandled env o evs := by
  unfold scanOperator at h
  simp only at h
  generalize hna : (if o.isMember = true then o.args.length - 1 else o.args.length) = nargs at h
  split at h
  · rename_i hs
    obtain ⟨h1, h2, h3, h4, h5⟩ := hs
    cases h
    match ha : o.args with
    | [] => rw [ha] at h4; simp at h4
    | [a] => rw [ha] at h5; simp at h5
    | [a, b] =>
      rw [ha] at h4 h5
      have hm : o.isMember = false := by
        cases hm : o.isMember with
        | false => rfl
        | true => rw [hm, h3, ha] at hna; simp at hna
      refine handled_one rfl (.stream h1 h2 hm ha (by simpa using h4) (by simpa using h5)) trivial ?_
      intro l' hl
      obtain ⟨n1, n2, n3, n4⟩ := shl_not h1
      cases hl with
      | stream => rfl
      | cmp s => exact absurd s n1
      | binary s => exact absurd s n2
      | inplace s => exact absurd s n3
      | neg s => exact absurd s n4
    | _ :: _ :: _ :: _ => rw [ha] at hlen; simp at hlen
  rename_i notStream
  have notStream : ¬ OpMeans env.num o .stream := by
    intro hl
    cases hl with
    | stream s r f a l r' =>
      apply notStream
      rw [a, f] at hna
      rw [a, ← hna]
      simp [s, r, l, r']
  split at h
  · rename_i hs
    obtain ⟨h1, h2, h3, h4⟩ := hs
    cases h
    match ha : o.args with
    | [] => rw [ha] at h2; simp at h2
    | [a] => rw [ha] at h2; simp at h2
    | [a, b] =>
      rw [ha] at h3 h4
      refine handled_one rfl (.cmp h1 ha (by simpa using h3) (by simpa using h4)) trivial ?_
      intro l' hl
      obtain ⟨n1, n2, n3, n4⟩ := cmp_not h1
      cases hl with
      | stream s => exact absurd s n1
      | cmp s => rfl
      | binary s => exact absurd s n2
      | inplace s => exact absurd s n3
      | neg s => exact absurd s n4
    | _ :: _ :: _ :: _ => rw [ha] at h2; simp at h2
  rename_i notCmp
  have notCmp : ∀ x, ¬ OpMeans env.num o (.cmp x) := by
    intro x hl
    cases hl with
    | cmp s a l r =>
      apply notCmp
      refine ⟨s, ?_⟩
      rw [a]
      simp [l, r]
  clear hlen
  match ha : o.args with
  | [] => rw [ha] at h; cases h
  | a :: rest =>
    rw [ha] at h
    simp only at h
    split at h
    · rename_i hc
      cases h
      refine handled_none rfl ?_
      intro l' hl
      cases hl with
      | stream s r f a' => exact notStream (.stream s r f a' ‹_› ‹_›)
      | cmp s a' l r => exact notCmp _ (.cmp s a' l r)
      | binary _ a' l => rw [ha] at a'; cases a'; rw [hc] at l; cases l
      | inplace _ a' l => rw [ha] at a'; cases a'; rw [hc] at l; cases l
      | neg _ a' l => rw [ha] at a'; cases a'; rw [hc] at l; cases l
    rename_i hc
    have hc : a.convertible = true := by simpa using hc
    split at h
    · rename_i hr
      cases h
      refine handled_none rfl ?_
      intro l' hl
      cases hl with
      | stream s r f a' => exact notStream (.stream s r f a' ‹_› ‹_›)
      | cmp s a' l r => exact notCmp _ (.cmp s a' l r)
      | binary _ a' l r => rw [hr] at r; cases r
      | inplace _ a' l r => rw [hr] at r; cases r
      | neg _ a' l r => rw [hr] at r; cases r
    rename_i ret hr
    split at h
    · rename_i hr
      cases h
      refine handled_none rfl ?_
      intro l' hl
      cases hl with
      | stream s r f a' => exact notStream (.stream s r f a' ‹_› ‹_›)
      | cmp s a' l r => exact notCmp _ (.cmp s a' l r)
      | binary _ a' l _ r => rw [ha] at a'; cases a'; rw [hr] at r; cases r
      | inplace _ a' l _ r => rw [ha] at a'; cases a'; rw [hr] at r; cases r
      | neg _ a' l _ r => rw [ha] at a'; cases a'; rw [hr] at r; cases r
    rename_i arg hcl
    match hrest : rest with
    | [b] =>
      simp only at h
      obtain ⟨⟨p, ws⟩, hp, h⟩ := bind_ok h
      have ha : o.args = [a, b] := ha
      simp only at h
      have noNeg : ∀ x, ¬ OpMeans env.num o (.unop x) := by
        intro x hl
        cases hl with
        | neg _ a' => rw [ha] at a'; cases a'
      have bin : ∀ {op r l' q}, OpMeans env.num o (.binop op r l' q) →
          Line.binop op r l' q = .binop o.symbol ret arg p ∧ o.symbol ∈ ["+", "-", "/", "*"].map String.toList := by
        intro op r l' q hl
        cases hl with
        | binary s a' _ r' c' q' =>
          rw [ha] at a'; cases a'
          rw [hr] at r'; cases r'
          rw [hcl] at c'; cases c'
          rw [hp] at q'; cases q'
          exact ⟨rfl, s⟩
      have inp : ∀ {op q}, OpMeans env.num o (.inplace op q) →
          Line.inplace op q = .inplace o.symbol p ∧ o.symbol ∈ ["+=", "-=", "/=", "*="].map String.toList := by
        intro op q hl
        cases hl with
        | inplace s a' _ r' c' q' =>
          rw [ha] at a'; cases a'
          rw [hp] at q'; cases q'
          exact ⟨rfl, s⟩
      have only : ∀ l', OpMeans env.num o l' →
          (l' = .binop o.symbol ret arg p ∧ o.symbol ∈ ["+", "-", "/", "*"].map String.toList) ∨
          (l' = .inplace o.symbol p ∧ o.symbol ∈ ["+=", "-=", "/=", "*="].map String.toList) := by
        intro l' hl
        cases hl with
        | stream s r f a' => exact absurd (.stream s r f a' ‹_› ‹_›) notStream
        | cmp s a' l r => exact absurd (.cmp s a' l r) (notCmp _)
        | binary s a' l r c q => exact Or.inl (bin (.binary s a' l r c q))
        | inplace s a' l r c q => exact Or.inr (inp (.inplace s a' l r c q))
        | neg s a' l r c => exact absurd (.neg s a' l r c) (noNeg _)
      split at h
      · rename_i hok
        cases h
        by_cases s1 : o.symbol ∈ ["+", "-", "/", "*"].map String.toList
        · have s2 := arith_not s1
          rw [if_pos s1, if_neg s2]
          refine handled_one (l := .binop o.symbol ret arg p) ?_ (.binary s1 ha hc hr hcl hp) hok ?_
          · rw [acts_append, acts_append, acts_append, acts_warns]; rfl
          · intro l' hl
            rcases only l' hl with h | h
            · exact h.1
            · exact absurd h.2 s2
        · rw [if_neg s1]
          by_cases s2 : o.symbol ∈ ["+=", "-=", "/=", "*="].map String.toList
          · rw [if_pos s2]
            refine handled_one (l := .inplace o.symbol p) ?_
              (.inplace s2 ha hc (by rw [hr]; rfl) (by rw [hcl]; rfl) hp) hok ?_
            · rw [acts_append, acts_append, acts_append, acts_warns]; rfl
            · intro l' hl
              rcases only l' hl with h | h
              · exact absurd h.2 s1
              · exact h.1
          · rw [if_neg s2]
            refine handled_none ?_ ?_
            · rw [acts_append, acts_append, acts_append, acts_warns]; rfl
            · intro l' hl
              rcases only l' hl with h | h
              · exact absurd h.2 s1
              · exact absurd h.2 s2
      · rename_i hno
        cases h
        refine handled_failed ?_ ⟨.type p, by simp⟩ ?_
        · rw [acts_append, acts_append, acts_append, acts_warns]
          by_cases s1 : o.symbol ∈ ["+", "-", "/", "*"].map String.toList <;>
            by_cases s2 : o.symbol ∈ ["+=", "-=", "/=", "*="].map String.toList
          · rw [if_pos s1, if_pos s2]; rfl
          · rw [if_pos s1, if_neg s2]; rfl
          · rw [if_neg s1, if_pos s2]; rfl
          · rw [if_neg s1, if_neg s2]; rfl
        · intro l' hl hres
          rcases only l' hl with ⟨rfl, _⟩ | ⟨rfl, _⟩
          · have hres : env.par p = .ok := hres
            rw [hno] at hres; cases hres
          · have hres : env.par p = .ok := hres
            rw [hno] at hres; cases hres
      · cases h
    | [] =>
      have ha : o.args = [a] := ha
      have only : ∀ l', OpMeans env.num o l' → l' = .unop o.symbol ∧ o.symbol = "-".toList := by
        intro l' hl
        cases hl with
        | stream s r f a' => exact absurd (.stream s r f a' ‹_› ‹_›) notStream
        | cmp s a' l r => exact absurd (.cmp s a' l r) (notCmp _)
        | binary s a' l r c q => rw [ha] at a'; cases a'
        | inplace s a' l r c q => rw [ha] at a'; cases a'
        | neg s a' l r c => exact ⟨rfl, s⟩
      simp only at h
      split at h
      · rename_i hs
        cases h
        exact handled_one rfl (.neg hs ha hc (by rw [hr]; rfl) (by rw [hcl]; rfl)) trivial (fun l' hl => (only l' hl).1)
      · rename_i hs
        cases h
        exact handled_none rfl (fun l' hl => hs (only l' hl).2)
    | b :: c :: r =>
      have ha : o.args = a :: b :: c :: r := ha
      cases h
      refine handled_none rfl ?_
      intro l' hl
      cases hl with
      | stream s r f a' => exact absurd (.stream s r f a' ‹_› ‹_›) notStream
      | cmp s a' l r => exact absurd (.cmp s a' l r) (notCmp _)
      | binary s a' l r c q => rw [ha] at a'; cases a'
      | inplace s a' l r c q => rw [ha] at a'; cases a'
      | neg s a' l r c => rw [ha] at a'; cases a'

/-! ## Whole classes -/

/-- Only an implicit default constructor or copy constructor. -/
def Implicit (evs : List Ev) : Prop := ∀ a ∈ acts evs, a = .reg (.ctor [] []) ∨ a = .reg .copyCtor

theorem scanMembers_parts {env : Env} {cls : Cls} {ms : List Member} {r : List Ev × Bool × Bool}
    (h : scanMembers env cls ms = .ok r) : ∃ parts, List.Forall₂ (Handled env cls) ms parts ∧ r.1 = parts.flatten := by
  induction ms generalizing r with
  | nil => cases h; exact ⟨[], .nil, rfl⟩
  | cons m l ih =>
    rw [scanMembers] at h
    obtain ⟨a, ha, h⟩ := bind_ok h
    obtain ⟨b, hb, rfl⟩ := map_ok h
    obtain ⟨parts, hp, he⟩ := ih hb
    exact ⟨a.1 :: parts, .cons (scanMember_handled ha) hp, by rw [List.flatten_cons, ← he]⟩

theorem scanOperators_parts {env : Env} {os : List OpDecl} {evs : List Ev} (hlen : ∀ o ∈ os, o.args.length ≤ 2)
    (h : scanOperators env os = .ok evs) : ∃ parts, List.Forall₂ (OpHandled env) os parts ∧ evs = parts.flatten := by
  induction os generalizing evs with
  | nil => cases h; exact ⟨[], .nil, rfl⟩
  | cons o l ih =>
    rw [scanOperators] at h
    obtain ⟨a, ha, h⟩ := bind_ok h
    obtain ⟨b, hb, rfl⟩ := map_ok h
    obtain ⟨parts, hp, he⟩ := ih (fun o ho => hlen o (List.mem_cons_of_mem _ ho)) hb
    exact ⟨a :: parts, .cons (scanOperator_handled (hlen o List.mem_cons_self) ha) hp, by rw [List.flatten_cons, ← he]⟩

/-- **C88**: scanning a class handles its operators and then its members one after the other; each is registered as it is
declared, or is not for Python, or cannot be registered and is reported.  Besides there are only the implicit
constructors (C89). -/
theorem C88_class_partial {env : Env} {cls : Cls} {d : ClassDecl} {evs : List Ev} (hlen : ∀ o ∈ d.operators, o.args.length ≤ 2)
    (h : scanClass env cls d = .ok evs) :
    ∃ ops parts rest, evs = ops.flatten ++ parts.flatten ++ rest ∧ List.Forall₂ (OpHandled env) d.operators ops ∧
      List.Forall₂ (Handled env cls) d.members parts ∧ Implicit rest := by
  unfold scanClass at h
  obtain ⟨o, ho, h⟩ := bind_ok h
  obtain ⟨r, hr, rfl⟩ := map_ok h
  obtain ⟨ops, h1, rfl⟩ := scanOperators_parts hlen ho
  obtain ⟨parts, h2, h3⟩ := scanMembers_parts hr
  refine ⟨ops, parts, (if (hiddenTrivial d.members || r.2.1) = false ∧ d.trivialCtor = true then
          [.act (.reg (.ctor [] [])), .item (.line (.ctor [] []))] else []) ++
        (if (hiddenCopy d.members || r.2.2) = false ∧ d.copyCtor = true then
          [.act (.reg .copyCtor), .item (.line .copyCtor)] else []), ?_, h1, h2, ?_⟩
  · rw [h3, ← List.append_assoc]
  · intro a ha
    rw [acts_append] at ha
    rcases List.mem_append.mp ha with ha | ha
    · split at ha
      · exact Or.inl (List.mem_singleton.mp ha)
      · cases ha
    · split at ha
      · exact Or.inr (List.mem_singleton.mp ha)
      · cases ha

/-- Scanning does not stop because of a member: if annotation values are well formed, nothing is annotated with an empty
comment, and handlers and methods do not raise other exceptions, there is a result. -/
example : ∃ evs, scanClass demoEnv ⟨true, []⟩ demoClass = .ok evs ∧ decide ((acts evs).length = 5) = true :=
  okAnd_iff (by decide +kernel)

example : ∀ o ∈ demoClass.operators, o.args.length ≤ 2 := by decide

/-! ## Where operators come from -/

/-- An operator as it is declared in a class, without the object it is called on. -/
structure MemberOp where
  symbol : Str
  access : Str := "public".toList
  retCls : Option Str := none
  args : List OpArg := []
  deriving DecidableEq, Repr

/-- A class with its member operators and the classes nested in it. -/
inductive OpClass where
  | mk (own : List MemberOp) (inner : List OpClass)

mutual
/-- `cls.member_operators(recursive=True)`, lines 1830-1832: those of nested classes too. -/
def OpClass.all : OpClass → List MemberOp
  | .mk own inner => own ++ allOps inner
def allOps : List OpClass → List MemberOp
  | [] => []
  | c :: l => c.all ++ allOps l
end

/-- Lines 1830-1837: public operators, with the class being scanned as first argument. -/
def memberOps (self : OpArg) (c : OpClass) : List OpDecl :=
  (c.all.filter (fun o => o.access = "public".toList)).map (fun o =>
    { symbol := o.symbol, isMember := true, retCls := o.retCls, args := self :: o.args })

def innerPlus : MemberOp := { symbol := "+".toList, retCls := some "Inner".toList, args := [{ type := "int".toList }] }

def outerSelf : OpArg := { convertible := true, cls := some "Outer".toList, type := "Outer".toList }

/-- **C88 fails** for operators of nested classes: `Outer` has no operator, but gets the one of the class nested in it. -/
theorem C88_nested_operator_counterexample :
    ∃ evs, scanOperators demoEnv (memberOps outerSelf (.mk [] [.mk [innerPlus] []])) = .ok evs ∧
      acts evs = [.reg (.binop "+".toList "Inner".toList "Outer".toList ⟨["int".toList, "right".toList], []⟩)] := by
  have h : okAnd (scanOperators demoEnv (memberOps outerSelf (.mk [] [.mk [innerPlus] []]))) (fun evs =>
      decide (acts evs = [.reg (.binop "+".toList "Inner".toList "Outer".toList ⟨["int".toList, "right".toList], []⟩)])) = true := by
    decide +kernel
  obtain ⟨evs, h1, h2⟩ := okAnd_iff h
  exact ⟨evs, h1, of_decide_eq_true h2⟩

def ignoredNeg : OpDecl where
  symbol := "-".toList
  isMember := true
  retCls := some "Outer".toList
  args := [outerSelf]
  globals := [("ignore".toList, none)]

/-- **C88 fails** for operators annotated `ignore`: they are registered like others. -/
theorem C88_ignored_operator_counterexample : ∃ evs, scanOperators demoEnv [ignoredNeg] = .ok evs ∧
    acts evs = [.reg (.unop "-".toList)] := by
  have h : okAnd (scanOperators demoEnv [ignoredNeg]) (fun evs => decide (acts evs = [.reg (.unop "-".toList)])) = true := by
    decide +kernel
  obtain ⟨evs, h1, h2⟩ := okAnd_iff h
  exact ⟨evs, h1, of_decide_eq_true h2⟩

/-- Classes without nested classes get their own operators only. -/
theorem memberOps_flat (self : OpArg) (own : List MemberOp) (o : OpDecl) :
    o ∈ memberOps self (.mk own []) ↔ ∃ p ∈ own, p.access = "public".toList ∧
      o = { symbol := p.symbol, isMember := true, retCls := p.retCls, args := self :: p.args } := by
  simp only [memberOps, OpClass.all, allOps, List.append_nil, List.mem_map, List.mem_filter, decide_eq_true_eq]
  constructor
  · rintro ⟨p, ⟨h1, h2⟩, rfl⟩; exact ⟨p, h1, h2, rfl⟩
  · rintro ⟨p, h1, h2, rfl⟩; exact ⟨p, ⟨h1, h2⟩, rfl⟩

/-! ## C89: constructors -/

/-- A default constructor among the registrations. -/
def HasDefault (l : List Act) : Prop := ∃ kw, Act.reg (.ctor [] kw) ∈ l

/-- The class has an accessible constructor without arguments. -/
def DeclaresDefault (ms : List Member) : Prop :=
  ∃ m ∈ ms, ∃ d, m.kind = .ctor d ∧ d.args = [] ∧ (d.access = "public".toList ∨ d.access = "protected".toList)

/-- What pygccxml's `has_trivial_constructor` finds: a public constructor without arguments. -/
def PublicDefault (ms : List Member) : Prop := ∃ m ∈ ms, ∃ d, m.kind = .ctor d ∧ d.args = [] ∧ d.access = "public".toList

/-- Nobody asked to leave a constructor out. -/
def NoneIgnored (cls : Cls) (ms : List Member) : Prop :=
  ∀ m ∈ ms, ∀ d, m.kind = .ctor d → some m.name ∉ cls.refMethods ∧ (ODict.get m.globals "ignore".toList).isSome = false

theorem handled_default {env : Env} {cls : Cls} {m : Member} {evs : List Ev} (h : Handled env cls m evs) :
    HasDefault (acts evs) ↔ Exposed cls m ∧ ∃ d, m.kind = .ctor d ∧ d.args = [] := by
  have mem : HasDefault (acts evs) ↔ ∃ kw, Act.reg (.ctor [] kw) ∈ (acts evs).filter isReg :=
    exists_congr fun kw => by simp [List.mem_filter, isReg]
  rw [mem]
  constructor
  · rintro ⟨kw, hkw⟩
    cases h with
    | left _ regs => rw [regs] at hkw; cases hkw
    | failed _ _ _ _ regs => rw [regs] at hkw; cases hkw
    | done l he hd hr regs =>
      rw [regs, List.mem_singleton] at hkw
      cases hkw
      refine ⟨he, ?_⟩
      cases hd with
      | ctor kind params => exact ⟨_, kind, List.forall₂_nil_left_iff.mp params⟩
  · rintro ⟨he, d, hk, ha⟩
    cases h with
    | left hn => exact absurd he hn
    | failed l _ hd hr =>
      exfalso
      cases hd with
      | method kind => rw [hk] at kind; cases kind
      | var kind => rw [hk] at kind; cases kind
      | ctor kind params =>
        rw [hk] at kind
        cases kind
        rw [ha] at params
        cases params
        exact hr fun p hp => (nomatch hp)
    | done l _ hd hr regs =>
      rw [regs]
      cases hd with
      | method kind => rw [hk] at kind; cases kind
      | var kind => rw [hk] at kind; cases kind
      | ctor kind params =>
        rw [hk] at kind
        cases kind
        rw [ha] at params
        cases params
        exact ⟨_, List.mem_singleton.mpr rfl⟩

theorem hasDefault_append (a b : List Act) : HasDefault (a ++ b) ↔ HasDefault a ∨ HasDefault b := by
  unfold HasDefault
  rw [← exists_or]
  exact exists_congr fun kw => List.mem_append

theorem hasDefault_parts {env : Env} {cls : Cls} {ms : List Member} {parts : List (List Ev)}
    (h : List.Forall₂ (Handled env cls) ms parts) :
    HasDefault (acts parts.flatten) ↔ ∃ m ∈ ms, Exposed cls m ∧ ∃ d, m.kind = .ctor d ∧ d.args = [] := by
  induction h with
  | nil =>
    constructor
    · rintro ⟨_, h⟩; cases h
    · rintro ⟨_, h, _⟩; cases h
  | cons h _ ih =>
    rw [List.flatten_cons, acts_append, hasDefault_append, ih, handled_default h]
    simp only [List.mem_cons, exists_eq_or_imp]

theorem hasDefault_ops {env : Env} {os : List OpDecl} {ops : List (List Ev)} (h : List.Forall₂ (OpHandled env) os ops) :
    ¬ HasDefault (acts ops.flatten) := by
  induction h with
  | nil => rintro ⟨_, h⟩; cases h
  | cons h _ ih =>
    rw [List.flatten_cons, acts_append, hasDefault_append]
    rintro (⟨kw, hk⟩ | h')
    · have := ((h.iff _).mp hk).1
      cases this
    · exact ih h'

/-- Whether the scan has seen a constructor without arguments that is not private. -/
theorem scanMembers_seen {env : Env} {cls : Cls} {ms : List Member} {r : List Ev × Bool × Bool}
    (h : scanMembers env cls ms = .ok r) :
    r.2.1 = true ↔ ∃ m ∈ ms, Exposed cls m ∧ ∃ d, m.kind = .ctor d ∧ d.args = [] := by
  induction ms generalizing r with
  | nil => cases h; simp
  | cons m l ih =>
    rw [scanMembers] at h
    obtain ⟨a, ha, h⟩ := bind_ok h
    obtain ⟨b, hb, rfl⟩ := map_ok h
    simp only [Bool.or_eq_true, ih hb, List.mem_cons, exists_eq_or_imp]
    refine or_congr ?_ Iff.rfl
    have no : (¬ Exposed cls m ∨ ∀ d, m.kind ≠ .ctor d) → a.2.1 = false →
        (a.2.1 = true ↔ Exposed cls m ∧ ∃ d, m.kind = .ctor d ∧ d.args = []) := by
      intro h1 h2
      rw [h2]
      refine ⟨fun h => (nomatch h), ?_⟩
      rintro ⟨he, d, hk, _⟩
      rcases h1 with h1 | h1
      · exact absurd he h1
      · exact absurd hk (h1 d)
    have hh := scanMember_handled ha
    unfold scanMember at ha
    split at ha
    · rename_i hn
      cases ha
      refine no (Or.inl ?_) rfl
      rintro (⟨named, _, _, _, _⟩ | ⟨named, _, _, _⟩ | ⟨named, _, _, _, _, _⟩) <;> exact named hn
    rename_i hn
    split at ha
    · rename_i hw
      cases ha
      refine no (Or.inl ?_) rfl
      rintro (⟨_, w, _, _, _⟩ | ⟨_, w, _, _⟩ | ⟨_, w, _, _, _, _⟩) <;> (rw [hw] at w; cases w)
    rename_i hw
    have hw : (ODict.get m.globals "ignore".toList).isSome = false := by simpa using hw
    split at ha
    · rename_i d hk
      obtain ⟨evs, he, rfl⟩ := map_ok ha
      exact no (Or.inr fun d' h => by rw [hk] at h; cases h) rfl
    · rename_i d hk
      unfold scanCtor at ha
      split at ha
      · rename_i hacc
        cases ha
        refine no (Or.inl ?_) rfl
        rintro (⟨_, _, kind, _, _⟩ | ⟨_, _, kind, acc⟩ | ⟨_, _, kind, _, _, _⟩)
        · rw [hk] at kind; cases kind
        · rw [hk] at kind
          cases kind
          rcases acc with p | p
          · exact hacc.1 p
          · exact hacc.2 p
        · rw [hk] at kind; cases kind
      rename_i hacc
      have hexp : Exposed cls m := by
        refine .ctor hn hw hk ?_
        by_cases h : d.access = "public".toList
        · exact Or.inl h
        · exact Or.inr (Classical.byContradiction fun h' => hacc ⟨h, h'⟩)
      obtain ⟨pl, hps, ha⟩ := bind_ok ha
      obtain ⟨c, hc, ha⟩ := bind_ok ha
      simp only at ha
      obtain ⟨q, hq, rfl⟩ := map_ok ha
      have : (d.args.isEmpty = true) ↔ (Exposed cls m ∧ ∃ d, m.kind = .ctor d ∧ d.args = []) := by
        rw [List.isEmpty_iff]
        constructor
        · intro h; exact ⟨hexp, d, hk, h⟩
        · rintro ⟨_, d', hk', h⟩
          rw [hk] at hk'
          cases hk'
          exact h
      split <;> exact this
    · rename_i d hk
      obtain ⟨evs, he, rfl⟩ := map_ok ha
      exact no (Or.inr fun d' h => by rw [hk] at h; cases h) rfl
    · rename_i hk
      cases ha
      exact no (Or.inr fun d' h => by rw [hk] at h; cases h) rfl

/-- **C89**, without arguments: if no constructor is to be left out, the class can be constructed without arguments in
Python exactly if it has an accessible constructor without arguments. -/
theorem C89_default_partial {env : Env} {cls : Cls} {d : ClassDecl} {evs : List Ev} (hlen : ∀ o ∈ d.operators, o.args.length ≤ 2)
    (hp : d.trivialCtor = true ↔ PublicDefault d.members) (hi : NoneIgnored cls d.members)
    (h : scanClass env cls d = .ok evs) : HasDefault (acts evs) ↔ DeclaresDefault d.members := by
  unfold scanClass at h
  obtain ⟨o, ho, h⟩ := bind_ok h
  obtain ⟨r, hr, rfl⟩ := map_ok h
  obtain ⟨ops, h1, rfl⟩ := scanOperators_parts hlen ho
  obtain ⟨parts, h2, h3⟩ := scanMembers_parts hr
  have seen := scanMembers_seen hr
  have exposed : ∀ m ∈ d.members, ∀ d', m.kind = .ctor d' →
      (d'.access = "public".toList ∨ d'.access = "protected".toList) → Exposed cls m :=
    fun m hm d' hk hacc => .ctor (hi m hm d' hk).1 (hi m hm d' hk).2 hk hacc
  have toDecl : (∃ m ∈ d.members, Exposed cls m ∧ ∃ d, m.kind = .ctor d ∧ d.args = []) → DeclaresDefault d.members := by
    rintro ⟨m, hm, he, d', hk, ha⟩
    cases he with
    | method _ _ kind => rw [hk] at kind; cases kind
    | var _ _ kind => rw [hk] at kind; cases kind
    | ctor _ _ kind acc => rw [hk] at kind; cases kind; exact ⟨m, hm, d', hk, ha, acc⟩
  rw [h3, acts_append, acts_append, acts_append, hasDefault_append, hasDefault_append, hasDefault_append, hasDefault_parts h2]
  constructor
  · rintro (((h | h) | h) | h)
    · exact absurd h (hasDefault_ops h1)
    · exact toDecl h
    · split at h
      · rename_i hc
        obtain ⟨m, hm, d', hk, ha, hacc⟩ := hp.mp hc.2
        exact ⟨m, hm, d', hk, ha, Or.inl hacc⟩
      · obtain ⟨_, h⟩ := h; cases h
    · split at h
      · obtain ⟨_, h⟩ := h; exact absurd (List.mem_singleton.mp h) (by intro h; cases h)
      · obtain ⟨_, h⟩ := h; cases h
  · rintro ⟨m, hm, d', hk, ha, hacc⟩
    exact Or.inl (Or.inl (Or.inr ⟨m, hm, exposed m hm d' hk hacc, d', hk, ha⟩))

/-- A copy constructor among the registrations. -/
def HasCopy (env : Env) (l : List Act) : Prop :=
  Act.reg .copyCtor ∈ l ∨ ∃ p kw, env.selfParam p = true ∧ Act.reg (.ctor [p] kw) ∈ l

/-- The class has an accessible copy constructor. -/
def DeclaresCopy (ms : List Member) : Prop :=
  ∃ m ∈ ms, ∃ d a, m.kind = .ctor d ∧ d.args = [a] ∧ d.selfRef = true ∧
    (d.access = "public".toList ∨ d.access = "protected".toList)

/-- What pygccxml's `has_copy_constructor` finds. -/
def PublicCopy (ms : List Member) : Prop :=
  ∃ m ∈ ms, ∃ d a, m.kind = .ctor d ∧ d.args = [a] ∧ d.selfRef = true ∧ d.access = "public".toList

/-- Parameters that are references to the class are handled by its own handler, and only those. -/
def SelfHandled (env : Env) (ms : List Member) : Prop :=
  ∀ m ∈ ms, ∀ d a p, m.kind = .ctor d → d.args = [a] → p.args = [a.type, a.name] →
    env.selfParam p = d.selfRef ∧ (d.selfRef = true → env.par p = .ok)

theorem handled_copy {env : Env} {cls : Cls} {m : Member} {evs : List Ev} (h : Handled env cls m evs)
    (hs : SelfHandled env [m]) :
    HasCopy env (acts evs) ↔ Exposed cls m ∧ ∃ d a, m.kind = .ctor d ∧ d.args = [a] ∧ d.selfRef = true := by
  have mem : HasCopy env (acts evs) ↔ HasCopy env ((acts evs).filter isReg) := by
    simp [HasCopy, List.mem_filter, isReg]
  have hs := hs m (List.mem_singleton.mpr rfl)
  rw [mem]
  constructor
  · intro hc
    cases h with
    | left _ regs => rw [regs] at hc; rcases hc with h | ⟨_, _, _, h⟩ <;> cases h
    | failed _ _ _ _ regs => rw [regs] at hc; rcases hc with h | ⟨_, _, _, h⟩ <;> cases h
    | done l he hd hr regs =>
      rw [regs] at hc
      refine ⟨he, ?_⟩
      rcases hc with h | ⟨p, kw, hp, h⟩
      · cases List.mem_singleton.mp h; cases hd
      · cases List.mem_singleton.mp h
        cases hd with
        | ctor kind params =>
          obtain ⟨a, l, ⟨h1, _⟩, h2, h3⟩ := List.forall₂_cons_left_iff.mp params
          rw [List.forall₂_nil_left_iff] at h2
          rw [h2] at h3
          exact ⟨_, a, kind, h3, (hs _ a p kind h3 h1).1.symm.trans hp⟩
  · rintro ⟨he, d, a, hk, ha, hsr⟩
    have pars : ∀ ps, Params ps d.args → ∃ p, ps = [p] ∧ p.args = [a.type, a.name] := by
      intro ps hps
      rw [ha] at hps
      obtain ⟨p, l, ⟨h1, _⟩, h2, h3⟩ := List.forall₂_cons_right_iff.mp hps
      rw [List.forall₂_nil_right_iff] at h2
      rw [h2] at h3
      exact ⟨p, h3, h1⟩
    cases h with
    | left hn => exact absurd he hn
    | failed l _ hd hr =>
      exfalso
      cases hd with
      | method kind => rw [hk] at kind; cases kind
      | var kind => rw [hk] at kind; cases kind
      | ctor kind params =>
        rw [hk] at kind
        cases kind
        obtain ⟨p, rfl, hp⟩ := pars _ params
        refine hr fun q hq => ?_
        rw [List.mem_singleton.mp hq]
        exact (hs d a p hk ha hp).2 hsr
    | done l _ hd hr regs =>
      rw [regs]
      cases hd with
      | method kind => rw [hk] at kind; cases kind
      | var kind => rw [hk] at kind; cases kind
      | ctor kind params =>
        rw [hk] at kind
        cases kind
        obtain ⟨p, rfl, hp⟩ := pars _ params
        exact Or.inr ⟨p, _, (hs d a p hk ha hp).1.trans hsr, List.mem_singleton.mpr rfl⟩

theorem hasCopy_append (env : Env) (a b : List Act) : HasCopy env (a ++ b) ↔ HasCopy env a ∨ HasCopy env b := by
  constructor
  · rintro (h | ⟨p, kw, hp, h⟩)
    · rcases List.mem_append.mp h with h | h
      · exact Or.inl (Or.inl h)
      · exact Or.inr (Or.inl h)
    · rcases List.mem_append.mp h with h | h
      · exact Or.inl (Or.inr ⟨p, kw, hp, h⟩)
      · exact Or.inr (Or.inr ⟨p, kw, hp, h⟩)
  · rintro ((h | ⟨p, kw, hp, h⟩) | (h | ⟨p, kw, hp, h⟩))
    · exact Or.inl (List.mem_append_left _ h)
    · exact Or.inr ⟨p, kw, hp, List.mem_append_left _ h⟩
    · exact Or.inl (List.mem_append_right _ h)
    · exact Or.inr ⟨p, kw, hp, List.mem_append_right _ h⟩

theorem hasCopy_nil (env : Env) : ¬ HasCopy env [] := by
  rintro (h | ⟨_, _, _, h⟩) <;> cases h

theorem hasCopy_parts {env : Env} {cls : Cls} {ms : List Member} {parts : List (List Ev)} (hs : SelfHandled env ms)
    (h : List.Forall₂ (Handled env cls) ms parts) :
    HasCopy env (acts parts.flatten) ↔ ∃ m ∈ ms, Exposed cls m ∧ ∃ d a, m.kind = .ctor d ∧ d.args = [a] ∧ d.selfRef = true := by
  induction h with
  | nil =>
    constructor
    · intro h; exact absurd h (hasCopy_nil env)
    · rintro ⟨_, h, _⟩; cases h
  | cons h _ ih =>
    rw [List.flatten_cons, acts_append, hasCopy_append, ih (fun m hm => hs m (List.mem_cons_of_mem _ hm)),
      handled_copy h (fun m hm => by rw [List.mem_singleton.mp hm]; exact hs _ List.mem_cons_self)]
    simp only [List.mem_cons, exists_eq_or_imp]

theorem hasCopy_ops {env : Env} {os : List OpDecl} {ops : List (List Ev)} (h : List.Forall₂ (OpHandled env) os ops) :
    ¬ HasCopy env (acts ops.flatten) := by
  induction h with
  | nil => exact hasCopy_nil env
  | cons h _ ih =>
    rw [List.flatten_cons, acts_append, hasCopy_append]
    rintro ((h' | ⟨p, kw, _, h'⟩) | h')
    · have := ((h.iff _).mp h').1
      cases this
    · have := ((h.iff _).mp h').1
      cases this
    · exact ih h'

/-- **C89**, copying: if no constructor is to be left out, objects of the class can be copied in Python exactly if the class
has an accessible copy constructor. -/
theorem C89_copy_partial {env : Env} {cls : Cls} {d : ClassDecl} {evs : List Ev} (hlen : ∀ o ∈ d.operators, o.args.length ≤ 2)
    (hp : d.copyCtor = true ↔ PublicCopy d.members) (hi : NoneIgnored cls d.members) (hs : SelfHandled env d.members)
    (h : scanClass env cls d = .ok evs) : HasCopy env (acts evs) ↔ DeclaresCopy d.members := by
  unfold scanClass at h
  obtain ⟨o, ho, h⟩ := bind_ok h
  obtain ⟨r, hr, rfl⟩ := map_ok h
  obtain ⟨ops, h1, rfl⟩ := scanOperators_parts hlen ho
  obtain ⟨parts, h2, h3⟩ := scanMembers_parts hr
  rw [h3, acts_append, acts_append, acts_append, hasCopy_append, hasCopy_append, hasCopy_append, hasCopy_parts hs h2]
  constructor
  · rintro (((h | ⟨m, hm, he, d', a, hk, ha, hsr⟩) | h) | h)
    · exact absurd h (hasCopy_ops h1)
    · cases he with
      | method _ _ kind => rw [hk] at kind; cases kind
      | var _ _ kind => rw [hk] at kind; cases kind
      | ctor _ _ kind acc => rw [hk] at kind; cases kind; exact ⟨m, hm, d', a, hk, ha, hsr, acc⟩
    · split at h
      · rcases h with h | ⟨_, _, _, h⟩ <;> cases List.mem_singleton.mp h
      · exact absurd h (hasCopy_nil env)
    · split at h
      · rename_i hc
        obtain ⟨m, hm, d', a, hk, ha, hsr, hacc⟩ := hp.mp hc.2
        exact ⟨m, hm, d', a, hk, ha, hsr, Or.inl hacc⟩
      · exact absurd h (hasCopy_nil env)
  · rintro ⟨m, hm, d', a, hk, ha, hsr, hacc⟩
    exact Or.inl (Or.inl (Or.inr ⟨m, hm, .ctor (hi m hm d' hk).1 (hi m hm d' hk).2 hk hacc, d', a, hk, ha, hsr⟩))

/-- A public constructor without arguments that is annotated `ignore`. -/
def ignoredCtor : ClassDecl where
  members := [⟨"A".toList, .ctor { args := [] }, [("ignore".toList, none)], []⟩]
  trivialCtor := true

/-- **C89 fails** for a constructor without arguments that is annotated `ignore`: it is registered nevertheless. -/
theorem C89_ignore_counterexample :
    PublicDefault ignoredCtor.members ∧ ∃ evs, scanClass demoEnv ⟨true, []⟩ ignoredCtor = .ok evs ∧ HasDefault (acts evs) := by
  refine ⟨⟨_, List.mem_singleton.mpr rfl, _, rfl, rfl, rfl⟩, ?_⟩
  have h : okAnd (scanClass demoEnv ⟨true, []⟩ ignoredCtor) (fun evs => decide (acts evs = [.reg (.ctor [] [])])) = true := by
    decide +kernel
  obtain ⟨evs, h1, h2⟩ := okAnd_iff h
  exact ⟨evs, h1, [], by rw [of_decide_eq_true h2]; exact List.mem_singleton.mpr rfl⟩

/-- `scan_methods`, lines 944-948: members of anonymous structures inside the class are scanned as if they were members
of the class, then the class itself. -/
def scanClassWith (env : Env) (cls : Cls) (anonymous : List ClassDecl) (d : ClassDecl) : PyRes (List Ev) :=
  match anonymous with
  | [] => scanClass env cls d
  | a :: l => (scanClass env cls a).bind (fun x => (scanClassWith env cls l d).map (fun y => x ++ y))

/-- A class that can only be constructed from a number. -/
def fromInt : ClassDecl where
  members := [⟨"A".toList, .ctor { args := [⟨"int".toList, "x".toList, none, false⟩] }, [], []⟩]

/-- **C89 fails** for classes with an anonymous structure inside: the implicit constructor of the structure becomes a
constructor of the class. -/
theorem C89_anonymous_counterexample :
    ¬ DeclaresDefault fromInt.members ∧ ∃ evs, scanClassWith demoEnv ⟨true, []⟩ [{ members := [], trivialCtor := true }] fromInt =
      .ok evs ∧ HasDefault (acts evs) := by
  constructor
  · rintro ⟨m, hm, d, hk, ha, _⟩
    cases List.mem_singleton.mp hm
    cases hk
    cases ha
  · have h : okAnd (scanClassWith demoEnv ⟨true, []⟩ [{ members := [], trivialCtor := true }] fromInt) (fun evs =>
        decide (Act.reg (.ctor [] []) ∈ acts evs)) = true := by decide +kernel
    obtain ⟨evs, h1, h2⟩ := okAnd_iff h
    exact ⟨evs, h1, [], of_decide_eq_true h2⟩

/-- Classes to which C89 applies: one with a default constructor and one without. -/
example : DeclaresDefault demoClass.members ∧ PublicDefault demoClass.members ∧ NoneIgnored ⟨true, []⟩ demoClass.members ∧
    ¬ DeclaresDefault fromInt.members ∧ NoneIgnored ⟨true, []⟩ fromInt.members ∧ ¬ PublicDefault fromInt.members := by
  have no : ∀ (P : Str → Prop), ¬ ∃ m ∈ fromInt.members, ∃ d, m.kind = .ctor d ∧ d.args = [] ∧ P d.access := by
    rintro P ⟨m, hm, d, hk, ha, _⟩
    cases List.mem_singleton.mp hm
    cases hk
    cases ha
  refine ⟨⟨⟨"A".toList, .ctor { args := [] }, [], []⟩, by simp [demoClass], _, rfl, rfl, Or.inl rfl⟩,
    ⟨⟨"A".toList, .ctor { args := [] }, [], []⟩, by simp [demoClass], _, rfl, rfl, rfl⟩, ?_, no (fun a => a = "public".toList ∨ a = "protected".toList), ?_,
    no (fun a => a = "public".toList)⟩
  · intro m hm d hk
    refine ⟨fun h => (nomatch h), ?_⟩
    simp only [demoClass, List.mem_cons, List.not_mem_nil, or_false] at hm
    rcases hm with rfl | rfl | rfl | rfl
    · cases hk
    · cases hk
    · rfl
    · cases hk
  · intro m hm d hk
    cases List.mem_singleton.mp hm
    exact ⟨fun h => (nomatch h), rfl⟩

/-- A class with a copy constructor, in an environment that knows it. -/
def copyEnv : Env := { demoEnv with
  par := fun _ => .ok
  selfParam := fun p => p.args.head? = some "A const &".toList }

def copyClass : ClassDecl where
  members := [⟨"A".toList, .ctor { args := [⟨"A const &".toList, "x".toList, none, false⟩], selfRef := true }, [], []⟩]
  copyCtor := true

example : DeclaresCopy copyClass.members ∧ PublicCopy copyClass.members ∧ SelfHandled copyEnv copyClass.members := by
  refine ⟨⟨_, List.mem_singleton.mpr rfl, _, _, rfl, rfl, rfl, Or.inl rfl⟩,
    ⟨_, List.mem_singleton.mpr rfl, _, _, rfl, rfl, rfl, rfl⟩, ?_⟩
  intro m hm d a p hk ha hp
  cases List.mem_singleton.mp hm
  cases hk
  cases ha
  refine ⟨?_, fun _ => rfl⟩
  show decide (p.args.head? = some "A const &".toList) = true
  rw [hp]
  decide

example : ∃ evs, scanClass copyEnv ⟨true, []⟩ copyClass = .ok evs ∧ decide ((acts evs).length = 1) = true :=
  okAnd_iff (by decide +kernel)

end Verif.Scan
