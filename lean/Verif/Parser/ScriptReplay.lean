import Verif.Parser.ReplayText

/-!
# C86: running the script registers what was registered while scanning

The script is text; `ReadBack` reads every line of it with the reader of C85, `run` makes the calls, and `SameAct` says
that two changes of the module are the same up to the order of keyword arguments.
-/
namespace Verif.Scan
open Verif Verif.Pygen
open Verif.Annot (ODict)

/-- Making type handlers and adding methods does not depend on the order in which keyword arguments are written. -/
structure Env.Respects (env : Env) : Prop where
  ret : ∀ s s', Spec.Same s s' → env.ret s = env.ret s'
  par : ∀ s s', Spec.Same s s' → env.par s = env.par s'
  add : ∀ l l', Line.Same l l' → env.add l = env.add l'

/-- The text of each line as Python reads it; the other lines of a script contain nothing that is escaped. -/
inductive ReadBack (pr : Char → Bool) : List Item → List Item → Prop where
  | nil : ReadBack pr [] []
  | line {l l' : Line} {is is' : List Item} : readLine (l.text pr) = some l' → ReadBack pr is is' →
      ReadBack pr (.line l :: is) (.line l' :: is')
  | comment {s : Str} {is is' : List Item} : ReadBack pr is is' → ReadBack pr (.comment s :: is) (.comment s :: is')
  | cannot {s : Str} {is is' : List Item} : ReadBack pr is is' → ReadBack pr (.cannot s :: is) (.cannot s :: is')
  | helperOff {is is' : List Item} : ReadBack pr is is' → ReadBack pr (.helperOff :: is) (.helperOff :: is')

/-- The same change of the module. -/
inductive SameAct : Act → Act → Prop where
  | reg {l l' : Line} : Line.Same l l' → SameAct (.reg l) (.reg l')
  | dummy {l l' : Line} : Line.Same l l' → SameAct (.dummy l) (.dummy l')
  | cannot : SameAct .cannot .cannot
  | helperOff : SameAct .helperOff .helperOff

/-- The same changes in the same order. -/
abbrev SameActs := List.Forall₂ SameAct

theorem SameActs.append {a a' b b' : List Act} (ha : SameActs a a') (hb : SameActs b b') : SameActs (a ++ b) (a' ++ b') := by
  induction ha with
  | nil => exact hb
  | cons h _ ih => exact .cons h ih

theorem SameActs.filter {a a' : List Act} (h : SameActs a a') : SameActs (a.filter isReg) (a'.filter isReg) := by
  induction h with
  | nil => exact .nil
  | cons h _ ih =>
    cases h with
    | reg h => exact .cons (.reg h) ih
    | dummy h => exact ih
    | cannot => exact ih
    | helperOff => exact ih

theorem allPar_same {env : Env} (hr : env.Respects) {ps ps' : List Spec} (h : SameParams ps ps') : allPar env ps = allPar env ps' := by
  induction h with
  | nil => rfl
  | cons h _ ih => rw [allPar, allPar, List.all_cons, List.all_cons, hr.par _ _ h]; exact congrArg _ ih

theorem same_if (p : Prop) [Decidable p] {l l' : Line} (h : Line.Same l l') :
    SameActs (if p then [Act.reg l] else []) (if p then [Act.reg l'] else []) := by
  split
  · exact .cons (.reg h) .nil
  · exact .nil

theorem replayLine_same {env : Env} (hr : env.Respects) {l l' : Line} (hg : GoodLine l) (h : Line.Same l l') :
    SameActs (replayLine env l) (replayLine env l') := by
  have h0 := h
  cases h with
  | @func m name ret ret' ps ps' kw kw' h1 h2 h3 =>
    cases m with
    | false =>
      rw [replayLine, replayLine, hr.ret _ _ h1, allPar_same hr h2]
      exact same_if _ h0
    | true =>
      rw [replayLine, replayLine, hr.ret _ _ h1, allPar_same hr h2]
      have hv : isVirtual kw' = isVirtual kw := by
        rw [isVirtual, isVirtual, C85_keywords h3 hg.2.2.once]
      split
      · rw [hr.add _ _ h0]; exact same_if _ h0
      · rw [hv]
        split
        · exact .cons (.dummy h0) .nil
        · exact .nil
  | asMethod h1 h2 => rw [replayLine, replayLine, hr.ret _ _ h1, allPar_same hr h2]; exact same_if _ h0
  | asCtor h1 h2 => rw [replayLine, replayLine, hr.ret _ _ h1, allPar_same hr h2]; exact same_if _ h0
  | ctor h1 h2 => rw [replayLine, replayLine, allPar_same hr h1]; exact same_if _ h0
  | copyCtor => exact .cons (.reg h0) .nil
  | attr h1 => rw [replayLine, replayLine, hr.ret _ _ h1]; exact same_if _ h0
  | type => exact .cons (.reg h0) .nil
  | enum => exact .cons (.reg h0) .nil
  | conv => exact .cons (.reg h0) .nil
  | typedef => exact .cons (.reg h0) .nil
  | «alias» => exact .cons (.reg h0) .nil
  | container => exact .cons (.reg h0) .nil
  | map => exact .cons (.reg h0) .nil
  | binop h1 => rw [replayLine, replayLine, hr.par _ _ h1]; exact same_if _ h0
  | inplace h1 => rw [replayLine, replayLine, hr.par _ _ h1]; exact same_if _ h0
  | unop => exact .cons (.reg h0) .nil
  | cmp => exact .cons (.reg h0) .nil
  | stream => exact .cons (.reg h0) .nil

/-- A script with such lines can be read, and running it does the same. -/
theorem readBack_run {env : Env} (hr : env.Respects) (pr : Char → Bool) {is : List Item}
    (hg : ∀ l, Item.line l ∈ is → GoodLine l) :
    ∃ is', ReadBack pr is is' ∧ SameActs (run env is) (run env is') := by
  induction is with
  | nil => exact ⟨[], .nil, .nil⟩
  | cons i l ih =>
    obtain ⟨l', hl, hs⟩ := ih (fun m hm => hg m (List.mem_cons_of_mem _ hm))
    cases i with
    | line m =>
      have gm := hg m List.mem_cons_self
      obtain ⟨m', hm, hsame⟩ := C85_script_line pr m gm.ok
      exact ⟨_, .line hm hl, by
        rw [run_cons, run_cons]
        exact (replayLine_same hr gm hsame).append hs⟩
    | comment s => exact ⟨_, .comment hl, by rw [run_cons, run_cons]; exact hs⟩
    | cannot s => exact ⟨_, .cannot hl, by rw [run_cons, run_cons]; exact .cons .cannot hs⟩
    | helperOff => exact ⟨_, .helperOff hl, by rw [run_cons, run_cons]; exact .cons .helperOff hs⟩

theorem mem_items {evs : List Ev} {i : Item} (h : i ∈ items evs) : Ev.item i ∈ evs := by
  induction evs with
  | nil => cases h
  | cons e l ih =>
    cases e with
    | item j =>
      rw [items_item] at h
      rcases List.mem_cons.mp h with rfl | h
      · exact List.mem_cons_self
      · exact List.mem_cons_of_mem _ (ih h)
    | act a => exact List.mem_cons_of_mem _ (ih h)
    | warn w => exact List.mem_cons_of_mem _ (ih h)

theorem agrees_text {env : Env} (hr : env.Respects) (pr : Char → Bool) {evs : List Ev} {c : Prop} (ha : Agrees env evs c)
    (hg : GoodEvs evs) :
    ∃ is', ReadBack pr (items evs) is' ∧ SameActs ((acts evs).filter isReg) ((run env is').filter isReg) ∧
      (c → SameActs (acts evs) (run env is')) := by
  obtain ⟨is', h1, h2⟩ := readBack_run hr pr (is := items evs) (fun l hl => hg l (mem_items hl))
  refine ⟨is', h1, ?_, ?_⟩
  · rw [← ha.regs]; exact h2.filter
  · intro hc
    rw [← ha.all hc]; exact h2

/-- **C86**, for the members and operators of a class: whatever was scanned without an exception, the text of the script
can be read by Python, and running it registers exactly the methods, constructors, attributes and operators that were
registered in memory, in the same order and with the same arguments.  What is missing: the marks left for virtual methods
that cannot be wrapped, see the counterexamples. -/
theorem C86_class_partial {env : Env} (hr : env.Respects) (pr : Char → Bool) {cls : Cls} {d : ClassDecl} {evs : List Ev}
    (h : scanClass env cls d = .ok evs) :
    ∃ script, ReadBack pr (items evs) script ∧ SameActs ((acts evs).filter isReg) ((run env script).filter isReg) :=
  let ⟨is', h1, h2, _⟩ := agrees_text hr pr (scanClass_agrees h) (scanClass_goodEvs h)
  ⟨is', h1, h2⟩

/-- **C86**: everything is the same if no virtual method has a type that could not be resolved, and no pure virtual
method is in a class that cannot be subclassed. -/
theorem C86_class_marks_partial {env : Env} (hr : env.Respects) (pr : Char → Bool) {cls : Cls} {d : ClassDecl} {evs : List Ev}
    (h : scanClass env cls d = .ok evs) (hs : ∀ m ∈ d.members, Settled env cls m) :
    ∃ script, ReadBack pr (items evs) script ∧ SameActs (acts evs) (run env script) :=
  let ⟨is', h1, _, h3⟩ := agrees_text hr pr (scanClass_agrees h) (scanClass_goodEvs h)
  ⟨is', h1, h3 hs⟩

/-- **C86**, for functions, including those that become methods or constructors: no condition. -/
theorem C86_function {env : Env} (hr : env.Respects) (pr : Char → Bool) {f : FunDecl} {evs : List Ev}
    (h : scanFunction env f = .ok evs) :
    ∃ script, ReadBack pr (items evs) script ∧ SameActs (acts evs) (run env script) :=
  let ⟨is', h1, _, h3⟩ := agrees_text hr pr (scanFunction_agrees h) (scanFunction_goodEvs h)
  ⟨is', h1, h3 trivial⟩

/-! ## Concrete cases -/

/-- Only `int` and `void` are known, and `E` is an exception class. -/
def demoEnv : Env where
  num := fun _ => none
  exc := fun s => if s = "E".toList then some "E".toList else none
  cls := fun s => if s = "A".toList then some "A".toList else none
  ret := fun s => if s.args = ["int".toList] ∨ s.args = ["void".toList] then .ok else .caught
  par := fun s => if s.args.head? = some "int".toList then .ok else .caught
  add := fun _ => .ok
  selfParam := fun _ => false

theorem demoEnv_respects : demoEnv.Respects where
  ret := by
    intro s s' h
    show (if s.args = _ ∨ s.args = _ then Res.ok else .caught) = (if s'.args = _ ∨ s'.args = _ then Res.ok else .caught)
    rw [h.1]
  par := by
    intro s s' h
    show (if s.args.head? = _ then Res.ok else .caught) = (if s'.args.head? = _ then Res.ok else .caught)
    rw [h.1]
  add := fun _ _ _ => rfl

def demoVirtual : MethodDecl := { ret := "void".toList, args := [⟨"Foo".toList, "x".toList, none, false⟩], virt := .yes }
def demoPure : MethodDecl := { ret := "void".toList, args := [], virt := .pure }

def demoF : Member where
  name := "f".toList
  kind := .method {
    ret := "int".toList
    args := [⟨"int".toList, "x".toList, some "1".toList, false⟩]
    virt := .yes
    isConst := true
    throws := [("E".toList, some "E".toList), ("F".toList, none)] }
  globals := [("unblock_threads".toList, some "true".toList)]

def demoClass : ClassDecl where
  members := [demoF, ⟨"g".toList, .method { ret := "Foo".toList, args := [] }, [], []⟩,
    ⟨"A".toList, .ctor { args := [] }, [], []⟩, ⟨"x".toList, .var { type := "int".toList }, [], []⟩]
  operators := [{ symbol := "-".toList, isMember := true, retCls := some "A".toList, args :=
    [{ convertible := true, cls := some "A".toList, type := "A".toList }] }]
  trivialCtor := true
  copyCtor := true

/-- Something holds of a result. -/
def okAnd {α : Type} (x : PyRes α) (p : α → Bool) : Bool :=
  match x with
  | .ok a => p a
  | .error _ => false

theorem okAnd_iff {α : Type} {x : PyRes α} {p : α → Bool} (h : okAnd x p = true) : ∃ a, x = .ok a ∧ p a = true := by
  cases x with
  | error e => cases h
  | ok a => exact ⟨a, rfl, h⟩

/-- Five registrations: negation, `f`, the constructor, the attribute, and the copy constructor.  `g` has a type nobody
knows; it is in the script but not registered. -/
example : ∃ evs, scanClass demoEnv ⟨true, []⟩ demoClass = .ok evs ∧
    decide ((acts evs).length = 5 ∧ (items evs).length = 6 ∧ (acts evs).filter isReg = acts evs) = true :=
  okAnd_iff (by decide +kernel)

/-- The conditions of `C86_class_marks_partial` hold for it. -/
example : ∀ m ∈ demoClass.members, Settled demoEnv ⟨true, []⟩ m := by
  have hf : okAnd (scanMember demoEnv ⟨true, []⟩ demoF) (fun r => r.1.all (fun e => match e with
      | .warn (.type _) => false
      | _ => true)) = true := by decide +kernel
  obtain ⟨a, ha, hall⟩ := okAnd_iff hf
  intro m hm d hd
  simp only [demoClass, List.mem_cons, List.not_mem_nil, or_false] at hm
  rcases hm with rfl | rfl | rfl | rfl
  · refine ⟨?_, ?_⟩
    · intro _ r hr s hs
      rw [ha] at hr
      cases hr
      have := List.all_eq_true.mp hall _ hs
      cases this
    · cases hd; intro h; cases h
  · cases hd; exact ⟨fun h => absurd rfl h, (by intro h; cases h)⟩
  · cases hd
  · cases hd

/-- **C86 fails** for the mark left by a virtual method whose types cannot be resolved: running the script records
that there is such a method, scanning did not. -/
theorem C86_virtual_counterexample :
    ∃ evs, scanClass demoEnv ⟨true, []⟩ { members := [⟨"f".toList, .method demoVirtual, [], []⟩] } = .ok evs ∧
      acts evs = [] ∧ ∃ l, run demoEnv (items evs) = [.dummy l] := by
  have h : okAnd (scanClass demoEnv ⟨true, []⟩ { members := [⟨"f".toList, .method demoVirtual, [], []⟩] }) (fun evs =>
      decide (acts evs = [] ∧ run demoEnv (items evs) = [.dummy (.func true "f".toList ⟨["void".toList], []⟩
        [⟨["Foo".toList, "x".toList], []⟩] [("is_virtual".toList, .bool true)])])) = true := by decide +kernel
  obtain ⟨evs, h1, h2⟩ := okAnd_iff h
  have h2 := of_decide_eq_true h2
  exact ⟨evs, h1, h2.1, _, h2.2⟩

/-- **C86 fails** for the mark that a class cannot be constructed, which is set in memory but is not in the script. -/
theorem C86_pure_counterexample :
    ∃ evs, scanClass demoEnv ⟨false, []⟩ { members := [⟨"f".toList, .method demoPure, [], []⟩] } = .ok evs ∧
      Act.cannot ∈ acts evs ∧ Act.cannot ∉ run demoEnv (items evs) := by
  have h : okAnd (scanClass demoEnv ⟨false, []⟩ { members := [⟨"f".toList, .method demoPure, [], []⟩] }) (fun evs =>
      decide (Act.cannot ∈ acts evs ∧ Act.cannot ∉ run demoEnv (items evs))) = true := by decide +kernel
  obtain ⟨evs, h1, h2⟩ := okAnd_iff h
  exact ⟨evs, h1, of_decide_eq_true h2⟩

def demoFun : FunDecl where
  name := "make".toList
  ret := "int".toList
  args := [⟨"int".toList, "n".toList, none, false⟩]
  throws := [("E".toList, some "E".toList)]
  globals := [("as_method".toList, some "Make".toList), ("of_class".toList, some "A".toList)]

example : ∃ evs, scanFunction demoEnv demoFun = .ok evs ∧ decide (∀ a ∈ acts evs, isReg a = true) = true ∧
    decide ((acts evs).length = 1 ∧ items evs = [.line (.asMethod "A".toList "make".toList ⟨["int".toList], []⟩
      [⟨["int".toList, "n".toList], []⟩] "Make".toList)]) = true := by
  have h : okAnd (scanFunction demoEnv demoFun) (fun evs => decide (∀ a ∈ acts evs, isReg a = true) &&
    decide ((acts evs).length = 1 ∧ items evs = [.line (.asMethod "A".toList "make".toList ⟨["int".toList], []⟩
      [⟨["int".toList, "n".toList], []⟩] "Make".toList)])) = true := by decide +kernel
  obtain ⟨evs, h1, h2⟩ := okAnd_iff h
  exact ⟨evs, h1, Bool.and_eq_true_iff.mp h2⟩

end Verif.Scan
