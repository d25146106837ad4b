import Verif.Parser.PygenLines

/-!
# C85: the calls written into a script are read back as the calls they stand for
-/
namespace Verif.Pygen
open Verif

/-! ## Argument lists -/

/-- An argument: extra white space, keyword, expression. -/
abbrev Arg := Str × Option Str × E

def mkTail : List Arg → Es
  | [] => .nil
  | (p, k, e) :: r => .cons (' ' :: p) k e (mkTail r)

def mk : List Arg → Es
  | [] => .nil
  | (p, k, e) :: r => .cons p k e (mkTail r)

def argText (pr : Char → Bool) (a : Arg) : Str := a.1 ++ keyText a.2.1 ++ a.2.2.text pr

theorem mkTail_tail (pr : Char → Bool) : ∀ l : List Arg, (mkTail l).tail pr = l.flatMap (fun a => comma ++ argText pr a)
  | [] => rfl
  | (p, k, e) :: r => by
    rw [mkTail, Es.tail, mkTail_tail pr r, List.flatMap_cons]
    simp [comma, argText]

theorem pyJoin_flatMap (x : Str) : ∀ l : List Str, pyJoin comma (x :: l) = x ++ l.flatMap (fun y => comma ++ y)
  | [] => by simp [pyJoin]
  | y :: l => by
    rw [pyJoin, pyJoin_flatMap y l, List.flatMap_cons]
    · simp
    · simp

theorem mk_text (pr : Char → Bool) (l : List Arg) : (mk l).text pr = pyJoin comma (l.map (argText pr)) := by
  cases l with
  | nil => rfl
  | cons a l =>
    obtain ⟨p, k, e⟩ := a
    rw [mk, Es.text, mkTail_tail, List.map_cons, pyJoin_flatMap]
    simp [argText, List.flatMap_map]

theorem mkTail_items : ∀ l : List Arg, (mkTail l).items = l.map (·.2)
  | [] => rfl
  | (p, k, e) :: r => by rw [mkTail, Es.items, mkTail_items r]; rfl

theorem mk_items (l : List Arg) : (mk l).items = l.map (·.2) := by
  cases l with
  | nil => rfl
  | cons a l => obtain ⟨p, k, e⟩ := a; rw [mk, Es.items, mkTail_items]; rfl

def Arg.Ok (a : Arg) : Prop := (∀ c ∈ a.1, isPySpace c = true) ∧ (∀ n, a.2.1 = some n → Ident n) ∧ a.2.2.WF

theorem mkTail_wf : ∀ l : List Arg, (∀ a ∈ l, a.Ok) → (mkTail l).WF
  | [], _ => trivial
  | (p, k, e) :: r, h => by
    obtain ⟨h1, h2, h3⟩ := h _ List.mem_cons_self
    refine ⟨?_, h2, h3, mkTail_wf r (fun a ha => h a (List.mem_cons_of_mem _ ha))⟩
    intro c hc
    rcases List.mem_cons.mp hc with rfl | hc
    · decide
    · exact h1 c hc

theorem mk_wf {l : List Arg} (h : ∀ a ∈ l, a.Ok) : (mk l).WF := by
  cases l with
  | nil => trivial
  | cons a r =>
    obtain ⟨p, k, e⟩ := a
    obtain ⟨h1, h2, h3⟩ := h _ List.mem_cons_self
    exact ⟨h1, h2, h3, mkTail_wf r (fun a ha => h a (List.mem_cons_of_mem _ ha))⟩

theorem allSome_map {α β γ : Type} {f : α → Option β} {g : γ → α} {h : γ → β} {l : List γ}
    (e : ∀ x ∈ l, f (g x) = some (h x)) : allSome f (l.map g) = some (l.map h) := by
  induction l with
  | nil => rfl
  | cons a l ih =>
    rw [List.map_cons, allSome, e a List.mem_cons_self, Option.bind_some,
      ih (fun x hx => e x (List.mem_cons_of_mem _ hx))]
    rfl

/-! ## Values -/

def rootE (s : Str) : E := .index rootName s

def optE : Option Str → E
  | some s => .str s
  | none => .name "None".toList

def pos (e : E) : Arg := ([], none, e)

/-- The expression for a value. -/
def valE : PyVal → E
  | .none => .name "None".toList
  | .bool true => .name "True".toList
  | .bool false => .name "False".toList
  | .int i => .int i
  | .str s => .str s
  | .strs l => .list (mk (l.map (fun s => pos (.str s))))
  | .ref f => rootE f
  | .refs l => .list (mk (l.map (fun s => pos (rootE s))))
  | .policy c args => .call c (mk (args.map (fun a => ([], a.1, optE a.2))))

/-- Values that can be written: a list of classes is not empty and only occurs for `throw` and `parent`. -/
def PyVal.Ok (k : Str) : PyVal → Prop
  | .refs l => l ≠ [] ∧ (k = "throw".toList ∨ k = "parent".toList)
  | .policy c args => Ident c ∧ ∀ a ∈ args, ∀ n, a.1 = some n → Ident n
  | _ => True

def KwOk (kw : Kw) : Prop := ∀ p ∈ kw, Ident p.1 ∧ p.2.Ok p.1

theorem lit_root : "root_module[".toList = rootName ++ ['['] := by decide
theorem lit_close : "]".toList = [']'] := by decide
theorem lit_open : "[".toList = ['['] := by decide
theorem lit_paren : ")".toList = [')'] := by decide
theorem lit_open_paren : "(".toList = ['('] := by decide
theorem lit_eq : "=".toList = ['='] := by decide
theorem lit_eq_root : "=root_module[".toList = '=' :: (rootName ++ ['[']) := by decide
theorem lit_throw : "throw=[".toList = "throw".toList ++ ['=', '['] := by decide
theorem lit_parent : "parent=[".toList = "parent".toList ++ ['=', '['] := by decide

theorem ident_none : Ident "None".toList := by unfold Ident; decide
theorem ident_true : Ident "True".toList := by unfold Ident; decide
theorem ident_false : Ident "False".toList := by unfold Ident; decide
theorem ident_root : Ident rootName := by unfold Ident rootName; decide

theorem optE_text (pr : Char → Bool) (o : Option Str) : (optE o).text pr = reprOpt pr o := by
  cases o <;> simp [optE, E.text, reprOpt]

theorem optE_eval (o : Option Str) : evalOpt (optE o) = some o := by cases o <;> rfl

theorem optE_wf (o : Option Str) : (optE o).WF := by
  cases o with
  | none => exact ident_none
  | some s => trivial

theorem refText_eq (pr : Char → Bool) (s : Str) : refText pr s = rootName ++ ['['] ++ reprStr pr s ++ [']'] := by
  unfold refText
  generalize hx : "root_module[".toList = x
  generalize hy : "]".toList = y
  rw [lit_close] at hy
  subst hy
  rw [← hx, lit_root]

theorem rootE_text (pr : Char → Bool) (s : Str) : (rootE s).text pr = refText pr s := by
  rw [refText_eq]
  unfold rootE
  generalize rootName = n
  rw [E.text]
  simp

theorem rootE_eval (s : Str) : evalRef (rootE s) = some s := by rw [rootE, evalRef, if_pos rfl]

theorem pos_ok {e : E} (h : e.WF) : (pos e).Ok :=
  ⟨fun c hc => absurd hc List.not_mem_nil, (fun n hn => nomatch hn), h⟩

theorem pos_text (pr : Char → Bool) (e : E) : argText pr (pos e) = e.text pr := by simp [argText, pos, keyText]

theorem map_congr_text {γ : Type} (pr : Char → Bool) {l : List γ} {f : γ → Arg} {g : γ → Str}
    (h : ∀ x ∈ l, argText pr (f x) = g x) : (mk (l.map f)).text pr = pyJoin comma (l.map g) := by
  rw [mk_text, List.map_map]
  congr 1
  exact List.map_congr_left h

theorem valE_wf {k : Str} {v : PyVal} (h : v.Ok k) : (valE v).WF := by
  cases v with
  | none => exact ident_none
  | bool b => cases b; exact ident_false; exact ident_true
  | int i => trivial
  | str s => trivial
  | strs l =>
    refine mk_wf (fun a ha => ?_)
    obtain ⟨s, -, rfl⟩ := List.mem_map.mp ha
    exact pos_ok trivial
  | ref f => exact ident_root
  | refs l =>
    refine mk_wf (fun a ha => ?_)
    obtain ⟨s, -, rfl⟩ := List.mem_map.mp ha
    exact pos_ok ident_root
  | policy c args =>
    refine ⟨h.1, mk_wf (fun a ha => ?_)⟩
    obtain ⟨s, hs, rfl⟩ := List.mem_map.mp ha
    exact ⟨fun c hc => absurd hc List.not_mem_nil, h.2 s hs, optE_wf s.2⟩

theorem kwText_plain (pr : Char → Bool) (k : Str) {v : PyVal} (h1 : ∀ f, v ≠ .ref f) (h2 : ∀ l, v ≠ .refs l) :
    kwText pr k v = keyText (some k) ++ reprVal pr v := by
  rw [keyText, ← lit_eq]
  cases v with
  | ref f => exact absurd rfl (h1 f)
  | refs l => exact absurd rfl (h2 l)
  | none | bool | int | str | strs | policy => rfl

theorem kwText_ref (pr : Char → Bool) (k f : Str) : kwText pr k (.ref f) = keyText (some k) ++ refText pr f := by
  rw [refText_eq, keyText]
  show k ++ "=root_module[".toList ++ reprStr pr f ++ "]".toList = _
  generalize hy : "]".toList = y
  rw [lit_close] at hy
  subst hy
  generalize hx : "=root_module[".toList = x
  rw [lit_eq_root] at hx
  subst hx
  generalize rootName = n
  simp

theorem kwText_refs (pr : Char → Bool) {k : Str} {l : List Str} (hk : k = "throw".toList ∨ k = "parent".toList) :
    kwText pr k (.refs l) = keyText (some k) ++ ('[' :: pyJoin comma (l.map (refText pr)) ++ [']']) := by
  rw [kwText, keyText]
  generalize pyJoin comma (l.map (refText pr)) = z
  generalize reprVal pr (.refs l) = w
  generalize hy : "]".toList = y
  rw [lit_close] at hy
  subst hy
  rcases hk with rfl | rfl
  · rw [if_pos rfl, lit_throw]
    generalize "throw".toList = n
    simp
  · rw [if_neg (by decide), if_pos rfl, lit_parent]
    generalize "parent".toList = n
    simp

theorem kwText_eq (pr : Char → Bool) {k : Str} {v : PyVal} (h : v.Ok k) :
    kwText pr k v = keyText (some k) ++ (valE v).text pr := by
  cases v with
  | none => exact kwText_plain pr k (by simp) (by simp)
  | bool b => cases b <;> exact kwText_plain pr k (by simp) (by simp)
  | int i => exact kwText_plain pr k (by simp) (by simp)
  | str s => exact kwText_plain pr k (by simp) (by simp)
  | strs l =>
    have := map_congr_text pr (l := l) (f := fun s => pos (.str s)) (g := reprStr pr)
      (fun x _ => by rw [pos_text]; rfl)
    rw [kwText_plain pr k (by simp) (by simp), valE, E.text, this]
    show _ ++ ("[".toList ++ _ ++ "]".toList) = _
    generalize hy : "]".toList = y
    rw [lit_close] at hy
    subst hy
    rw [lit_open]
    rfl
  | ref f => rw [kwText_ref, valE, rootE_text]
  | refs l =>
    have := map_congr_text pr (l := l) (f := fun s => pos (rootE s)) (g := refText pr)
      (fun x _ => by rw [pos_text, rootE_text])
    rw [kwText_refs pr h.2, valE, E.text, this]
  | policy c args =>
    have := map_congr_text pr (l := args) (f := fun a => (([], a.1, optE a.2) : Arg))
      (g := fun a => keyText a.1 ++ reprOpt pr a.2) (fun x _ => by simp [argText, optE_text])
    rw [kwText_plain pr k (by simp) (by simp), valE, E.text, this]
    show _ ++ (_ ++ "(".toList ++ _ ++ ")".toList) = _
    generalize hy : ")".toList = y
    rw [lit_paren] at hy
    subst hy
    rw [lit_open_paren]
    simp

theorem valE_eval {k : Str} {v : PyVal} (h : v.Ok k) : evalVal (valE v) = some v := by
  cases v with
  | none => rfl
  | bool b => cases b <;> rfl
  | int i => rfl
  | str s => rfl
  | strs l =>
    have := allSome_map (f := fun p : Option Str × E => if p.1.isSome then none else evalStr p.2)
      (g := fun s : Str => ((none, .str s) : Option Str × E)) (h := fun s => s) (l := l) (fun x _ => rfl)
    simp only [valE, evalVal, mk_items, List.map_map]
    rw [show (Prod.snd ∘ fun s => pos (.str s)) = fun s : Str => ((none, .str s) : Option Str × E) from rfl, this]
    simp
  | ref f => rfl
  | refs l =>
    cases l with
    | nil => exact absurd rfl h.1
    | cons a l =>
      have := allSome_map (f := fun p : Option Str × E => if p.1.isSome then none else evalRef p.2)
        (g := fun s : Str => ((none, rootE s) : Option Str × E)) (h := fun s => s) (l := a :: l) (fun x _ => rfl)
      simp only [valE, evalVal, mk_items, List.map_map]
      rw [show (Prod.snd ∘ fun s => pos (rootE s)) = fun s : Str => ((none, rootE s) : Option Str × E) from rfl, this]
      simp [allSome, evalStr, rootE]
  | policy c args =>
    have := allSome_map (f := fun p : Option Str × E => (evalOpt p.2).map (fun v => (p.1, v)))
      (g := fun a : Option Str × Option Str => ((a.1, optE a.2) : Option Str × E)) (h := fun a => a) (l := args)
      (fun x _ => by simp [optE_eval])
    simp only [valE, evalVal, mk_items, List.map_map]
    rw [show (Prod.snd ∘ fun a : Option Str × Option Str => (([], a.1, optE a.2) : Arg)) =
      fun a => ((a.1, optE a.2) : Option Str × E) from rfl, this]
    simp

/-! ## Keyword arguments -/

theorem sortKw_perm (kw : Kw) : (sortKw kw).Perm kw := List.mergeSort_perm _ _

theorem sortKw_ok {kw : Kw} (h : KwOk kw) : KwOk (sortKw kw) := fun p hp => h p ((sortKw_perm kw).mem_iff.mp hp)

def kwArg (p : Str × PyVal) : Arg := ([], some p.1, valE p.2)

theorem kwArg_text (pr : Char → Bool) {p : Str × PyVal} (h : p.2.Ok p.1) : argText pr (kwArg p) = kwText pr p.1 p.2 := by
  rw [kwText_eq pr h]
  simp [argText, kwArg]

theorem kwArgs_text (pr : Char → Bool) {kw : Kw} (h : KwOk kw) :
    ((sortKw kw).map kwArg).map (argText pr) = pygenKwargs pr kw := by
  rw [pygenKwargs, List.map_map]
  exact List.map_congr_left (fun p hp => kwArg_text pr (sortKw_ok h p hp).2)

theorem kwArg_ok {p : Str × PyVal} (h : Ident p.1 ∧ p.2.Ok p.1) : (kwArg p).Ok :=
  ⟨fun c hc => absurd hc List.not_mem_nil, (fun n hn => Option.some.inj hn ▸ h.1), valE_wf h.2⟩

theorem kwArgs_ok {kw : Kw} (h : KwOk kw) : ∀ a ∈ (sortKw kw).map kwArg, a.Ok := by
  intro a ha
  obtain ⟨p, hp, rfl⟩ := List.mem_map.mp ha
  exact kwArg_ok (sortKw_ok h p hp)

theorem evalKw_args {kw : Kw} (h : KwOk kw) : evalKw (((sortKw kw).map kwArg).map (·.2)) = some (sortKw kw) := by
  unfold evalKw
  rw [List.map_map]
  have := allSome_map (f := fun p : Option Str × E => p.1.bind (fun k => (evalVal p.2).map (fun v => (k, v))))
    (g := (·.2) ∘ kwArg) (h := fun p => p) (l := sortKw kw) (fun p hp => by
      simp [kwArg, valE_eval (sortKw_ok h p hp).2])
  rw [this]
  simp

/-- The same with white space before the first one. -/
def padArg (n : Nat) : List Arg → List Arg
  | [] => []
  | (p, k, e) :: r => (pad n ++ p, k, e) :: r

theorem padArg_text (pr : Char → Bool) (n : Nat) (l : List Arg) :
    (padArg n l).map (argText pr) = padFirst n (l.map (argText pr)) := by
  cases l with
  | nil => rfl
  | cons a l => obtain ⟨p, k, e⟩ := a; simp [padArg, padFirst, argText]

theorem padArg_items (n : Nat) (l : List Arg) : (padArg n l).map (·.2) = l.map (·.2) := by
  cases l with
  | nil => rfl
  | cons a l => rfl

theorem pad_space (n : Nat) : ∀ c ∈ pad n, isPySpace c = true := by
  intro c hc
  rcases List.mem_cons.mp hc with rfl | hc
  · decide
  · rw [(List.mem_replicate.mp hc).2]; decide

theorem padArg_ok {n : Nat} {l : List Arg} (h : ∀ a ∈ l, a.Ok) : ∀ a ∈ padArg n l, a.Ok := by
  cases l with
  | nil => intro a ha; cases ha
  | cons b l =>
    obtain ⟨p, k, e⟩ := b
    intro a ha
    rcases List.mem_cons.mp ha with rfl | ha
    · obtain ⟨h1, h2, h3⟩ := h _ List.mem_cons_self
      refine ⟨?_, h2, h3⟩
      intro c hc
      rcases List.mem_append.mp hc with hc | hc
      · exact pad_space n c hc
      · exact h1 c hc
    · exact h a (List.mem_cons_of_mem _ ha)

/-! ## Types and parameters -/

def Spec.Ok (s : Spec) : Prop := KwOk s.kw

/-- The same with the keyword arguments in alphabetic order. -/
def Spec.norm (s : Spec) : Spec := ⟨s.args, sortKw s.kw⟩

def specArgs (s : Spec) : List Arg := s.args.map (fun a => pos (.str a)) ++ (sortKw s.kw).map kwArg

theorem specArgs_text (pr : Char → Bool) {s : Spec} (h : s.Ok) : (mk (specArgs s)).text pr = pygenArgs pr s := by
  rw [mk_text, specArgs, pygenArgs, List.map_append, kwArgs_text pr h, List.map_map]
  congr 2

theorem specArgs_ok {s : Spec} (h : s.Ok) : ∀ a ∈ specArgs s, a.Ok := by
  intro a ha
  rcases List.mem_append.mp ha with ha | ha
  · obtain ⟨x, -, rfl⟩ := List.mem_map.mp ha
    exact pos_ok trivial
  · exact kwArgs_ok h a ha

theorem evalArgs_kw {kw : Kw} (h : KwOk kw) : evalArgs (((sortKw kw).map kwArg).map (·.2)) = some ⟨[], sortKw kw⟩ := by
  have e := evalKw_args h
  cases hk : sortKw kw with
  | nil => rfl
  | cons p r =>
    rw [hk] at e
    simp only [List.map_cons, kwArg] at e ⊢
    rw [evalArgs, e]
    · rfl
    · intro s r h1
      simp at h1

theorem evalArgs_spec {s : Spec} (h : s.Ok) : evalArgs ((mk (specArgs s)).items) = some s.norm := by
  rw [mk_items, specArgs, List.map_append]
  obtain ⟨args, kw⟩ := s
  induction args with
  | nil => exact evalArgs_kw h
  | cons a args ih =>
    have ih := ih h
    simp only [List.map_cons, List.cons_append]
    rw [show (pos (.str a)).2 = ((none, .str a) : Option Str × E) from rfl, evalArgs, ih]
    rfl

def paramE (s : Spec) : E := .call "param".toList (mk (specArgs s))

def retE (s : Spec) : E :=
  match s.args, s.kw with
  | [a], [] => .str a
  | _, _ => .call "retval".toList (mk (specArgs s))

theorem paramE_text (pr : Char → Bool) {s : Spec} (h : s.Ok) : (paramE s).text pr = pygenParam pr s := by
  simp [paramE, E.text, pygenParam, specArgs_text pr h]

theorem paramE_wf {s : Spec} (h : s.Ok) : (paramE s).WF :=
  ⟨by unfold Ident; decide, mk_wf (specArgs_ok h)⟩

theorem paramE_eval {s : Spec} (h : s.Ok) : evalParam (paramE s) = some s.norm := by
  rw [paramE, evalParam, if_pos rfl, evalArgs_spec h]

theorem retE_cases (s : Spec) : (∃ a, s = ⟨[a], []⟩ ∧ retE s = .str a) ∨
    (retE s = .call "retval".toList (mk (specArgs s)) ∧
      ∀ pr, pygenRetval pr s = "retval(".toList ++ pygenArgs pr s ++ ")".toList) := by
  obtain ⟨args, kw⟩ := s
  match args, kw with
  | [a], [] => exact Or.inl ⟨a, rfl, rfl⟩
  | [], _ => exact Or.inr ⟨rfl, fun _ => rfl⟩
  | _ :: _ :: _, _ => exact Or.inr ⟨rfl, fun _ => rfl⟩
  | [_], _ :: _ => exact Or.inr ⟨rfl, fun _ => rfl⟩

theorem retE_text (pr : Char → Bool) {s : Spec} (h : s.Ok) : (retE s).text pr = pygenRetval pr s := by
  rcases retE_cases s with ⟨a, rfl, -⟩ | ⟨h1, h2⟩
  · simp [retE, E.text, pygenRetval]
  · rw [h1, h2]
    simp [E.text, specArgs_text pr h]

theorem retE_wf {s : Spec} (h : s.Ok) : (retE s).WF := by
  rcases retE_cases s with ⟨a, rfl, h1⟩ | ⟨h1, -⟩
  · rw [h1]; trivial
  · rw [h1]; exact ⟨by unfold Ident; decide, mk_wf (specArgs_ok h)⟩

theorem retE_eval {s : Spec} (h : s.Ok) : evalRet (retE s) = some s.norm := by
  rcases retE_cases s with ⟨a, rfl, h1⟩ | ⟨h1, -⟩
  · rw [h1, evalRet, Spec.norm, sortKw, List.mergeSort_nil]
  · rw [h1, evalRet, if_pos rfl, evalArgs_spec h]

def contentE (key : Option Spec) (elem : Spec) : E :=
  match key with
  | some k => .tuple (mk [pos (retE k), pos (retE elem)])
  | none => retE elem

theorem contentE_text (pr : Char → Bool) {key : Option Spec} {elem : Spec} (hk : ∀ k, key = some k → k.Ok) (h : elem.Ok) :
    (contentE key elem).text pr = contentText pr key elem := by
  cases key with
  | none => exact retE_text pr h
  | some k =>
    rw [contentE, contentText, E.text, mk_text]
    simp only [List.map_cons, List.map_nil, pos_text, retE_text pr h, retE_text pr (hk k rfl), pyJoin, comma]
    simp

theorem contentE_wf {key : Option Spec} {elem : Spec} (hk : ∀ k, key = some k → k.Ok) (h : elem.Ok) :
    (contentE key elem).WF := by
  cases key with
  | none => exact retE_wf h
  | some k =>
    refine mk_wf (fun a ha => ?_)
    rcases List.mem_cons.mp ha with rfl | ha
    · exact pos_ok (retE_wf (hk k rfl))
    · rw [List.mem_singleton.mp ha]; exact pos_ok (retE_wf h)

theorem contentE_eval {key : Option Spec} {elem : Spec} (hk : ∀ k, key = some k → k.Ok) (h : elem.Ok) :
    evalContent (contentE key elem) = some (key.map Spec.norm, elem.norm) := by
  cases key with
  | none =>
    rcases retE_cases elem with ⟨a, rfl, h1⟩ | ⟨h1, -⟩
    · have := retE_eval h
      rw [contentE, h1] at *
      rw [evalContent, this]
      · rfl
      · intro _ hx; cases hx
    · have := retE_eval h
      rw [contentE, h1] at *
      rw [evalContent, this]
      · rfl
      · intro _ hx; cases hx
  | some k =>
    rw [contentE, evalContent, mk_items]
    show (evalRet (retE k)).bind (fun k => (evalRet (retE elem)).map _) = _
    rw [retE_eval h, retE_eval (hk k rfl)]
    rfl

def paramsE (l : List Spec) : E := .list (mk (l.map (fun s => pos (paramE s))))

theorem paramsE_text (pr : Char → Bool) {l : List Spec} (h : ∀ s ∈ l, s.Ok) : (paramsE l).text pr = pygenParams pr l := by
  have := map_congr_text pr (l := l) (f := fun s => pos (paramE s)) (g := pygenParam pr)
    (fun x hx => by rw [pos_text, paramE_text pr (h x hx)])
  simp [paramsE, E.text, pygenParams, this]

theorem paramsE_wf {l : List Spec} (h : ∀ s ∈ l, s.Ok) : (paramsE l).WF := by
  refine mk_wf (fun a ha => ?_)
  obtain ⟨s, hs, rfl⟩ := List.mem_map.mp ha
  exact pos_ok (paramE_wf (h s hs))

theorem paramsE_eval {l : List Spec} (h : ∀ s ∈ l, s.Ok) : evalParams (paramsE l) = some (l.map Spec.norm) := by
  rw [paramsE, evalParams, mk_items, List.map_map]
  exact allSome_map (fun x hx => by simp [pos, paramE_eval (h x hx)])

def strsE (l : List Str) : E := .list (mk (l.map (fun s => pos (.str s))))

theorem strsE_text (pr : Char → Bool) (l : List Str) :
    (strsE l).text pr = "[".toList ++ pyJoin comma (l.map (reprStr pr)) ++ "]".toList := by
  have := map_congr_text pr (l := l) (f := fun s => pos (.str s)) (g := reprStr pr)
    (fun x _ => by rw [pos_text]; rfl)
  simp [strsE, E.text, this]

theorem strsE_wf (l : List Str) : (strsE l).WF := by
  refine mk_wf (fun a ha => ?_)
  obtain ⟨s, -, rfl⟩ := List.mem_map.mp ha
  exact pos_ok trivial

theorem strsE_eval (l : List Str) : evalStrs (strsE l) = some l := by
  rw [strsE, evalStrs, mk_items, List.map_map, allSome_map (h := fun s => s) (fun x _ => by simp [pos, evalStr])]
  simp

/-! ## Reading a whole text -/

mutual
theorem E.size_le (pr : Char → Bool) (e : E) (h : e.WF) : e.size ≤ 2 * (e.text pr).length := by
  cases e with
  | name n =>
    obtain ⟨c, r, rfl, -⟩ := ident_cons h
    simp [E.size, E.text]
    omega
  | int i =>
    rcases reprInt_cases i with ⟨m, -, h⟩ | ⟨m, -, h⟩
    · simp [E.size, E.text, h]; omega
    · have := natStr_ne_nil m
      have := List.length_pos_iff.mpr this
      simp [E.size, E.text, h]; omega
  | str s => simp [E.size, E.text, reprStr]; omega
  | list es =>
    have := Es.size_le pr es h
    simp [E.size, E.text]; omega
  | tuple es =>
    have := Es.size_le pr es h
    simp [E.size, E.text]; omega
  | call f es =>
    have := Es.size_le pr es h.2
    simp [E.size, E.text]; omega
  | index f s => simp [E.size, E.text, reprStr]; omega
  | meth o s f es =>
    have := Es.size_le pr es h.2.2
    simp [E.size, E.text]; omega

theorem Es.size_le (pr : Char → Bool) (es : Es) (h : es.WF) : es.size ≤ 2 * (es.text pr).length + 3 := by
  cases es with
  | nil => simp [Es.size]
  | cons p k e rest =>
    have := E.size_le pr e h.2.2.1
    have := Es.size_tail pr rest h.2.2.2
    simp [Es.size, Es.text]; omega

theorem Es.size_tail (pr : Char → Bool) (es : Es) (h : es.WF) : es.size ≤ 2 * (es.tail pr).length + 1 := by
  cases es with
  | nil => simp [Es.size]
  | cons p k e rest =>
    have := E.size_le pr e h.2.2.1
    have := Es.size_tail pr rest h.2.2.2
    simp [Es.size, Es.tail]; omega
end

theorem read_whole (pr : Char → Bool) {e : E} (h : e.WF) : readE (2 * (e.text pr).length + 1) (e.text pr) = some (e, []) := by
  have := readE_text pr e h (2 * (e.text pr).length + 1) (by have := E.size_le pr e h; omega) [] (fun c hc => nomatch hc)
  rwa [List.append_nil] at this

theorem readLine_expr (pr : Char → Bool) {e : E} (h : e.WF) {s : Str} (hs : s = e.text pr) : readLine s = evalLine e := by
  subst hs
  rw [readLine, read_whole pr h]

end Verif.Pygen
