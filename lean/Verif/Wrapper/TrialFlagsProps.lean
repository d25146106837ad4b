import Verif.Wrapper.TrialProps

/-!
# C127: the flags, also of wrappers that catch exceptions
-/
namespace Verif.Trial
open Verif Verif.CodeBlock Verif.DeclScope Verif.Params

/-! ## Specification -/

/-- The flags of a wrapper: `takes` some argument from Python, `named` if its arguments have names. -/
def flagsOf (takes named : Bool) (force : Option Bool) : List Str :=
  if takes = false ∧ force = none then ["METH_NOARGS".toList]
  else if named = true ∨ force = some true then ["METH_VARARGS".toList, "METH_KEYWORDS".toList]
  else ["METH_VARARGS".toList]

/-- A step that leaves parse parameters and flags alone. -/
def KeepsInputs (g : Stage) : Prop :=
  ∀ s, (g s).1.core.parse = s.core.parse ∧ (g s).1.core.flags = s.core.flags

/-- Whether the handlers take arguments from Python, and named ones, does not depend on the names of
variables. -/
structure Takes (w : Wrapper) (takes named : Bool) : Prop where
  params : ∀ s, s.core.parse = [] → (convertAll w.params s).2 = none →
    (getParameters (convertAll w.params s).1.core.parse = .ok [['"', '"']] ↔ takes = false) ∧
    (getKeywords (convertAll w.params s).1.core.parse = .ok none ↔ named = false) ∧
    (convertAll w.params s).1.core.flags = s.core.flags
  before : KeepsInputs w.hookBefore
  call : KeepsInputs w.callStage

/-! ## Lemmas -/

theorem block_parse (c : Core) (o : Op) : (c.block o).1.parse = c.parse := by
  unfold Core.block; split <;> rfl

theorem warn_inputs (w : Wrapper) : KeepsInputs (lift (warn w)) := by
  intro s
  show (warn w s.core).1.parse = _ ∧ (warn w s.core).1.flags = _
  unfold warn
  split
  · exact ⟨rfl, rfl⟩
  · exact ⟨block_parse _ _, block_flags _ _⟩

theorem saveThread_inputs (w : Wrapper) (v : Str) : KeepsInputs (lift (saveThread w v)) := by
  intro s
  show (saveThread w v s.core).1.parse = _ ∧ (saveThread w v s.core).1.flags = _
  unfold saveThread
  split
  · exact ⟨block_parse _ _, block_flags _ _⟩
  · exact ⟨rfl, rfl⟩

theorem openThreads_inputs (w : Wrapper) (c : Core) :
    (openThreads w c).1.parse = c.parse ∧ (openThreads w c).1.flags = c.flags := by
  unfold openThreads
  split
  · split
    · next h => have := congrArg Prod.fst h; simp only at this; rw [← this]; exact ⟨rfl, rfl⟩
    · next c1 v h =>
      have := congrArg Prod.fst h
      simp only at this
      split <;> next h2 =>
        have h3 := congrArg Prod.fst h2
        simp only at h3
        rw [← h3, ← this]
        exact ⟨block_parse _ _, block_flags _ _⟩
  · exact ⟨rfl, rfl⟩

theorem parseKeywords_flags (p : Str) (r kw : List Str) (c : Core) (he : (parseKeywords p r kw c).2 = none) :
    (parseKeywords p r kw c).1.flags = c.flags ++ ["METH_KEYWORDS".toList] := by
  unfold parseKeywords at he ⊢
  split at he
  · cases he
  · next c1 v h =>
    have h3 : c1.flags = c.flags := by
      have := congrArg Prod.fst h
      simp only at this
      rw [← this]; rfl
    split at he
    · cases he
    · next c2 h2 =>
      have h4 := congrArg Prod.fst h2
      simp only at h4
      simp only [h, h2, Core.flag]
      rw [← h4, block_flags, h3]

theorem parseCall_flagsOf (w : Wrapper) (c : Core) {takes named : Bool} (h0 : c.flags = [])
    (h1 : getParameters c.parse = .ok [['"', '"']] ↔ takes = false)
    (h2 : getKeywords c.parse = .ok none ↔ named = false) (he : (parseCall w c).2 = none) :
    (parseCall w c).1.flags = flagsOf takes named w.forceParse := by
  unfold parseCall at he ⊢
  rcases hp : getParameters c.parse with e | ps
  · simp only [hp] at he; cases he
  rcases hk : getKeywords c.parse with e | kw
  · simp only [hp, hk] at he; cases he
  simp only [hp, hk] at he ⊢
  rw [hp] at h1
  rw [hk] at h2
  have h1 : ps = [['"', '"']] ↔ takes = false := by rw [← h1]; simp
  have h2 : kw = none ↔ named = false := by rw [← h2]; simp
  unfold flagsOf
  by_cases a : ps ≠ [['"', '"']] ∨ w.forceParse ≠ none
  · have a' : ¬ (takes = false ∧ w.forceParse = none) := by
      rintro ⟨x, y⟩
      rcases a with a | a
      · exact a (h1.2 x)
      · exact a y
    rw [if_pos a] at he ⊢
    rw [if_neg a']
    by_cases b : kw = none ∧ w.forceParse ≠ some true
    · have b' : ¬ (named = true ∨ w.forceParse = some true) := by
        rintro (x | x)
        · rw [h2.1 b.1] at x; cases x
        · exact b.2 x
      rw [if_pos b, if_neg b', block_flags]
      show c.flags ++ _ = _
      rw [h0]; rfl
    · have b' : named = true ∨ w.forceParse = some true := by
        by_cases x : named = true
        · exact Or.inl x
        · refine Or.inr ?_
          by_contra y
          exact b ⟨h2.2 ((Bool.not_eq_true _).mp x), y⟩
      rw [if_neg b] at he ⊢
      rw [if_pos b', parseKeywords_flags _ _ _ _ he]
      show (c.flags ++ _) ++ _ = _
      rw [h0]; rfl
  · have a1 : ps = [['"', '"']] := by
      by_contra x; exact a (Or.inl x)
    have a2 : w.forceParse = none := by
      by_contra x; exact a (Or.inr x)
    rw [if_neg a, if_pos ⟨h1.1 a1, a2⟩]
    show c.flags ++ _ = _
    rw [h0]; rfl

theorem body_flagsOf (w : Wrapper) (ok : w.Ok) {takes named : Bool} (ht : Takes w takes named) (s : St)
    (h0 : s.core.flags = []) (h1 : s.core.parse = []) (he : (body w s).2 = none) :
    (body w s).1.core.flags = flagsOf takes named w.forceParse := by
  unfold body at he ⊢
  have ho := openThreads_inputs w s.core
  rcases h : openThreads w s.core with ⟨c, e | v⟩
  · simp only [h] at he; cases he
  · rw [h] at ho
    simp only [h] at he ⊢
    unfold rest at he ⊢
    obtain ⟨n1, e1⟩ := andThen_none he; rw [e1] at he ⊢
    obtain ⟨_, e2⟩ := andThen_none he; rw [e2] at he ⊢
    obtain ⟨_, e3⟩ := andThen_none he; rw [e3] at he ⊢
    obtain ⟨_, e4⟩ := andThen_none he; rw [e4] at he ⊢
    obtain ⟨_, e5⟩ := andThen_none he; rw [e5] at he ⊢
    obtain ⟨p, e6⟩ := andThen_none he; rw [e6] at he ⊢
    rw [finish_flags w ok _ he]
    obtain ⟨t1, t2, t3⟩ := ht.params { s with core := c } (ho.1.trans h1) n1
    have hk : ∀ t : St, KeepsInputs (lift (warn w)) := fun _ => warn_inputs w
    refine parseCall_flagsOf w _ ?_ ?_ ?_ p
    · rw [(ht.call _).2, (saveThread_inputs w v _).2, (ht.before _).2, (warn_inputs w _).2, t3]
      exact ho.2.trans h0
    · rw [(ht.call _).1, (saveThread_inputs w v _).1, (ht.before _).1, (warn_inputs w _).1]
      exact t1
    · rw [(ht.call _).1, (saveThread_inputs w v _).1, (ht.before _).1, (warn_inputs w _).1]
      exact t2

theorem start_inputs (w : Wrapper) (r : Bool) : (startCore w r).parse = [] ∧ (startCore w r).flags = [] := by
  have key : ∀ (l : List (Str × Str)) (c : Core),
      (l.foldl (fun c d => (c.declare d.1 d.2).1) c).parse = c.parse ∧
      (l.foldl (fun c d => (c.declare d.1 d.2).1) c).flags = c.flags := by
    intro l
    induction l with
    | nil => intro c; exact ⟨rfl, rfl⟩
    | cons d l ih => intro c; exact ih _
  unfold startCore Core.init
  dsimp only
  rw [(key _ _).1, (key _ _).2]
  split <;> split <;> exact ⟨rfl, rfl⟩

/-- Orderly uses of a wrapper that can be generated keep it new, or remembering the flags of its definition. -/
theorem step_inv (w : Wrapper) (ok : w.Ok) (hb : (body w (ready w)).2 = none) {made : Bool} {s : St}
    {args t : List Str} (once : (generate w (start w)).2 = .ok (args, t))
    (hi : Inv w (body w (ready w)).1.core.flags made s) (ev : Event) (ho : ev = .define → made = false) :
    Inv w (body w (ready w)).1.core.flags (match ev with | .define => true | .flags => made | _ => false)
      (step w s ev).1 := by
  cases ev with
  | flags =>
    cases made with
    | true =>
      have : getFlags w s = (s, .ok (body w (ready w)).1.core.flags) := by
        unfold getFlags
        rw [hi.1]; simp only [ne_eq, hi.2.1, not_false_eq_true, if_true]
      simp only [step, this]
      exact hi
    | false =>
      have g1 := (getFlags_new w ok s hi).1
      simp only [step]
      rcases hg : getFlags w s with ⟨s1, e | f⟩ <;> rw [hg] at g1 <;> exact g1
  | declare =>
    have hr := inv_reset w hi
    have hm2 := (generate_main w ok _ hr).2.2
    have hd : (generate w (reset w s)).2 = .ok (args, t) := by
      rw [(generate_main w ok _ hr).1, ← (generate_main w ok (start w) (start_inv w [])).1]
      exact once
    simp only [step, Trial.declare]
    rcases hg : generate w (reset w s) with ⟨s1, e | ⟨a, b⟩⟩
    · rw [hg] at hd; cases hd
    · rw [hg] at hm2
      exact reset_inv w s1 hm2 (Or.inr rfl) _
  | define =>
    have hmade := ho rfl
    subst hmade
    have hm := (generate_main w ok s hi).2.1 hb
    simp only [step]
    rcases hg : generate w s with ⟨s1, e | ⟨a, b⟩⟩ <;> rw [hg] at hm <;> exact hm
  | reset => exact inv_reset w hi

/-! ## Theorems -/

/-- C127 (flags): if a wrapper - one that catches exceptions or not - generated once has the C parameters `args`,
then in every orderly history every answer about its flags is the one its arguments call for, and `args` belong to
these flags.

Missing: whether a trial of a wrapper that catches exceptions could fail where the definition succeeds (no
handler of the code base does). -/
theorem C127_flags_partial (w : Wrapper) (ok : w.Ok) {takes named : Bool} (ht : Takes w takes named)
    {args t : List Str} (once : (generate w (start w)).2 = .ok (args, t)) :
    w.signature (flagsOf takes named w.forceParse) = .ok args ∧
    ∀ h, Orderly false h → ∀ p ∈ answers w (start w) h, ∀ fl, p.2 = .flags fl →
      fl = flagsOf takes named w.forceParse := by
  obtain ⟨hb, hsg⟩ := generate_ok w ok once
  have hfl : (body w (ready w)).1.core.flags = flagsOf takes named w.forceParse :=
    body_flagsOf w ok ht _ (start_inputs w _).2 (start_inputs w _).1 hb
  refine ⟨hfl ▸ hsg, ?_⟩
  have key : ∀ h (made : Bool) (s : St), Orderly made h → Inv w (body w (ready w)).1.core.flags made s →
      ∀ p ∈ answers w s h, ∀ fl, p.2 = .flags fl → fl = flagsOf takes named w.forceParse := by
    intro h
    induction h with
    | nil => intro _ _ _ _ p hp; cases hp
    | cons ev es ih =>
      intro made s ho hi p hp fl hf
      have hdef : ev = .define → made = false := by rintro rfl; exact ho.1
      have hi2 := step_inv w ok hb once hi ev hdef
      rcases List.mem_cons.1 hp with rfl | hp
      · cases ev with
        | flags =>
          simp only [step] at hf
          cases made with
          | true =>
            have : getFlags w s = (s, .ok (body w (ready w)).1.core.flags) := by
              unfold getFlags
              rw [hi.1]; simp only [ne_eq, hi.2.1, not_false_eq_true, if_true]
            rw [this] at hf
            injection hf with hf
            rw [← hf, hfl]
          | false =>
            obtain ⟨r, hr, hs⟩ := hi
            have h0 : s.core.flags = [] := by rw [hs]; exact (start_inputs w r).2
            have h1 : s.core.parse = [] := by rw [hs]; exact (start_inputs w r).1
            have hbf := body_flagsOf w ok ht s h0 h1
            unfold getFlags at hf
            simp only [h0, ne_eq, not_true_eq_false, if_false] at hf
            rcases hq : body w s with ⟨s1, _ | e⟩ <;> rw [hq] at hf hbf
            · injection hf with hf
              rw [← hf]; exact hbf rfl
            · cases hf
        | declare => simp only [step] at hf; split at hf <;> cases hf
        | define => simp only [step] at hf; split at hf <;> cases hf
        | reset => cases hf
      · cases ev with
        | flags => exact ih made _ ho hi2 p hp fl hf
        | declare => exact ih false _ ho hi2 p hp fl hf
        | define => exact ih true _ ho.2 hi2 p hp fl hf
        | reset => exact ih false _ ho hi2 p hp fl hf
  intro h ho
  exact key h false (start w) ho (start_inv w _)

/-! ## Handlers that take named arguments -/

/-- Parse parameters with names, not optional. -/
def AllNamed (l : List PItem) : Prop := ∀ i ∈ l, i.name ≠ none ∧ i.template ≠ [] ∧ i.optional = false

/-- A handler of one named argument. -/
def TakesOne (g : Stage) : Prop :=
  ∀ s, (g s).2 = none → (g s).1.core.flags = s.core.flags ∧
    ∃ i : PItem, AllNamed [i] ∧ (g s).1.core.parse = s.core.parse ++ [i]

theorem intParam_takes (n : Str) : TakesOne (intParam n) := by
  intro s he
  unfold intParam lift at he ⊢
  rcases h : s.core.declare "int".toList n with ⟨c1, e | v⟩
  · simp only [h] at he; cases he
  · have h1 : c1.parse = s.core.parse ∧ c1.flags = s.core.flags := by
      have := congrArg Prod.fst h
      simp only at this
      rw [← this]; exact ⟨rfl, rfl⟩
    simp only [h]
    refine ⟨h1.2, ⟨['i'], ['&' :: v], some n, false⟩, ?_, by rw [← h1.1]; rfl⟩
    intro i hi
    rw [List.mem_singleton.1 hi]
    exact ⟨nofun, nofun, rfl⟩

theorem classParam_takes (k : Nat) (p t n : Str) : TakesOne (classParam k p t n) := by
  intro s he
  unfold classParam at he ⊢
  rcases h : s.core.declare (p ++ ['*']) n with ⟨c1, e | v⟩
  · simp only [h] at he; cases he
  · have h1 : c1.parse = s.core.parse ∧ c1.flags = s.core.flags := by
      have := congrArg Prod.fst h
      simp only at this
      rw [← this]; exact ⟨rfl, rfl⟩
    simp only [h]
    refine ⟨h1.2, ⟨"O!".toList, ['&' :: t, '&' :: v], some n, false⟩, ?_, by rw [← h1.1]; rfl⟩
    intro i hi
    rw [List.mem_singleton.1 hi]
    exact ⟨nofun, nofun, rfl⟩

theorem convertAll_takes (gs : List Stage) (h : ∀ g ∈ gs, TakesOne g) (s : St) (he : (convertAll gs s).2 = none) :
    (convertAll gs s).1.core.flags = s.core.flags ∧
    ∃ l : List PItem, l.length = gs.length ∧ AllNamed l ∧ (convertAll gs s).1.core.parse = s.core.parse ++ l := by
  induction gs generalizing s with
  | nil => exact ⟨rfl, [], rfl, nofun, by simp [convertAll, lift]⟩
  | cons g gs ih =>
    unfold convertAll at he ⊢
    obtain ⟨n1, e1⟩ := andThen_none he
    rw [e1] at he ⊢
    have hg : (g s).2 = none ∧ implemented g s = g s := by
      unfold implemented at n1 ⊢
      rcases hq : g s with ⟨s1, _ | e⟩
      · exact ⟨rfl, rfl⟩
      · rw [hq] at n1; cases e <;> cases n1
    rw [hg.2] at he ⊢
    obtain ⟨f1, i, a1, p1⟩ := h g (List.mem_cons_self ..) s hg.1
    obtain ⟨f2, l, hl, a2, p2⟩ := ih (fun g' hg' => h g' (List.mem_cons_of_mem _ hg')) _ he
    refine ⟨f2.trans f1, i :: l, by simp [hl], ?_, by rw [p2, p1, List.append_assoc]; rfl⟩
    intro j hj
    rcases List.mem_cons.1 hj with rfl | hj
    · exact a1 _ (List.mem_singleton.2 rfl)
    · exact a2 j hj

theorem named_parameters {l : List PItem} (h : AllNamed l) :
    getParameters l = .ok [['"', '"']] ↔ l = [] := by
  constructor
  · intro hp
    cases l with
    | nil => rfl
    | cons i l =>
      exfalso
      obtain ⟨_, ht, ho⟩ := h i (List.mem_cons_self ..)
      unfold getParameters templateLoop at hp
      simp only [ho, Bool.not_false, Bool.and_true, Bool.false_eq_true, if_false, Bool.not_true, Bool.and_false,
        bind, Except.bind, pure, Except.pure] at hp
      rcases hq : templateLoop false l with e | r
      · simp only [hq] at hp; cases hp
      · simp only [hq] at hp
        injection hp with hp
        injection hp with hp _
        have := congrArg List.length hp
        have hpos := List.length_pos_iff.2 ht
        simp only [List.cons_append, List.length_cons, List.length_append, List.length_nil] at this
        omega
  · rintro rfl; rfl

theorem named_keywords {l : List PItem} (h : AllNamed l) : getKeywords l = .ok none ↔ l = [] := by
  have key : ∀ (l : List PItem) (kw : List Str), AllNamed l →
      ∃ ns, keywordsLoop kw l = .ok ns ∧ ns.length = kw.length + l.length := by
    intro l
    induction l with
    | nil => intro kw _; exact ⟨kw, rfl, rfl⟩
    | cons i l ih =>
      intro kw h
      obtain ⟨hn, _, _⟩ := h i (List.mem_cons_self ..)
      obtain ⟨n, hn⟩ := Option.ne_none_iff_exists'.1 hn
      obtain ⟨ns, h1, h2⟩ := ih (kw ++ [n]) (fun j hj => h j (List.mem_cons_of_mem _ hj))
      refine ⟨ns, ?_, ?_⟩
      · unfold keywordsLoop; rw [hn]; exact h1
      · rw [h2, List.length_append, List.length_cons, List.length_cons, List.length_nil]; omega
  constructor
  · intro hk
    obtain ⟨ns, h1, h2⟩ := key l [] h
    unfold getKeywords at hk
    simp only [h1, bind, Except.bind, pure, Except.pure] at hk
    by_cases hn : ns = []
    · rw [hn] at h2
      exact List.length_eq_zero_iff.1 (by simpa using h2.symm)
    · rw [if_neg hn, if_neg (by rw [h2]; simp)] at hk
      cases hk
  · rintro rfl; rfl

/-- Functions with parameters of classes and integers, as in `C127_functions`: they take arguments, named ones,
exactly if there are parameters. -/
theorem C127_functions_take (ps : List (Option (Str × Str) × Str)) (fn : Str) (w : Wrapper)
    (hp : w.params = ps.mapIdx (fun k p =>
      match p.1 with
      | some (pystruct, pytype) => classParam (k + 1) pystruct pytype p.2
      | none => intParam p.2))
    (hc : w.callStage = callFunction fn w.retType) (hb : w.hookBefore = noHook) :
    Takes w (!ps.isEmpty) (!ps.isEmpty) := by
  have hall : ∀ g ∈ w.params, TakesOne g := by
    intro g hg
    rw [hp, List.mem_mapIdx] at hg
    obtain ⟨k, hk, rfl⟩ := hg
    rcases ps[k].1 with _ | ⟨a, b⟩
    · exact intParam_takes _
    · exact classParam_takes _ _ _ _
  have hlen : w.params.length = ps.length := by rw [hp, List.length_mapIdx]
  have hemp : ∀ l : List PItem, l.length = w.params.length → (l = [] ↔ (!ps.isEmpty) = false) := by
    intro l hl
    rw [← List.length_eq_zero_iff, hl, hlen]
    cases ps <;> simp
  refine ⟨?_, ?_, ?_⟩
  · intro s h0 he
    obtain ⟨f, l, hl, ha, hpl⟩ := convertAll_takes _ hall s he
    rw [h0, List.nil_append] at hpl
    rw [hpl]
    exact ⟨(named_parameters ha).trans (hemp l hl), (named_keywords ha).trans (hemp l hl), f⟩
  · rw [hb]; exact fun _ => ⟨rfl, rfl⟩
  · rw [hc]; exact fun s => ⟨block_parse _ _, block_flags _ _⟩

/-! ## Examples -/

/-- A function that catches exceptions and whose return handler needs an assignment constructor (the case
C127_agree_partial excepts): its flags are those of its arguments before and after the definition. -/
example : (keepFn true true).Ok ∧ Takes (keepFn true true) true true ∧
    (answers (keepFn true true) (start (keepFn true true)) [.flags, .define, .flags, .declare, .flags]).map
      (fun p => match p.2 with | .flags fl => fl | .declared a => a | .defined a _ => a | _ => []) =
    [["METH_VARARGS".toList, "METH_KEYWORDS".toList],
     ["PyObject * PYBINDGEN_UNUSED(dummy)".toList, "PyObject *args".toList, "PyObject *kwargs".toList],
     ["METH_VARARGS".toList, "METH_KEYWORDS".toList],
     ["PyObject * PYBINDGEN_UNUSED(dummy)".toList, "PyObject *args".toList, "PyObject *kwargs".toList],
     ["METH_VARARGS".toList, "METH_KEYWORDS".toList]] :=
  ⟨keepFn_ok true true,
    C127_functions_take [(some ("PyA".toList, "PyA_Type".toList), "a".toList),
      (some ("PyA".toList, "PyA_Type".toList), "b".toList), (none, "n".toList)] "keep".toList _ rfl rfl rfl,
    by decide +kernel⟩

/-- Parameters named like the C parameters of the wrapper get other variables (base.py:798-799). -/
example : (match (generate { keepFn false false with params := [intParam "args".toList, intParam "kwargs".toList], hookReturn := noHook }
        (start { keepFn false false with params := [intParam "args".toList, intParam "kwargs".toList], hookReturn := noHook })).2 with
      | .ok (_, t) => t.drop 2 |>.take 2
      | .error _ => []) = ["int args2;", "int kwargs2;"].map String.toList := by decide +kernel

end Verif.Trial
