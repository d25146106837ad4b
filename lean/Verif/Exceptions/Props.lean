import Verif.Exceptions.Model
import Verif.Wrapper.Unblock

/-! # C73: exceptions thrown by C++ become the Python exceptions they were declared as -/
namespace Verif.Exceptions
open Verif Verif.Flow Verif.Wrap Verif.Names

/-! ## Specification -/

/-- The head of a catch clause. -/
def catchText (n : Str) : Str := "catch (".toList ++ n ++ " const &exc)".toList

/-- C++'s rule for catch clauses: an exception enters a clause exactly if it is of the class caught
or of one derived from it.  `isa` says of which classes the object thrown is an instance. -/
def Throws (isa : Str → Bool) (t : List Ev) : Prop :=
  ∀ n, (.left (catchText n) ∈ t → isa n = true) ∧ (.passed (catchText n) ∈ t → isa n = false)

/-- What Python sees: an exception of the type bound to the C name `type`, with a message given by a C
expression or none. -/
def raiseText (type : Str) : Option Str → Str
  | none => "PyErr_SetNone((PyObject *) ".toList ++ type ++ ");".toList
  | some msg => "PyErr_SetString((PyObject *) ".toList ++ type ++ ", ".toList ++ msg ++ ");".toList

/-- The pieces of a message expression. -/
inductive Piece where
  | text (s : Str)
  | exc

/-- A message expression as written by the user, `%` doubled. -/
def Piece.source : Piece → Str
  | .text s => s.flatMap (fun c => if c = '%' then "%%".toList else [c])
  | .exc => "%(EXC)s".toList

/-- What it stands for, the caught object being called `v`. -/
def Piece.meaning (v : Str) : Piece → Str
  | .text s => s
  | .exc => v

/-! ## Messages -/

theorem format_char (v : Str) (c : Char) (hc : c ≠ '%') (rest : Str) :
    formatExc v (c :: rest) = (formatExc v rest).map (c :: ·) := by
  conv_lhs => unfold formatExc
  split
  · rename_i h; cases h
  · rename_i h; cases h; exact absurd rfl hc
  · rename_i h; cases h; exact absurd rfl hc
  · rename_i h; cases h; exact absurd rfl hc
  · rename_i h; cases h; rfl

theorem format_percent (v rest : Str) : formatExc v ('%' :: '%' :: rest) = (formatExc v rest).map ('%' :: ·) := by
  rw [formatExc]

theorem format_exc (v rest : Str) : formatExc v ("%(EXC)s".toList ++ rest) = (formatExc v rest).map (v ++ ·) := by
  change formatExc v ('%' :: '(' :: 'E' :: 'X' :: 'C' :: ')' :: 's' :: rest) = _
  rw [formatExc]

theorem format_text (v : Str) : ∀ (s rest : Str),
    formatExc v (Piece.source (.text s) ++ rest) = (formatExc v rest).map (s ++ ·)
  | [], rest => by cases h : formatExc v rest <;> simp [Piece.source, h]
  | c :: s, rest => by
    have ih := format_text v s rest
    by_cases hc : c = '%'
    · subst hc
      change formatExc v ('%' :: '%' :: (Piece.source (.text s) ++ rest)) = _
      rw [format_percent, ih]
      cases formatExc v rest <;> rfl
    · have : Piece.source (.text (c :: s)) ++ rest = c :: (Piece.source (.text s) ++ rest) := by
        simp [Piece.source, hc]
      rw [this, format_char v c hc, ih]
      cases formatExc v rest <;> rfl

/-- C73 (message): the message is the expression given with the caught object in the place of
`%(EXC)s`, every other character unchanged. -/
theorem C73_message (v : Str) : ∀ (ps : List Piece),
    formatExc v (ps.flatMap Piece.source) = some (ps.flatMap (Piece.meaning v))
  | [] => rfl
  | .text s :: ps => by
    rw [List.flatMap_cons, format_text, C73_message v ps]; rfl
  | .exc :: ps => by
    rw [List.flatMap_cons]
    change formatExc v ("%(EXC)s".toList ++ _) = _
    rw [format_exc, C73_message v ps]; rfl

/-! ## Catch clauses -/

theorem call_shape {c : Config} {assign callee : Str} {excs : List (Str × Str)} {er0 : Str}
    (hc : c.call = genCall assign callee excs er0)
    (hret : ∀ r, c.ret = some r → OpsIn (fun _ => True) r) (hpost : OpsIn (fun _ => True) c.post)
    {w0 w : W} (h : generateBody c w0 = .ok w) (er : Nat → Str) :
    ∃ A args cl B, ((Gen.fresh er).run w.ops).body 3 = A ++ (callStmts assign callee args excs er0 cl ++ B) ∧
      ∀ a ∈ cl, ∃ i k s, a = Act.clean i k s := by
  obtain ⟨wa, ts, wb, wc, wd, we, wf, wg, h1, h2, h3, h4, h5, h6, h7, rfl⟩ := generateBody_stages h
  rw [hc] at h4
  have ek := genCall_ops h4
  obtain ⟨lp, ep, -⟩ := parseStep_ops h5
  have hr : ∃ l, wf.ops = we.ops ++ l := by
    unfold retStep at h6
    split at h6
    · rename_i r hr
      obtain ⟨l, e, -⟩ := hret r hr _ _ (guardNI_ok.mp h6)
      exact ⟨l, e⟩
    · split at h6
      · cases h6
      · cases h6; exact ⟨[], by simp⟩
  obtain ⟨lr, er'⟩ := hr
  obtain ⟨lo, eo, -⟩ := hpost _ _ h7
  obtain ⟨lf, ef, -⟩ := finishStep_ops c wg
  generalize saveStep c.unblock ts wc = ws at ek
  have hops : (finishStep c wg).ops = ws.ops ++ callOps assign callee ws.call excs er0 ++
      (lp ++ lr ++ lo ++ lf) := by
    rw [ef, eo, er', ep, ek]; simp
  rw [hops, run_append _ (_ ++ _) (lp ++ lr ++ lo ++ lf), run_append (Gen.fresh er) ws.ops]
  generalize (Gen.fresh er).run ws.ops = g1
  obtain ⟨-, c2⟩ := run_call assign callee ws.call excs er0 g1
  generalize g1.run (callOps assign callee ws.call excs er0) = g2 at c2
  obtain ⟨l1, e1⟩ := run_grows (lp ++ lr ++ lo ++ lf) g2 1
  refine ⟨((g2.run (lp ++ lr ++ lo ++ lf)) 0).stmts ++ (g1 1).stmts, ws.call, g1.cleanup 1,
    l1 ++ ((g2.run (lp ++ lr ++ lo ++ lf)) 2).stmts, ?_, ?_⟩
  · simp only [Gen.body, List.nil_append]
    rw [e1, c2 1, if_pos rfl]
    simp [List.append_assoc]
  · intro a ha
    simp only [Gen.cleanup, List.mem_append, List.mem_map] at ha
    rcases ha with ⟨p, -, rfl⟩ | ⟨p, -, rfl⟩ <;> exact ⟨_, _, _, rfl⟩

/-- The clause entered is the first that matches. -/
theorem exits_first {isa : Str → Bool} {f : Str × Str → List Act} {B : List Stmt} :
    ∀ {excs : List (Str × Str)} {t : List Ev},
      Path ((excs.map (fun e => (catchText e.1, f e))).map (fun p => .exit p.1 p.2) ++ B) t →
      Throws isa t → ∀ e, excs.find? (fun e => isa e.1) = some e →
      ∃ before after, excs = before ++ e :: after ∧ (∀ x ∈ before, isa x.1 = false) ∧
        t = before.map (fun x => .passed (catchText x.1)) ++ .left (catchText e.1) :: (f e).map .did
  | [], t, h, ht, e, he => by cases he
  | x :: excs, t, h, ht, e, he => by
    cases h with
    | pass h =>
      have hx : isa x.1 = false := (ht x.1).2 List.mem_cons_self
      rw [List.find?_cons, hx] at he
      obtain ⟨b, a, rfl, hb, rfl⟩ := exits_first (excs := excs) h
        (fun n => ⟨fun hm => (ht n).1 (List.mem_cons_of_mem _ hm), fun hm => (ht n).2 (List.mem_cons_of_mem _ hm)⟩)
        e he
      refine ⟨x :: b, a, rfl, ?_, rfl⟩
      intro y hy
      rcases List.mem_cons.mp hy with rfl | hy
      · exact hx
      · exact hb y hy
    | leave =>
      have hx : isa x.1 = true := (ht x.1).1 List.mem_cons_self
      rw [List.find?_cons, hx] at he
      cases he
      exact ⟨[], excs, rfl, by simp, rfl⟩

theorem clauses_find {pre : Str} {isa : Str → Bool} : ∀ {excs : List Exc} {cs : List (Str × Str)} {e : Exc},
    clauses pre excs = some cs → excs.find? (fun e => isa e.decl.fullName) = some e →
    ∃ t, e.convert pre "exc".toList = some t ∧ cs.find? (fun c => isa c.1) = some (e.decl.fullName, t)
  | [], cs, e, h, he => by cases he
  | x :: excs, cs, e, h, he => by
    simp only [clauses, Option.bind_eq_bind, Option.bind_eq_some_iff, Option.pure_def] at h
    obtain ⟨t, ht, r, hr, h⟩ := h
    cases h
    rw [List.find?_cons] at he ⊢
    by_cases hx : isa x.decl.fullName = true
    · rw [hx] at he ⊢
      cases he
      exact ⟨t, ht, rfl⟩
    · rw [Bool.not_eq_true] at hx
      rw [hx] at he ⊢
      exact clauses_find hr he

/-- **C73.**  Take any wrapper of a function or method declared with `throw=excs`, whatever its
parameters and return value.  From the call on, every execution in which the call throws an object
that is an instance of some listed class (`isa`): no further clause and none of the code for a normal
return runs; the cleanups due are run (each exactly once, C42), the Python exception declared for the
*first* listed class the object is an instance of is set, with its message, and the error value is
returned. -/
theorem C73_caught_partial (pre : Str) (c : Config) (assign callee : Str) (excs : List Exc)
    (cs : List (Str × Str)) (hcs : clauses pre excs = some cs) (er0 : Str)
    (hc : c.call = genCall assign callee cs er0)
    (hret : ∀ r, c.ret = some r → OpsIn (fun _ => True) r) (hpost : OpsIn (fun _ => True) c.post)
    (w0 w : W) (h : generateBody c w0 = .ok w) (er : Nat → Str) :
    ∃ A args cl B, ((Gen.fresh er).run w.ops).body 3 = A ++ (callStmts assign callee args cs er0 cl ++ B) ∧
      (∀ a ∈ cl, ∃ i k s, a = Act.clean i k s) ∧
      ∀ isa t, Path (callStmts assign callee args cs er0 cl ++ B) t → Throws isa t →
        ∀ e, excs.find? (fun e => isa e.decl.fullName) = some e →
          ∃ (msg : Option Str) (passed : List Str), (∀ m, e.message = some m → ∃ s, formatExc "exc".toList m = some s ∧ msg = some s) ∧
            (e.message = none → msg = none) ∧ (∀ x ∈ passed, isa x = false) ∧
            t = .did (.code "try\n{".toList) ::
              .did (.code (assign ++ callText (String.ofList callee) args ++ ";".toList)) ::
              (passed.map (fun n => .passed (catchText n)) ++ .left (catchText e.decl.fullName) ::
                (cl ++ [Act.code (raiseText (e.decl.pytypestruct pre) msg), Act.ret er0]).map .did) := by
  obtain ⟨A, args, cl, B, hbody, hcl⟩ := call_shape hc hret hpost h er
  refine ⟨A, args, cl, B, hbody, hcl, ?_⟩
  intro isa t ht hthrow e he
  obtain ⟨txt, htxt, hfind⟩ := clauses_find hcs he
  have hne : cs ≠ [] := by rintro rfl; cases hfind
  unfold callStmts at ht
  rw [if_neg hne] at ht
  simp only [List.cons_append, List.nil_append] at ht
  cases ht with
  | @code _ _ t1 ht =>
  cases ht with
  | @code _ _ t2 ht =>
  obtain ⟨b, a, -, hb, rfl⟩ := exits_first (isa := isa) (f := fun e => cl ++ [.code e.2, .ret er0]) (excs := cs) ht
    (fun n => ⟨fun hm => (hthrow n).1 (List.mem_cons_of_mem _ (List.mem_cons_of_mem _ hm)),
      fun hm => (hthrow n).2 (List.mem_cons_of_mem _ (List.mem_cons_of_mem _ hm))⟩) _ hfind
  unfold Exc.convert at htxt
  cases hm : e.message with
  | none =>
    rw [hm] at htxt
    cases htxt
    refine ⟨none, b.map (·.1), by simp, fun _ => rfl, ?_, ?_⟩
    · intro x hx
      obtain ⟨y, hy, rfl⟩ := List.mem_map.mp hx
      exact hb y hy
    · rw [List.map_map]; rfl
  | some m =>
    rw [hm] at htxt
    simp only [Option.map_eq_some_iff] at htxt
    obtain ⟨s, hs, rfl⟩ := htxt
    refine ⟨some s, b.map (·.1), ?_, by simp, ?_, ?_⟩
    · intro m' hm'
      cases hm'
      exact ⟨s, hs, rfl⟩
    · intro x hx
      obtain ⟨y, hy, rfl⟩ := List.mem_map.mp hx
      exact hb y hy
    · rw [List.map_map]; rfl

/-- C73 (closest class): if no class is listed before a class derived from it, the exception reported
is the most specific one: no listed class the object is an instance of derives from it. -/
theorem C73_closest (derives : Str → Str → Bool) (excs : List Exc)
    (hord : excs.Pairwise (fun a b => derives b.decl.fullName a.decl.fullName = false)) (isa : Str → Bool)
    (e : Exc) (he : excs.find? (fun e => isa e.decl.fullName) = some e) :
    ∀ x ∈ excs, isa x.decl.fullName = true → x = e ∨ derives x.decl.fullName e.decl.fullName = false := by
  obtain ⟨-, as, bs, rfl, has⟩ := List.find?_eq_some_iff_append.mp he
  intro x hx hix
  rcases List.mem_append.mp hx with hx | hx
  · have := has x hx
    simp [hix] at this
  rcases List.mem_cons.mp hx with rfl | hx
  · exact Or.inl rfl
  · right
    have h2 := (List.pairwise_append.mp hord).2.1
    exact (List.pairwise_cons.mp h2).1 x hx

/-- Listed the other way round, the object is reported as the base class: the declaration order, not
the C++ type, decides. -/
theorem C73_order_counterexample :
    ∃ (base derived : Exc) (isa derives : Str → Str → Bool),
      base.decl.fullName = "Base".toList ∧ derived.decl.fullName = "Derived".toList ∧
      derives "Derived".toList "Base".toList = true ∧
      (∀ a b, isa a b = true ↔ a = b ∨ derives a b = true) ∧
      [base, derived].find? (fun e => isa "Derived".toList e.decl.fullName) = some base := by
  refine ⟨⟨{ name := "Base".toList, path := [] }, none⟩, ⟨{ name := "Derived".toList, path := [] }, none⟩,
    fun a b => decide (a = b) || decide (a = "Derived".toList ∧ b = "Base".toList),
    fun a b => decide (a = "Derived".toList ∧ b = "Base".toList), by decide +kernel, by decide +kernel, by decide +kernel,
    ?_, ?_⟩
  · intro a b; simp
  · have : (fun e : Exc => decide ("Derived".toList = e.decl.fullName) ||
        decide ("Derived".toList = "Derived".toList ∧ e.decl.fullName = "Base".toList))
      ⟨{ name := "Base".toList, path := [] }, none⟩ = true := by decide +kernel
    exact List.find?_cons_of_pos this

/-! ## Which Python exception it is -/

/-- C73 (the type raised): a standard exception is the Python exception of that name (or of the custom
name); any other is a type of its own, created under the exception's Python name with the declared
parent. -/
theorem C73_type (pre : Str) (e : Exc) :
    (e.decl.isStandard = true →
      e.decl.pytypestruct pre = "PyExc_".toList ++ e.decl.customName.getD e.decl.name ∧ e.definition pre = none) ∧
    (e.decl.isStandard = false →
      e.decl.pytypestruct pre = "Py".toList ++ pre ++ Utils.mangleName e.decl.fullName ++ "_Type".toList ∧
      e.definition pre = some ("PyTypeObject *Py".toList ++ pre ++ Utils.mangleName e.decl.fullName ++ "_Type;".toList)) := by
  constructor <;> intro h <;> refine ⟨?_, ?_⟩ <;>
    simp [ExcDecl.pytypestruct, ExcDecl.pythonName, Exc.definition, h]

/-- Non-vacuity. -/
def errBase : Exc := ⟨{ name := "Error".toList, path := ["ns".toList] }, some "%(EXC)s.what()".toList⟩
def errKey : Exc := ⟨{ name := "out_of_range".toList, path := [], foreign := "std".toList, isStandard := true
                       customName := some "KeyError".toList }, none⟩

example : clauses "".toList [errKey, errBase] = some
    [("std::out_of_range".toList, "PyErr_SetNone((PyObject *) PyExc_KeyError);".toList),
     ("ns::Error".toList, "PyErr_SetString((PyObject *) Pyns__Error_Type, exc.what());".toList)] := by
  decide +kernel

example : (generateBody (funConfig false [] none [] "f".toList
    [("std::out_of_range".toList, "PyErr_SetNone((PyObject *) PyExc_KeyError);".toList),
     ("ns::Error".toList, "PyErr_SetString((PyObject *) Pyns__Error_Type, exc.what());".toList)]
    "return NULL;".toList none .void [] []) {}).toOption.isSome = true := by decide +kernel

end Verif.Exceptions
