import Verif.Wrapper.ConverterCode
import Verif.DeclScope.Props
import Verif.CodeSink.Props

/-!
# Converter functions of classes
-/
namespace Verif.Convert
open Verif Verif.Flow Verif.Params Verif.DeclScope Verif.Wrap Verif.IntRange

variable {T D : Type}

/-- Names a class can have: the struct is an identifier (or at least does not end with a star or a blank),
nothing spans lines. -/
structure Names.Good (c : Names) : Prop where
  ends : ∃ b k, c.pystruct = b ++ [k] ∧ k ≠ '*' ∧ k ≠ ' '
  line1 : '\n' ∉ c.pystruct
  line2 : '\n' ∉ c.name

def Names.var (c : Names) : Str := "tmp_".toList ++ c.name

def Names.decl (c : Names) : Str := c.pystruct ++ " *".toList ++ c.var ++ ";".toList

def Names.cond (c : Names) : Str :=
  callText "!PyArg_ParseTuple" ["py_retval".toList, "(char *) \"O!\"".toList, '&' :: c.pytype, '&' :: c.var]

def Names.assign (c : Names) : Str := "*address = *".toList ++ c.var ++ "->obj;".toList

def Names.rest (c : Names) : List Stmt :=
  [.act (.code c.assign), .act (.clean 0 1 decText), .act (.ret "return 1;".toList)]

theorem declare_new (w : W) (type name decl : Str) (h0 : w.decls.counts name = 0)
    (hj : joinCtypeAndName type name = .ok decl) (hn : '\n' ∉ decl) (hl : (w.decls.sinks 0).core.level = 0) :
    ∃ w', w.declare type name none none = .ok (w', name) ∧ w'.ops = w.ops ∧ w'.parse = w.parse ∧
      declLines w' = declLines w ++ [decl ++ [';']] := by
  have hp : (w.decls.pick name).2 = name := by
    unfold Family.pick
    dsimp only
    rw [h0]
    rfl
  have hd : (w.decls.declare 0 type name none none) =
      ({ (w.decls.pick name).1 with
          sinks := fun j => if j = 0 then ((w.decls.pick name).1.sinks 0).writeln (decl ++ [';']) else (w.decls.pick name).1.sinks j },
        .ok name) := by
    unfold Family.declare
    have e : w.decls.pick name = ((w.decls.pick name).1, name) := Prod.ext rfl hp
    rw [e]
    dsimp only
    rw [hj]
  refine ⟨{ w with decls := (w.decls.declare 0 type name none none).1, vars := w.vars ++ [(name, none)] }, ?_, rfl, rfl, ?_⟩
  · unfold W.declare
    rw [hd]
  · unfold declLines
    rw [hd]
    dsimp only [CodeSink.Mem.writeln, CodeSink.Core.format]
    rw [if_pos rfl]
    have hs : (w.decls.pick name).1.sinks = w.decls.sinks := rfl
    have hnl : '\n' ∉ decl ++ [';'] := by
      simp only [List.mem_append, List.mem_singleton, not_or]
      exact ⟨hn, by decide⟩
    rw [hs, splitOn_of_not_mem hnl, hl]
    rfl

/-- The state when the handler is asked. -/
def w1 : W :=
  ⟨(({} : Family).declare 0 "PyObject*".toList "py_retval".toList none none).1, [("py_retval".toList, none)],
    [.write 0 packText, .add 0 decText], [], [], [], []⟩

theorem generated_cls (c : Names) (hg : c.Good) :
    generated (.cls c) = some (["PyObject *py_retval;".toList, c.decl],
      .act (.code packText) :: .acq 0 1 decText :: .exit c.cond [.clean 0 1 decText, .ret ret0] :: c.rest) := by
  obtain ⟨b, k, hb, hk, hk2⟩ := hg.ends
  have hj : joinCtypeAndName (c.pystruct ++ "*".toList) c.var = .ok (c.pystruct ++ " *".toList ++ c.var) := by
    rw [(C11_join (c.pystruct ++ "*".toList) c.var).2.2 b "*".toList k (by rw [hb]) hk (by decide),
      if_neg (by rintro ⟨h, _⟩; exact hk2 h), hb]
    simp only [List.append_assoc]
    rfl
  have hn : '\n' ∉ c.pystruct ++ " *".toList ++ c.var := by
    unfold Names.var
    simp only [List.mem_append, not_or]
    exact ⟨⟨hg.line1, by decide⟩, by decide, hg.line2⟩
  have h0 : w1.decls.counts c.var = 0 := by
    show (if c.var = "py_retval".toList then 0 + 1 else 0) = 0
    rw [if_neg]
    intro h
    have h2 : some 't' = some 'p' := congrArg List.head? h
    exact absurd h2 (by decide)
  obtain ⟨w2, hw2, ho, hp, hd⟩ := declare_new w1 (c.pystruct ++ "*".toList) c.var _ h0 hj hn rfl
  obtain ⟨d, vs, ops, parse, bu, ca, fl⟩ := w2
  have hp : parse = [] := hp
  have ho : ops = w1.ops := ho
  subst hp ho
  have hgen : pyToC (.cls c) {} = .ok { decls := d, vars := vs, build := bu, call := ca, flags := fl, parse := [⟨"O!".toList, ['&' :: c.pytype, '&' :: c.var], none, false⟩], ops := w1.ops ++ [.write 1 c.assign] ++ [.check 0 c.cond none] ++ [.cleanup 1] ++ [.ret 1 "return 1;".toList] } := by
    unfold pyToC
    show (clsP2c c "*address".toList false w1 >>= _) = _
    unfold clsP2c
    show ((w1.declare (c.pystruct ++ "*".toList) c.var none none >>= _) >>= _) = _
    rw [hw2]
    rfl
  unfold generated
  rw [hgen]
  have hd : (d.sinks 0).lines = _ := hd
  show some ((d.sinks 0).lines, _) = _
  rw [hd]
  rfl

theorem cond_cls (c : Names) : testOf (.cls c) c.cond = some (.parse "O!".toList ['&' :: c.pytype] [c.var]) := by
  exact if_pos rfl

theorem assign_cls (c : Names) : stmtOf (.cls c) c.assign = some (.assign "*address".toList (.objOf c.var)) := by
  exact if_pos rfl

theorem call_cls (E : Env T D) (c : Names) (hg : c.Good) (x : PyV T D) (old : Option (CE T D)) :
    call E (.cls c) x old = outcome ⟨E, .cls c, ["PyObject *py_retval;".toList, c.decl], x⟩ old c.rest
      (parsed ⟨E, .cls c, ["PyObject *py_retval;".toList, c.decl], x⟩ "O!".toList ['&' :: c.pytype] [c.var]) := by
  rw [call_of_generated E _ x old (generated_cls c hg), ← seen_shape]
  exact congrArg (fun e => seen (.ok e)) (exec_shape _ _ _ _ _ old _ (cond_cls c))

end Verif.Convert
