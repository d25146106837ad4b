import Verif.Wrapper.Forward
import Verif.Wrapper.FlowProps
import Verif.Wrapper.Texts

/-!
# What type handlers may do

The contracts under which the theorems about whole wrappers hold, and handlers bundled with the proof
that they follow them.
-/
namespace Verif.Wrap
open Verif Verif.Flow Verif.Params Verif.DeclScope

theorem bind_ok {α β : Type _} {x : PyRes α} {f : α → PyRes β} {y : β} :
    (x >>= f) = .ok y ↔ ∃ a, x = .ok a ∧ f a = .ok y := by
  cases x with
  | error e => simp [bind, Except.bind]
  | ok a => simp [bind, Except.bind]

/-- A generator piece only makes calls satisfying `P` on the code blocks. -/
def OpsIn (P : Op → Prop) (f : Gen1) : Prop :=
  ∀ w w', f w = .ok w' → ∃ l, w'.ops = w.ops ++ l ∧ ∀ op ∈ l, P op

/-- Calls allowed before and in the call of the C++ function: anything may be written; error checks
and branches leave from `before_parse` or `before_call`; cleanups go to `before_call`. -/
def Early : Op → Prop
  | .write _ _ => True
  | .check i _ _ => i ≤ 1
  | .branch i _ _ _ _ => i ≤ 1
  | .add i _ => i = 1
  | _ => False

/-- Calls allowed afterwards: everything concerns `after_call`. -/
def Late : Op → Prop
  | .write i _ => i = 2
  | .check i _ _ => i = 2
  | .branch i _ _ _ _ => i = 2
  | .add i _ => i = 2
  | _ => False

theorem declare_spec {w w' : W} {t n v : Str} {x a : Option Str}
    (h : w.declare t n x a = .ok (w', v)) :
    (w.decls.declare 0 t n x a).2 = .ok v ∧
      w' = { w with decls := (w.decls.declare 0 t n x a).1, vars := w.vars ++ [(v, x)] } := by
  unfold W.declare at h
  split at h
  · cases h
  · rename_i he
    simp only [Except.ok.injEq, Prod.mk.injEq] at h
    obtain ⟨h1, rfl⟩ := h
    exact ⟨he, h1.symm⟩

theorem declare_ops {w w' : W} {t n v : Str} {x a : Option Str}
    (h : w.declare t n x a = .ok (w', v)) : w'.ops = w.ops := by
  rw [(declare_spec h).2]

/-- Parsing calls in the generated code. -/
def parseChecks (ops : List Op) : List Str :=
  ops.filterMap (fun | .check 0 c _ => some c | _ => none)

theorem parseChecks_append (a b : List Op) : parseChecks (a ++ b) = parseChecks a ++ parseChecks b := by
  simp [parseChecks]

/-- Texts not starting with a newline; the two texts in question do. -/
def Q0 (s : Str) : Prop := s.head? ≠ some '\n'

/-- A name that does not start with a newline. -/
def NameOk (n : Str) : Prop := ∃ c cs, n = c :: cs ∧ c ≠ '\n'

theorem declare_nameOk {w w' : W} {t n v : Str} {x a : Option Str}
    (h : w.declare t n x a = .ok (w', v)) (hn : NameOk n) : NameOk v := by
  obtain ⟨c, cs, rfl, hc⟩ := hn
  have hv := (declare_spec h).1
  have : v = c :: cs ∨ v = c :: cs ++ natStr (w.decls.counts (c :: cs) + 1) := by
    unfold Family.declare Family.pick at hv
    dsimp only at hv
    split at hv
    · cases hv
    · cases hv
      split
      · exact Or.inl rfl
      · exact Or.inr rfl
  rcases this with rfl | rfl
  · exact ⟨c, cs, rfl, hc⟩
  · exact ⟨c, _, rfl, hc⟩

theorem q0_name {v : Str} (h : NameOk v) (x : Str) : Q0 (v ++ x) := by
  obtain ⟨c, cs, rfl, hc⟩ := h
  simpa [Q0] using hc

/-- A parameter handler that follows the rules: what it writes before the call is undone on every exit
(`early`), it adds one parsing unit carrying its name if it takes a value from Python and none
otherwise (`parses`), and it writes no text that looks like giving up the GIL (`quiet`). -/
structure Handler where
  convert : Gen1
  name : Str
  isIn : Bool
  early : OpsIn Early convert
  parses : ∀ w w', convert w = .ok w' → w'.flags = w.flags ∧ parseChecks w'.ops = parseChecks w.ops ∧
    ∃ l, w'.parse = w.parse ++ l ∧ l.map (·.name) = (if isIn then [some name] else []) ∧
      ∀ it ∈ l, it.template ≠ []
  quiet : NameOk name → OpsIn (OpQ Q0) convert

/-- A return value handler that follows the rules: everything it writes goes to `after_call`, it does not
touch the parameters to be parsed. -/
structure RetHandler where
  convert : Gen1
  late : OpsIn Late convert
  keeps : ∀ w w', convert w = .ok w' → w'.parse = w.parse ∧ w'.flags = w.flags ∧
    ∃ l, w'.vars = w.vars ++ l
  quiet : OpsIn (OpQ Q0) convert

theorem late_block {op : Op} (h : Late op) : op.block = 2 := by
  cases op <;> first | exact h | cases h

theorem late_checks : ∀ {l : List Op}, (∀ op ∈ l, Late op) → parseChecks l = []
  | [], _ => rfl
  | op :: l, h => by
    have h2 := late_checks (fun o ho => h o (List.mem_cons_of_mem _ ho))
    have h1 := h op List.mem_cons_self
    have : parseChecks [op] = [] := by
      cases op <;> first | rfl | (rw [show _ = 2 from h1]; rfl)
    rw [show op :: l = [op] ++ l from rfl, parseChecks_append, this, h2]
    rfl

/-- The return value handlers modelled. -/
inductive FRet where
  | void
  | scalar (fmt value : Str)
  | other (h : RetHandler)

def FRet.convert : FRet → Gen1
  | .void => voidReturn
  | .scalar f v => scalarReturn f v
  | .other h => h.convert

/-- All of them follow the rules. -/
def FRet.handler : FRet → RetHandler
  | .void =>
    { convert := voidReturn
      late := by intro w w' h; cases h; exact ⟨[], by simp, by simp⟩
      keeps := by intro w w' h; cases h; exact ⟨rfl, rfl, [], by simp [W.addBuild]⟩
      quiet := by intro w w' h; cases h; exact ⟨[], by simp, by simp⟩ }
  | .scalar f v =>
    { convert := scalarReturn f v
      late := by intro w w' h; cases h; exact ⟨[], by simp [W.addBuild], by simp⟩
      keeps := by intro w w' h; cases h; exact ⟨rfl, rfl, [], by simp [W.addBuild]⟩
      quiet := by intro w w' h; cases h; exact ⟨[], by simp [W.addBuild], by simp⟩ }
  | .other h => h

theorem FRet.handler_convert (r : FRet) : r.handler.convert = r.convert := by cases r <;> rfl

end Verif.Wrap
