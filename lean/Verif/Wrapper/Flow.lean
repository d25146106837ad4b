import Verif.Basic

/-!
# Control flow of generated wrapper functions

A wrapper function body is the concatenation of the code blocks of a chain
(`before_parse`, `before_call`, `after_call`), each of which was filled by calls of the `CodeBlock`
methods (base.py:88-240) made in *generation order*, which differs from the order in which the
blocks run.  Here the emitted statements are kept structured, so that the executions of the
function can be defined: every `if (...) { ...; return }` written by the generator is a point
where an execution may leave.

Simplifications.  Text passed to `write_code` is an opaque action.  Loops and conditionals written
as text around other calls are executed straight through; an error check may thus stand for several
dynamic checks.  Declarations are not part of the flow.
-/
namespace Verif.Flow

/-- What a statement does. -/
inductive Act where
  /-- text written by a client -/
  | code (s : Str)
  /-- cleanup number `k` of block `i` -/
  | clean (i k : Nat) (s : Str)
  /-- leave the function -/
  | ret (s : Str)
  deriving DecidableEq, Repr

inductive Stmt where
  | act (a : Act)
  /-- ghost: from here on cleanup `k` of block `i` is due (`add_cleanup_code` was called here) -/
  | acq (i k : Nat) (s : Str)
  /-- a branch that leaves the function after the given actions -/
  | exit (cond : Str) (body : List Act)
  deriving DecidableEq, Repr

/-- A `CodeBlock` (base.py:150-155): statements written, cleanups due (newest first), number of
cleanups ever added (`_last_cleanup_position`), `error_return`. -/
structure Blk where
  stmts : List Stmt := []
  due : List (Nat × Str) := []
  count : Nat := 0
  er : Str := []

/-- A chain of blocks, the predecessor of block `i+1` being block `i`. -/
abbrev Gen := Nat → Blk

def Gen.upd (g : Gen) (i : Nat) (b : Blk) : Gen := fun j => if j = i then b else g j

/-- `get_cleanup_code`, base.py:199-211: own cleanups, newest first, then the predecessor's. -/
def Gen.cleanup (g : Gen) : Nat → List Act
  | 0 => (g 0).due.map (fun p => .clean 0 p.1 p.2)
  | i + 1 => (g (i + 1)).due.map (fun p => .clean (i + 1) p.1 p.2) ++ g.cleanup i

/-- A call made by the generator on block `i`. -/
inductive Op where
  /-- `write_code(s)` -/
  | write (i : Nat) (s : Str)
  /-- `write_error_check(cond, extra)`, base.py:213-229 -/
  | check (i : Nat) (cond : Str) (extra : Option Str)
  /-- a branch written by hand: `write_code(cond {)`, `pre`, `write_cleanup()`, `post`, a
  return statement, `}` (e.g. the catch clauses, cppmethod.py:299-308) -/
  | branch (i : Nat) (cond : Str) (pre post : List Str) (r : Str)
  /-- a branch written by hand that returns *without* `write_cleanup()` -/
  | bare (i : Nat) (cond : Str) (pre : List Str) (r : Str)
  /-- `add_cleanup_code(s)`, base.py:183-191 -/
  | add (i : Nat) (s : Str)
  /-- assignment to `error_return` -/
  | setErr (i : Nat) (s : Str)
  /-- `write_cleanup()` on block `i`, base.py:231-234 -/
  | cleanup (i : Nat)
  /-- a return statement -/
  | ret (i : Nat) (r : Str)
  deriving DecidableEq, Repr

/-- Append statements to a block. -/
def Gen.emit (g : Gen) (i : Nat) (l : List Stmt) : Gen :=
  g.upd i { g i with stmts := (g i).stmts ++ l }

/-- One generator call, base.py:157-240. -/
def Gen.step (g : Gen) : Op → Gen
  | .write i s => g.emit i [.act (.code s)]
  | .check i cond extra =>
    g.emit i [.exit cond (extra.toList.map .code ++ g.cleanup i ++ [.ret (g i).er])]
  | .branch i cond pre post r =>
    g.emit i [.exit cond (pre.map .code ++ g.cleanup i ++ post.map .code ++ [.ret r])]
  | .bare i cond pre r => g.emit i [.exit cond (pre.map .code ++ [.ret r])]
  | .add i s =>
    g.upd i { g i with stmts := (g i).stmts ++ [.acq i ((g i).count + 1) s]
                       due := ((g i).count + 1, s) :: (g i).due
                       count := (g i).count + 1 }
  | .setErr i s => g.upd i { g i with er := s }
  | .cleanup i => g.emit i ((g.cleanup i).map .act)
  | .ret i r => g.emit i [.act (.ret r)]

def Gen.run (g : Gen) (ops : List Op) : Gen := ops.foldl Gen.step g

/-- New blocks with the given error returns. -/
def Gen.fresh (er : Nat → Str) : Gen := fun i => { er := er i }

/-- The function body: the blocks in order (base.py:960-964 and 678-681). -/
def Gen.body (g : Gen) : Nat → List Stmt
  | 0 => []
  | n + 1 => g.body n ++ (g n).stmts

/-! ## Executions -/

/-- What is observed during an execution. -/
inductive Ev where
  | did (a : Act)
  /-- execution passed the point at which this cleanup became due -/
  | took (i k : Nat) (s : Str)
  /-- a condition was tested and false -/
  | passed (cond : Str)
  /-- a condition was tested and true -/
  | left (cond : Str)
  deriving DecidableEq, Repr

/-- The executions of a statement list. -/
inductive Path : List Stmt → List Ev → Prop
  | nil : Path [] []
  | code {s rest t} : Path rest t → Path (.act (.code s) :: rest) (.did (.code s) :: t)
  | clean {i k s rest t} : Path rest t → Path (.act (.clean i k s) :: rest) (.did (.clean i k s) :: t)
  | ret {r rest} : Path (.act (.ret r) :: rest) [.did (.ret r)]
  | acq {i k s rest t} : Path rest t → Path (.acq i k s :: rest) (.took i k s :: t)
  | pass {c b rest t} : Path rest t → Path (.exit c b :: rest) (.passed c :: t)
  | leave {c b rest} : Path (.exit c b :: rest) (.left c :: b.map .did)

/-- The cleanups run in an execution, in order. -/
def cleaned (t : List Ev) : List (Nat × Nat × Str) :=
  t.filterMap (fun | .did (.clean i k s) => some (i, k, s) | _ => none)

/-- The cleanups that became due in an execution, in order. -/
def taken (t : List Ev) : List (Nat × Nat × Str) :=
  t.filterMap (fun | .took i k s => some (i, k, s) | _ => none)

end Verif.Flow
