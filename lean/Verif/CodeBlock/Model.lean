import Verif.CodeSink.Spec

/-!
# Code blocks and cleanup actions  (pybindgen/typehandlers/base.py:88-240)
-/
namespace Verif.CodeBlock
open Verif

/-- Python dict with integer keys: association list in insertion order. -/
abbrev Dict := List (Nat × Str)

/-- `d[k] = v` (replaces in place, otherwise appends). -/
def Dict.set (d : Dict) (k : Nat) (v : Str) : Dict :=
  if d.any (·.1 == k) then d.map (fun p => if p.1 == k then (k, v) else p) else d ++ [(k, v)]

/-- `del d[k]`. -/
def Dict.del (d : Dict) (k : Nat) : PyRes Dict :=
  if d.any (·.1 == k) then .ok (d.filter (·.1 != k)) else .error .keyError

/-- `CodeBlock` fields, base.py:150-155 (`declarations` is modelled in `Verif.DeclScope`;
`predecessor` is the position in the chain, see `Chain`). -/
structure Block where
  sink : CodeSink.Mem := {}
  cleanup : Dict := []
  lastPos : Nat := 0
  errorReturn : Str := []
  deriving Repr, DecidableEq

/-- A chain of code blocks: the predecessor (base.py:151) of block `i+1` is block `i`, block `0`
has none.  A chain of any length is the initial part of it. -/
abbrev Chain := Nat → Block

def Chain.upd (c : Chain) (i : Nat) (b : Block) : Chain := fun j => if j = i then b else c j

/-- `CodeBlock.clear`, base.py:157-160. -/
def Block.clear (b : Block) : Block := { b with cleanup := [], lastPos := 0, sink := {} }

/-- `CodeBlock.add_cleanup_code`, base.py:183-191; returns the handle's position. -/
def Block.addCleanup (b : Block) (code : Str) : Block × Nat :=
  ({ b with lastPos := b.lastPos + 1, cleanup := b.cleanup.set (b.lastPos + 1) code },
   b.lastPos + 1)

/-- `CodeBlock.remove_cleanup_code`, base.py:193-197 (`CleanupHandle.cancel`, 106-108). -/
def Block.removeCleanup (b : Block) (pos : Nat) : PyRes Block :=
  (b.cleanup.del pos).map (fun d => { b with cleanup := d })

/-- Own part of `CodeBlock.get_cleanup_code`, base.py:203-208: items sorted (keys are distinct,
so sorting compares positions only), codes collected, reversed. -/
def Block.ownCleanup (b : Block) : List Str :=
  ((b.cleanup.mergeSort (fun a b => decide (a.1 ≤ b.1))).map (·.2)).reverse

/-- `CodeBlock.get_cleanup_code`, base.py:199-211. -/
def Chain.getCleanup (c : Chain) : Nat → List Str
  | 0 => (c 0).ownCleanup
  | i + 1 => (c (i + 1)).ownCleanup ++ c.getCleanup i

/-- Writing several chunks to a memory sink. -/
def writeAll (m : CodeSink.Mem) (chunks : List Str) : CodeSink.Mem :=
  chunks.foldl (fun m s => m.writeln s) m

/-- `CodeBlock.write_cleanup`, base.py:231-234, on the block's sink `m`. -/
def Chain.writeCleanupTo (c : Chain) (i : Nat) (m : CodeSink.Mem) : CodeSink.Mem :=
  writeAll m (c.getCleanup i)

/-- `CodeBlock.write_error_return`, base.py:236-240. -/
def Chain.writeErrorReturnTo (c : Chain) (i : Nat) (m : CodeSink.Mem) : CodeSink.Mem :=
  (c.writeCleanupTo i m).writeln (c i).errorReturn

/-- `CodeBlock.write_error_check`, base.py:213-229. -/
def Chain.writeErrorCheckTo (c : Chain) (i : Nat) (expr : Str) (failureCleanup : Option Str)
    (m : CodeSink.Mem) : PyRes CodeSink.Mem := do
  let m := m.writeln ("if (".toList ++ expr ++ ") {".toList)
  let m := { m with core := m.core.indent 4 }
  let m := match failureCleanup with
    | some x => m.writeln x
    | none => m
  let m := c.writeErrorReturnTo i m
  let m := { m with core := ← m.core.unindent }
  pure (m.writeln "}".toList)

/-- A client call on block `i` of the chain. -/
inductive Op where
  | add (i : Nat) (code : Str)
  | cancel (i : Nat) (pos : Nat)
  | clear (i : Nat)
  | writeCode (i : Nat) (code : Str)
  | indent (i : Nat) (level : Int)
  | unindent (i : Nat)
  | writeCleanup (i : Nat)
  | errorReturn (i : Nat)
  | errorCheck (i : Nat) (expr : Str) (failureCleanup : Option Str)
  deriving Repr, DecidableEq

/-- One client call; base.py:157-240. -/
def Chain.step (c : Chain) : Op → PyRes Chain
  | .add i code => .ok (c.upd i ((c i).addCleanup code).1)
  | .cancel i pos => do pure (c.upd i (← (c i).removeCleanup pos))
  | .clear i => .ok (c.upd i (c i).clear)
  | .writeCode i s => .ok (c.upd i { c i with sink := (c i).sink.writeln s })
  | .indent i n => .ok (c.upd i { c i with sink := { (c i).sink with core := (c i).sink.core.indent n } })
  | .unindent i => do
      let k ← (c i).sink.core.unindent
      pure (c.upd i { c i with sink := { (c i).sink with core := k } })
  | .writeCleanup i => .ok (c.upd i { c i with sink := c.writeCleanupTo i (c i).sink })
  | .errorReturn i => .ok (c.upd i { c i with sink := c.writeErrorReturnTo i (c i).sink })
  | .errorCheck i e x => do
      let m ← c.writeErrorCheckTo i e x (c i).sink
      pure (c.upd i { c i with sink := m })

/-- A series of calls, ended by the first exception. -/
def Chain.run (c : Chain) : List Op → PyRes Chain
  | [] => .ok c
  | o :: os => do (← c.step o).run os

/-- Freshly constructed blocks (base.py:115-155) with the given error returns. -/
def Chain.fresh (er : Nat → Str) : Chain := fun i => { errorReturn := er i }

end Verif.CodeBlock
