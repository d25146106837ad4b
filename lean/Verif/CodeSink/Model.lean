import Verif.Basic

/-!
# Code sinks  (pybindgen/typehandlers/codesink.py)
-/
namespace Verif.CodeSink
open Verif

/-- `CodeSink.__init__` fields, codesink.py:44-45.  `stack` has its top at the head
(Python appends/pops at the end).  `DEBUG` (line 13) is 0, so the debugging branch of
`unindent` (lines 70-78) is not modelled. -/
structure Core where
  level : Int := 0
  stack : List Int := []
  deriving Repr, DecidableEq

/-- `CodeSink._format_code`, codesink.py:49-56. -/
def Core.format (c : Core) (code : Str) : List Str :=
  (splitOn '\n' code).map (fun line => spaces c.level ++ line)

/-- `CodeSink.indent`, codesink.py:62-66. -/
def Core.indent (c : Core) (level : Int) : Core :=
  { level := c.level + level, stack := c.level :: c.stack }

/-- `CodeSink.unindent`, codesink.py:68-80 (non-debug branch, line 80). -/
def Core.unindent (c : Core) : PyRes Core :=
  match c.stack with
  | [] => .error .indexError
  | l :: st => .ok { level := l, stack := st }

/-- `MemoryCodeSink`, codesink.py:104-110. -/
structure Mem where
  core : Core := {}
  lines : List Str := []
  deriving Repr, DecidableEq

/-- `MemoryCodeSink.writeln`, codesink.py:112-114. -/
def Mem.writeln (m : Mem) (code : Str) : Mem :=
  { m with lines := m.lines ++ m.core.format code }

/-- `FileCodeSink`, codesink.py:83-90; `content` is everything written to the file. -/
structure File where
  core : Core := {}
  content : Str := []
  deriving Repr, DecidableEq

/-- `FileCodeSink.writeln`, codesink.py:95-98. -/
def File.writeln (f : File) (code : Str) : File :=
  { f with content := f.content ++ pyJoin ['\n'] (f.core.format code) ++ ['\n'] }

/-- The sinks `flush_to` may be given (codesink.py:83,104,134). -/
inductive Sink where
  | mem (m : Mem)
  | file (f : File)
  | null (c : Core)
  deriving Repr, DecidableEq

/-- `sink.writeln` by dynamic dispatch (codesink.py:95,112,142). -/
def Sink.writeln : Sink → Str → Sink
  | .mem m, s => .mem (m.writeln s)
  | .file f, s => .file (f.writeln s)
  | .null c, _ => .null c

/-- `MemoryCodeSink.flush_to`, codesink.py:116-123.  Returns the emptied source and the target.
The target is a different object than the source (flushing a sink to itself does not terminate
in Python and is not modelled). -/
def Mem.flushTo (m : Mem) (sink : Sink) : Mem × Sink :=
  ({ m with lines := [] }, m.lines.foldl (fun s line => s.writeln (rstrip line)) sink)

/-- `MemoryCodeSink.flush`, codesink.py:125-131. -/
def Mem.flush (m : Mem) : Mem × Str :=
  ({ m with lines := [] }, pyJoin ['\n'] (m.lines.flatMap m.core.format) ++ ['\n'])

/-- `flush_to` on any sink, codesink.py:116, 146-150 (`FileCodeSink` has no such method). -/
def Sink.flushTo : Sink → Sink → PyRes (Sink × Sink)
  | .mem m, t => .ok (.mem (m.flushTo t).1, (m.flushTo t).2)
  | .file _, _ => .error .attributeError
  | .null _, _ => .error .typeError

/-- One call on a sink by a client. -/
inductive Op where
  | writeln (s : Str)
  | indent (level : Int)
  | unindent
  deriving Repr, DecidableEq

/-- One client call on a memory sink. -/
def Mem.step (m : Mem) : Op → PyRes Mem
  | .writeln s => .ok (m.writeln s)
  | .indent n => .ok { m with core := m.core.indent n }
  | .unindent => m.core.unindent.map (fun c => { m with core := c })

/-- A series of client calls; the first exception ends it. -/
def Mem.run : Mem → List Op → PyRes Mem
  | m, [] => .ok m
  | m, o :: os => do (← m.step o).run os

/-- One client call on a file sink. -/
def File.step (f : File) : Op → PyRes File
  | .writeln s => .ok (f.writeln s)
  | .indent n => .ok { f with core := f.core.indent n }
  | .unindent => f.core.unindent.map (fun c => { f with core := c })

/-- A series of client calls on a file sink. -/
def File.run : File → List Op → PyRes File
  | f, [] => .ok f
  | f, o :: os => do (← f.step o).run os

end Verif.CodeSink
