import Verif.Module.Props

/-!
# Writing a module tree out  (pybindgen/module.py:110-179, 677-875, 910-929)

What each wrapper writes is arbitrary text here; the model is about where it goes and in which
order.
-/
namespace Verif.Module
open Verif

/-- Output files: the common header (in single-file mode, the in-memory `includes` sink), the main
file (in single-file mode, the in-memory `code_sink`), and whatever files a factory has for
sections. -/
inductive Sink where
  | header
  | main
  | file (n : Nat)
  deriving DecidableEq, Repr

/-- Lines of output that matter for ordering. -/
inductive Line where
  /-- `utils.write_preamble` -/
  | preamble
  /-- `#include "common header"`, module.py:136-137, 150 -/
  | commonInclude
  /-- `#include %s` of an `add_include`, module.py:692 -/
  | incl (s : Str)
  /-- forward declarations, module.py:684-695 -/
  | forward (s : Str)
  /-- anything a wrapper writes -/
  | text (s : Str)
  /-- `static PyMethodDef P_functions[] = {rows}`, module.py:746-753 -/
  | table (pre : Str) (rows : List Str)
  /-- `static struct PyModuleDef P_moduledef`, which names `P_functions`, module.py:825-835 -/
  | moduleDef (pre : Str)
  /-- the init function of the module with this prefix; it names `P_moduledef` and calls the init
  functions of the submodules with these prefixes, module.py:710-720, 807-816, 837-875 -/
  | initFn (pre : Str) (calls : List Str)
  deriving DecidableEq, Repr

/-- A class, container, exception or enum, or an overload set: the section it was added in
(never `None`: `wrapper.section = self.current_section`), what it writes to its own sink, to the
header sink it is handed (enum declarations, module.py:804), to the main sink (declarations of
functions, module.py:737), to `module.header` and to `module.body`, and its row in the function
table, none when it was skipped. -/
structure Item where
  section_ : Str
  own : List Str
  hdr : List Str
  decl : List Str
  headerBuf : List Str
  bodyBuf : List Str
  row : Option Str

/-- A module: prefix, overload sets, the other items in the order classes imported, classes,
containers, exceptions, enums (module.py:755-805), and submodules. -/
inductive GMod where
  | mk (pre : Str) (funcs items : List Item) (subs : List GMod)

def GMod.pre : GMod → Str
  | .mk p _ _ _ => p

/-- Single file (`_MonolithicSinkManager`) or a `MultiSectionFactory` with this assignment of
files to section names. -/
inductive Mgr where
  | mono
  | multi (fac : Str → Sink)

/-- State of a run. -/
structure GSt where
  /-- everything written, in order -/
  out : List (Sink × Line)
  /-- `_already_initialized_sections` -/
  inited : List Str
  /-- contents of `module.header` and `module.body`, shared by the whole tree -/
  headerBuf : List Str
  bodyBuf : List Str

def GSt.write (st : GSt) (s : Sink) (ls : List Line) : GSt :=
  { st with out := st.out ++ ls.map (fun l => (s, l)) }

/-- The manager's constructor, module.py:132-139 and 163-170.  In single-file mode the preamble
goes to the final sink at once; here it is kept as the first line of `header`, which is what is
flushed first (`close`, module.py:177-179). -/
def startMgr : Mgr → GSt
  | .mono => { out := [(.header, .preamble)], inited := [], headerBuf := [], bodyBuf := [] }
  | .multi _ => { out := [(.header, .preamble), (.main, .commonInclude)], inited := [mainSection],
                  headerBuf := [], bodyBuf := [] }

/-- `get_code_sink_for_wrapper`, module.py:141-151, 171-172; the section is never `None`. -/
def openSink (mgr : Mgr) (st : GSt) (sec : Str) : GSt × Sink :=
  match mgr with
  | .mono => (st, .main)
  | .multi fac =>
    if sec ∈ st.inited then (st, fac sec)
    else ({ st with inited := sec :: st.inited }.write (fac sec) [.commonInclude], fac sec)

/-- The header sink of `get_code_sink_for_wrapper`. -/
def hdrSink : Mgr → Sink
  | .mono => .main
  | .multi _ => .header

/-- Generate one wrapper, module.py:730-742, 760-768, 775-778, 785-788, 801-805. -/
def genItem (mgr : Mgr) (st : GSt) (it : Item) : GSt :=
  let (st, sink) := openSink mgr st it.section_
  let st := st.write sink (.text [] :: it.own.map .text)
  let st := st.write .main (it.decl.map .text)
  let st := st.write (hdrSink mgr) (it.hdr.map .text)
  { st with headerBuf := st.headerBuf ++ it.headerBuf, bodyBuf := st.bodyBuf ++ it.bodyBuf }

def genItems (mgr : Mgr) (st : GSt) (its : List Item) : GSt := its.foldl (genItem mgr) st

/-- The end of `do_generate` for one module, module.py:745-753 up to 875, given its own items. -/
def genOwn (mgr : Mgr) (st : GSt) (pre : Str) (funcs items : List Item) (subPres : List Str) : GSt :=
  let st := genItems mgr st funcs
  let st := st.write .main [.table pre (funcs.filterMap (·.row))]
  let st := genItems mgr st items
  let st := { st with headerBuf := [] }.write .header (st.headerBuf.map .text)
  let st := { st with bodyBuf := [] }.write .main (st.bodyBuf.map .text)
  st.write .main [.moduleDef pre, .initFn pre subPres]

mutual
/-- `do_generate` below the root part, module.py:700-875: submodules first. -/
def genMod (mgr : Mgr) (st : GSt) : GMod → GSt
  | .mk pre funcs items subs => genOwn mgr (genMods mgr st subs) pre funcs items (subs.map GMod.pre)
/-- module.py:701-702 -/
def genMods (mgr : Mgr) (st : GSt) : List GMod → GSt
  | [] => st
  | m :: ms => genMods mgr (genMod mgr st m) ms
end

/-- `Module.generate`, module.py:910-929: includes and forward declarations, then the tree. -/
def generate (mgr : Mgr) (includes fwd : List Str) (m : GMod) : GSt :=
  genMod mgr ((startMgr mgr).write .header (includes.map .incl ++ fwd.map .forward)) m

/-- The contents of a file at the end. -/
def GSt.content (st : GSt) (s : Sink) : List Line := (st.out.filter (fun p => p.1 = s)).map (·.2)

/-- Single-file output: `close` flushes the includes and then the code, module.py:177-179. -/
def monoText (st : GSt) : List Line := st.content .header ++ st.content .main

end Verif.Module
