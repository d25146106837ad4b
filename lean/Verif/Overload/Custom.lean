import Verif.Overload.Props
import Verif.Wrapper.Flags

/-!
# Hand-written wrappers in overload sets
(pybindgen/function.py:275-284, 314-350; pybindgen/cppmethod.py:1134-1170; pybindgen/overloading.py:85-303;
pybindgen/typehandlers/base.py:801-811, 966-985; pybindgen/module.py:724-743; pybindgen/cppclass.py:2395-2408)

The state that makes this interesting is kept: `meth_flags` of each wrapper, which the user sets for a
hand-written wrapper and `reset_code_generation_state` clears, and `force_parse`.
-/
namespace Verif.Custom
open Verif Verif.Overload

/-- What kind of wrapper it is. -/
inductive Impl where
  /-- generated from a declaration; `ins` are the names of the parameters taking a value from Python,
  `isStatic` is `CppMethod.is_static`.  Simplification: its code can always be generated (errors are C22 to C24). -/
  | ordinary (ins : List Str) (isStatic : Bool)
  /-- `CustomFunctionWrapper`/`CustomCppMethodWrapper(…, wrapper_name, wrapper_body)` -/
  | custom (name : Str) (body : Option Str)
  deriving DecidableEq

/-- A wrapper object.  Simplification: docstrings are left out (C48, C111). -/
structure Wr where
  impl : Impl
  /-- `wrapper_base_name` as set by `set_module`/`set_class`, function.py:172-176, cppmethod.py:230-234 -/
  base : Str
  /-- `force_parse == PARSE_TUPLE_AND_KEYWORDS` -/
  forced : Bool
  /-- `meth_flags` -/
  methFlags : List Str
  deriving DecidableEq

/-- To what the overload set belongs: a module, or a class with this `pystruct`. -/
inductive Owner where
  | «module»
  | cls (pystruct : Str)
  deriving DecidableEq

/-- `OverloadedWrapper.pystruct`, overloading.py:72; for methods `overload.pystruct = self.pystruct`. -/
def Owner.pystruct : Owner → Str
  | .module => "PyObject".toList
  | .cls p => p

/-- The input parameters; a hand-written wrapper is constructed with an empty parameter list
(function.py:331, cppmethod.py:1146). -/
def Wr.ins (w : Wr) : List Str :=
  match w.impl with
  | .ordinary ins _ => ins
  | .custom _ _ => []

def Wr.isStatic (w : Wr) : Bool :=
  match w.impl with
  | .ordinary _ s => s
  | .custom _ _ => false

/-- `NEEDS_OVERLOADING_INTERFACE`, function.py:322, cppmethod.py:1142. -/
def Wr.isCustom (w : Wr) : Bool :=
  match w.impl with
  | .ordinary _ _ => false
  | .custom _ _ => true

/-- The flags `generate_body` appends to `meth_flags`, base.py:897-922 (that these are the ones is
`C40_flags_partial`). -/
def Wr.bodyFlags (w : Wr) : List Str :=
  Wrap.expectedFlags w.ins (if w.forced then some .keywords else none)

/-- `get_py_method_def_flags`, base.py:966-985 and cppmethod.py:408-413: the flags recorded, if there are any;
otherwise the body is generated for nothing, and the state is reset, in which case `meth_flags` is empty as it
was.  The order of `list(set(…))` is not modelled. -/
def Wr.flags (w : Wr) : List Str :=
  Wrap.methodFlags (if w.methFlags = [] then w.bodyFlags else w.methFlags) w.isStatic

/-- `reset_code_generation_state`, base.py:801-811. -/
def Wr.reset (w : Wr) : Wr := { w with methFlags := [] }

def Wr.force (w : Wr) : Wr := { w with forced := true }

/-- What is written. -/
inductive Ev where
  /-- the text of a hand-written wrapper, as given -/
  | text (body : Str)
  /-- `PyObject * name(args);` -/
  | declare (name : Str) (args : List Str)
  /-- the definition of a generated wrapper -/
  | define (name : Str) (args : List Str)
  /-- the definition of a main wrapper, which calls these functions with these arguments, one after the other
  until one accepts (what surrounds the calls is `Overload.emitBody`, C23 and C24) -/
  | dispatch (name : Str) (args : List Str) (calls : List (Str × List Str))
  deriving DecidableEq

/-- `["PyObject **return_exception"]` -/
def extraParam : List Str := ["PyObject **return_exception".toList]

/-! ### One wrapper -/

mutual
/-- `CustomFunctionWrapper.generate`, function.py:340-345, with so many frames left on the Python stack;
`RecursionError` is a `RuntimeError`. -/
def fnGenerate : Nat → Str → Option Str → PyRes (List Ev)
  | 0, _, _ => .error .runtimeError
  | _ + 1, _, some b => .ok [.text b]
  | n + 1, name, none => fnDeclare n name none
/-- `Function.generate_declaration`, function.py:275-284, which `CustomFunctionWrapper` inherits: it generates the
wrapper into a `NullCodeSink` first. -/
def fnDeclare : Nat → Str → Option Str → PyRes (List Ev)
  | 0, _, _ => .error .runtimeError
  | n + 1, name, body =>
    match fnGenerate n name body with
    | .error e => .error e
    | .ok _ => .ok [.declare name (["PyObject *args".toList, "PyObject *kwargs".toList] ++ extraParam)]
end

/-- `CustomCppMethodWrapper.generate` and `generate_declaration`, cppmethod.py:1153-1167. -/
def methGenerate (p name : Str) : Option Str → List Ev
  | some b => [.text b]
  | none => [.declare name ([p ++ " *self".toList, "PyObject *args".toList, "PyObject *kwargs".toList] ++ extraParam)]

/-- The parameters of an ordinary wrapper (`C40`). -/
def ordinaryArgs (owner : Owner) (flags extra : List Str) : PyRes (List Str) :=
  match owner with
  | .module => .ok (Wrap.functionArgs flags none extra)
  | .cls p => Wrap.methodArgs flags p extra

/-- `wrapper.generate(code_sink, wrapper_name, extra_wrapper_params=extra)`: what is written, the name
`wrapper_actual_name`, the wrapper afterwards.  function.py:233-272, 340-345; cppmethod.py:376-406, 1153-1161. -/
def genOne (limit : Nat) (owner : Owner) (extra : List Str) (name : Str) (w : Wr) : PyRes (List Ev × Str × Wr) :=
  match w.impl with
  | .ordinary _ _ =>
    let w' := { w with methFlags := w.methFlags ++ w.bodyFlags }
    match ordinaryArgs owner w'.flags extra with
    | .error e => .error e
    | .ok args => .ok ([.define name args], name, w')
  | .custom n body =>
    if extra ≠ extraParam then .error .assertionError else
    match owner with
    | .module =>
      match fnGenerate limit n body with
      | .error e => .error e
      | .ok evs => .ok (evs, n, w)
    | .cls p => .ok (methGenerate p n body, n, w)

/-! ### The set -/

/-- What the flag normalisation looks at. -/
def ops (h : Utils.Handler Wr) : Ops Wr where
  flags := fun w => .ok w.flags
  gen := fun _ => .ok ()
  needsIface := Wr.isCustom
  docstring := fun _ => none
  handler := h

/-- `_normalize_py_method_flags`, overloading.py:85-127: the wrappers left in the set. -/
def normal (h : Utils.Handler Wr) (ws : List Wr) : PyRes (List Wr) :=
  if ws.length = 1 then .ok ws else normalize (ops h) (ws.map Wr.force)

/-- The loop of overloading.py:167-193; the parameters for parse errors are left out. -/
def delegates (limit : Nat) (owner : Owner) (base : Str) : Nat → List Wr → PyRes (List Ev × List Str × List Wr)
  | _, [] => .ok ([], [], [])
  | k, w :: ws =>
    match genOne limit owner extraParam (delegateName base k) w.force with
    | .error e => .error e
    | .ok (evs, n, w') =>
      match delegates limit owner base (k + 1) ws with
      | .error e => .error e
      | .ok (evs', ns, ws') => .ok (evs ++ evs', n :: ns, w' :: ws')

/-- The arguments of a call of a delegate, overloading.py:217-222. -/
def callArgs (flags : List Str) (k : Nat) : List Str :=
  ["self".toList] ++ (if flags.contains "METH_VARARGS".toList then ["args".toList] else []) ++
  (if flags.contains "METH_KEYWORDS".toList then ["kwargs".toList] else []) ++
  ["&exceptions[".toList ++ natStr k ++ "]".toList]

/-- The calls, overloading.py:215-223. -/
def calls (flags : List Str) : Nat → List Str → List (Str × List Str)
  | _, [] => []
  | k, n :: ns => (n, callArgs flags k) :: calls flags (k + 1) ns

/-- Name and parameters of the function for the method table, `wrapper_actual_name` and `wrapper_args`. -/
structure Sig where
  name : Str
  args : List Str
  deriving DecidableEq

/-- overloading.py:160-248. -/
def many (limit : Nat) (owner : Owner) (w : Wr) (ws : List Wr) : PyRes (List Ev × Sig × List Wr) :=
  match delegates limit owner w.base 0 ws with
  | .error e => .error e
  | .ok (evs, ns, ws') =>
    let args := wrapperArgs owner.pystruct w.flags
    .ok (evs ++ [.dispatch w.base args (calls w.flags 0 ns)], ⟨w.base, args⟩, ws')

/-- overloading.py:145-248, on the wrappers left. -/
def genKept (limit : Nat) (owner : Owner) : List Wr → PyRes (List Ev × Sig × List Wr)
  | [] => .error .skipWrapper
  | [w] =>
    if w.isCustom then many limit owner w [w]
    else match genOne limit owner [] w.base w with
      | .error e => .error e
      | .ok (evs, n, w') => .ok (evs, ⟨n, (evs.flatMap fun | .define _ a => a | _ => [])⟩, [w'])
  | w :: ws => many limit owner w (w :: ws)

/-- `OverloadedWrapper.generate`, overloading.py:139-250. -/
def generate (limit : Nat) (h : Utils.Handler Wr) (owner : Owner) (ws : List Wr) :
    PyRes (List Ev × Sig × List Wr) :=
  match normal h ws with
  | .error e => .error e
  | .ok kept => genKept limit owner kept

/-- An entry of the method table: the C function and the flags. -/
structure Entry where
  name : Str
  flags : List Str
  deriving DecidableEq

/-- `get_py_method_def`, overloading.py:252-293 (and function.py:286-303, cppmethod.py:415-424 for one ordinary
wrapper); `ws` is `all_wrappers`. -/
def tableEntry (h : Utils.Handler Wr) (sig : Sig) (ws : List Wr) : PyRes Entry :=
  match ws with
  | [] => .error .indexError
  | [w] => .ok ⟨sig.name, w.flags⟩
  | w :: ws' =>
    match normal h (w :: ws') with
    | .error e => .error e
    | .ok _ => if (w :: ws').all (fun v => sameSet v.force.flags w.force.flags) then .ok ⟨sig.name, w.force.flags⟩
        else .error .assertionError

/-- What a set of functions contributes to the output. -/
structure Output where
  /-- the file of the section, module.py:733 -/
  code : List Ev
  /-- the main file, module.py:737 -/
  declaration : List Ev
  entry : Entry
  deriving DecidableEq

/-- A set of functions in `Module._do_generate`, module.py:729-743: the code, the declaration
(`generate_declaration`, overloading.py:295-303), the table entry. -/
def moduleFunction (limit : Nat) (h : Utils.Handler Wr) (ws : List Wr) : PyRes Output :=
  match generate limit h .module ws with
  | .error e => .error e
  | .ok (code, _, ws1) =>
    match generate limit h .module (ws1.map Wr.reset) with
    | .error e => .error e
    | .ok (_, sig, ws2) =>
      match tableEntry h sig (ws2.map Wr.reset) with
      | .error e => .error e
      | .ok entry => .ok ⟨code, [.declare sig.name sig.args], entry⟩

/-- A set of methods in `CppClass._generate_methods`, cppclass.py:2398-2408. -/
def classMethod (limit : Nat) (h : Utils.Handler Wr) (p : Str) (ws : List Wr) : PyRes Output :=
  match generate limit h (.cls p) ws with
  | .error e => .error e
  | .ok (code, sig, ws1) =>
    match tableEntry h sig ws1 with
    | .error e => .error e
    | .ok entry => .ok ⟨code, [], entry⟩

end Verif.Custom
