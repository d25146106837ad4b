import Verif.Matcher.Props

/-!
# Which names a wrapped type is registered under

`CppClass.__init__`, `CppClass.register_alias` (called by `_update_names`, that is when the class
is put in a module, and by users for typedefs), the two memory policies that register pointer
handlers, `Enum.set_module`, `Container.__init__` and `Container.register_alias`: what they add to
the two global type registries (`param_type_matcher`, `return_type_matcher`).

A handler class created by these functions is represented by the wrapped type it belongs to (a
number) and its role.  The `CTYPES` lists these functions also fill are read by nobody afterwards
and are not modelled.
-/
namespace Verif.Register
open Verif Verif.CType Verif.Matcher

/-- The two global registries, base.py:1471-1472. -/
inductive Side where | param | ret
  deriving DecidableEq, Repr

/-- Roles of a handler class: by value, by reference, by pointer, by smart pointer. -/
inductive Role where | value | ref | ptr | shared
  deriving DecidableEq, Repr

/-- A handler class: made for wrapped type number `ent`, or any other one (built in types, …). -/
inductive Hd where
  | own (ent : Nat) (role : Role)
  | foreign (n : Nat)
  deriving DecidableEq, Repr

/-- The two registries. -/
structure Regs where
  param : Matcher Hd := {}
  ret : Matcher Hd := {}

def Regs.side (r : Regs) : Side → Matcher Hd
  | .param => r.param
  | .ret => r.ret

def Regs.setSide (r : Regs) : Side → Matcher Hd → Regs
  | .param, m => { r with param := m }
  | .ret, m => { r with ret := m }

/-- A run of consecutive `register` calls on one registry; `swallow` when they stand in
`try: … except ValueError: pass`. -/
structure Blk where
  side : Side
  swallow : Bool
  regs : List (Str × Hd)

/-- The calls of a block in order, up to the first that raises; what was registered before it
stays. -/
def doRegs (m : Matcher Hd) : List (Str × Hd) → Matcher Hd × CRes Unit
  | [] => (m, .ok ())
  | (n, h) :: rest =>
    match m.register n h with
    | .ok m' => doRegs m' rest
    | .raised e => (m, .raised e)
    | .unmodelled => (m, .unmodelled)
    | .running => (m, .running)

/-- `except ValueError: pass`. -/
def swallowed (swallow : Bool) : CRes Unit → CRes Unit
  | .raised .valueError => if swallow then .ok () else .raised .valueError
  | o => o

def doBlk (r : Regs) (b : Blk) : Regs × CRes Unit :=
  let (m, o) := doRegs (r.side b.side) b.regs
  (r.setSide b.side m, swallowed b.swallow o)

/-- Blocks in order, up to the first one with an exception that escapes. -/
def doBlks (r : Regs) : List Blk → Regs × CRes Unit
  | [] => (r, .ok ())
  | b :: rest =>
    match doBlk r b with
    | (r', .ok _) => doBlks r' rest
    | (r', o) => (r', o)

/-- What the memory policy of a class registers for pointers: `raw` for no policy and for the
policies that do not override `register_ptr_…` (reference counting, free functions);
`smart pre post` for `BoostSharedPtr` and `StdSharedPtr`, whose `pointer_template` is `pre%spost`
(typehandlers/smart_ptr.py:22, 106). -/
inductive Policy where
  | raw
  | smart (pre post : Str)
  deriving DecidableEq, Repr

def boost : Policy := .smart "::boost::shared_ptr< ".toList " >".toList
def std : Policy := .smart "::std::shared_ptr< ".toList " >".toList

def star : Str := ['*']
def amp : Str := ['&']

/-- Pointer handlers made by the constructor: cppclass.py:783-802 without a policy,
cppclass.py:115-135 with one, smart_ptr.py:42-60 with a smart pointer, where `cls.full_name` is
still `None` (cppclass.py:631). -/
def ptrInit (i : Nat) (pol : Policy) (name : Str) : List Blk :=
  match pol with
  | .raw => [⟨.param, true, [(name ++ star, .own i .ptr)]⟩, ⟨.ret, true, [(name ++ star, .own i .ptr)]⟩]
  | .smart pre post =>
    [⟨.param, true, [(pre ++ "None".toList ++ post, .own i .shared)]⟩,
     ⟨.ret, true, [(pre ++ "None".toList ++ post, .own i .shared)]⟩]

/-- The end of `CppClass.__init__`, cppclass.py:746-812, with `name` as given. -/
def classInit (i : Nat) (pol : Policy) (name : Str) : List Blk :=
  if name = "dummy".toList then []
  else
    [⟨.param, true, [(name, .own i .value)]⟩,
     ⟨.param, true, [(name ++ amp, .own i .ref)]⟩,
     ⟨.ret, true, [(name, .own i .value), (name, .own i .value)]⟩]
    ++ ptrInit i pol name
    ++ [⟨.ret, true, [(name ++ amp, .own i .ref)]⟩]

/-- Pointer handlers under another name: cppclass.py:1237-1246, 137-146, smart_ptr.py:62-72. -/
def ptrAlias (i : Nat) (pol : Policy) (a : Str) : List Blk :=
  match pol with
  | .raw => [⟨.param, true, [(a ++ star, .own i .ptr)]⟩, ⟨.ret, true, [(a ++ star, .own i .ptr)]⟩]
  | .smart pre post =>
    [⟨.param, true, [(pre ++ a ++ post, .own i .shared)]⟩, ⟨.ret, true, [(pre ++ a ++ post, .own i .shared)]⟩]

/-- `CppClass.register_alias`, cppclass.py:1216-1251 (without `module.register_type`, see
`Verif.Module`).  `_update_names` calls it with the full name (cppclass.py:1209). -/
def classAlias (i : Nat) (pol : Policy) (a : Str) : List Blk :=
  [⟨.param, true, [(a, .own i .value)]⟩,
   ⟨.param, true, [(a ++ amp, .own i .ref)]⟩,
   ⟨.ret, true, [(a, .own i .value)]⟩]
  ++ ptrAlias i pol a
  ++ [⟨.ret, true, [(a ++ amp, .own i .ref)]⟩]

/-- `Enum.set_module`, enum.py:67-131; `name` empty for an anonymous enum.  The registrations
under the full name are not protected (enum.py:113-116). -/
def enumModule (i : Nat) (name full : Str) : List Blk :=
  if name = [] then []
  else
    [⟨.param, false, [(full, .own i .value)]⟩,
     ⟨.ret, false, [(full, .own i .value)]⟩,
     ⟨.param, false, [(full ++ " &".toList, .own i .ref)]⟩,
     ⟨.param, false, [(full ++ " *".toList, .own i .ptr)]⟩]
    ++ if name ≠ full then
        [⟨.param, true, [(name, .own i .value)]⟩,
         ⟨.ret, true, [(name, .own i .value)]⟩,
         ⟨.param, true, [(name ++ " &".toList, .own i .ref)]⟩,
         ⟨.param, true, [(name ++ " *".toList, .own i .ptr)]⟩]
       else []

/-- The end of `Container.__init__`, container.py:154-196. -/
def containerInit (i : Nat) (name : Str) : List Blk :=
  if name = "dummy".toList then []
  else
    [⟨.param, true, [(name, .own i .value)]⟩,
     ⟨.param, true, [(name ++ amp, .own i .ref)]⟩,
     ⟨.param, true, [(name ++ star, .own i .ptr)]⟩,
     ⟨.ret, true, [(name, .own i .value), (name ++ amp, .own i .value)]⟩]

/-- `Container.register_alias`, container.py:264-283. -/
def containerAlias (i : Nat) (a : Str) : List Blk :=
  [⟨.param, true, [(a, .own i .value)]⟩,
   ⟨.param, true, [(a ++ amp, .own i .ref)]⟩,
   ⟨.ret, true, [(a, .own i .value)]⟩]

/-- What happens in a script, as far as the registries are concerned. -/
inductive Ev where
  | classNew (i : Nat) (pol : Policy) (name : Str)
  | classAlias (i : Nat) (pol : Policy) (a : Str)
  | enumModule (i : Nat) (name full : Str)
  | containerNew (i : Nat) (name : Str)
  | containerAlias (i : Nat) (a : Str)
  | other (s : Side) (op : Op Hd)

def Ev.blks : Ev → List Blk
  | .classNew i pol n => Register.classInit i pol n
  | .classAlias i pol a => Register.classAlias i pol a
  | .enumModule i n f => Register.enumModule i n f
  | .containerNew i n => Register.containerInit i n
  | .containerAlias i a => Register.containerAlias i a
  | .other _ _ => []

/-- One event: its effect and how it ends. -/
def step (r : Regs) (e : Ev) : Regs × CRes Unit :=
  match e with
  | .other s op => (r.setSide s ((r.side s).apply op), .ok ())
  | e => doBlks r e.blks

/-- The registries after a history (of calls whose exceptions, if any, are caught). -/
def run (es : List Ev) : Regs := es.foldl (fun r e => (step r e).1) {}

/-! ## The C type a handler object keeps -/

/-- The first argument of a handler class: a string, or a `TypeTraits` object. -/
inductive CtypeArg where
  | text (s : Str)
  | traits (t : Traits)

/-- `if ctype == self.cpp_class.name: ctype = self.cpp_class.full_name`, cppclass.py:2906-2907,
3051-3052, 3241-3242, 3300-3301, 3423-3424, 3730-3731 and container.py:648-649, 828-829.
`TypeTraits` defines no `__eq__`, so it never equals a string. -/
def fixCtype (name full : Str) : CtypeArg → CtypeArg
  | .text s => if s = name then .text full else .text s
  | .traits t => .traits t

/-- `TypeHandler.__init__`, base.py:1066-1090, the part setting `self.ctype`, without the
deprecated `is_const`. -/
def handlerCtype : CtypeArg → CRes Str
  | .text s => match CType.traits s with
    | .ok t => .ok (render t.ctype)
    | .raised e => .raised e
    | .unmodelled => .unmodelled
    | .running => .running
  | .traits t => .ok (render t.ctype)

/-- `Parameter.new(ctype, …)` and `ReturnValue.new(ctype, …)` for a type found without a
transformation, base.py:1142-1166, 1253-1290: the handler is constructed from the `TypeTraits`
object that `lookup` returned; the result is the `ctype` of the new object. -/
def newCtype (m : Matcher Hd) (name full s : Str) : CRes Str :=
  match m.lookup s with
  | .ok (_, none, t) => handlerCtype (fixCtype name full (.traits t))
  | .ok (_, some _, _) => .unmodelled
  | .raised e => .raised e
  | .unmodelled => .unmodelled
  | .running => .running

end Verif.Register
