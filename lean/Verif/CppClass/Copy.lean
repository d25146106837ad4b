import Verif.Handlers.Returns

/-!
# `__copy__`

`CppClass._generate_copy_method` (pybindgen/cppclass.py:2291-2322), the method table entry (2414-2421), and how
Python finds the method.

The statements other than the copy itself are those of `Handlers/Returns.lean`, with their effect; what C++
objects contain and which attributes Python instances have is added to that state.

Simplifications: texts are not rendered; `PyObject_New` and `new` do not fail; the copy constructor does not throw.
-/
namespace Verif.Copy
open Verif Verif.Returns
open Verif.Lifetime (World upd)

/-- A wrapped class: what `Handlers/Returns.lean` needs, and its identity (of the type object and of the C++ class). -/
structure CCls extends RCls where
  id : Nat
  /-- the class and its C++ bases -/
  anc : List Nat

/-- Statements of `__copy__`. -/
inductive Stmt where
  | prim (p : Prim)
  /-- `py_copy->obj = new K(*self->obj);` -/
  | copyObj
  deriving DecidableEq, Repr

/-- `_generate_copy_method`, cppclass.py:2291-2322; `write_register_new_wrapper` gets `py_copy->obj` whatever the memory
policy. -/
def copyCode (c : RCls) : PyRes (List Stmt) :=
  if !c.constructible then .error .codeGenerationError
  else .ok ((allocate c false).map Stmt.prim ++ [.copyObj] ++ (if c.subclassing then [.prim .dictNull] else []) ++
    [.prim (.flags false)] ++ (registerNew c false).map Stmt.prim)

/-- The entry of the method table, cppclass.py:2414-2421; `skip` says that the error handler answers an error with
`SkipWrapper` (utils.py:178-197). -/
def copyEntry (c : RCls) (skip : Bool) : PyRes (Option (List Stmt)) :=
  if c.hasCopy then
    match copyCode c with
    | .ok l => .ok (some l)
    | .error e => if skip then .ok none else .error e
  else .ok none

/-- A smart pointer is not assigned from `new`. -/
def Stmt.typed (c : RCls) : Stmt → Bool
  | .prim p => p.typed c .pointer
  | .copyObj => !c.policy.isSmart

/-! ## Run time -/

/-- What a C++ object contains: the class it was created as, and the state of each of its subobjects. -/
structure Inst (V : Type) where
  dyn : Nat
  part : Nat → Option V

/-- `K(object)`: an object of class `c` with the state of the subobjects `c` has. -/
def Inst.slice {V : Type} (c : CCls) (i : Inst V) : Inst V :=
  ⟨c.id, fun k => if k ∈ c.anc then i.part k else none⟩

/-- The process, with the contents of objects and the attributes set on Python instances. -/
structure S (V : Type) where
  m : M
  cont : Nat → Inst V
  attrs : Nat → List Str

/-- The effect of a statement; `self` is the wrapper copied. -/
def Stmt.exec {V : Type} (c : CCls) (e : Env) (self : Nat) (s : S V) : Stmt → S V
  | .prim p =>
    { s with m := p.exec c.toRCls e s.m
             attrs := match p, s.m.py with
               | .dictNull, some w => upd s.attrs w []
               | .new _, _ => upd s.attrs s.m.world.next []
               | _, _ => s.attrs }
  | .copyObj =>
    match (s.m.world.ws self).obj with
    | none => { s with m := s.m.crash }
    | some a =>
      match s.m.world.heap a with
      | none => { s with m := s.m.crash }
      | some _ =>
        { s with m := s.m.withPy (fun w =>
                   { s.m with world := Lifetime.setObj (Lifetime.alloc s.m.world e.fresh none) w (some e.fresh) })
                 cont := upd s.cont e.fresh ((s.cont a).slice c) }

def execAll {V : Type} (c : CCls) (e : Env) (self : Nat) : List Stmt → S V → S V
  | [], s => s
  | p :: l, s => execAll c e self l (p.exec c e self s)

/-- The method `__copy__` of an instance is that of the first class, from its own upwards, that has one: the
classes of `tp_base` (method tables are searched along the type's MRO). -/
def findCopy : List (CCls × Option (List Stmt)) → Option (CCls × List Stmt)
  | [] => none
  | (c, some l) :: _ => some (c, l)
  | (_, none) :: r => findCopy r

end Verif.Copy
