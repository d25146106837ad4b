import Verif.Names.Props
import Verif.Wrapper.Proxy

/-!
# C++ exceptions, and the order in which types are generated and initialised

`CppException` (pybindgen/cppexception.py), the catch clauses of functions and methods
(pybindgen/function.py:193-221, pybindgen/cppmethod.py:273-308, 649-701), and the order in which
`Module.do_generate` (pybindgen/module.py:700-816) generates the types of a module tree, against the
order in which the generated init functions set them up.
-/
namespace Verif.Exceptions
open Verif Verif.Flow Verif.Wrap Verif.Names

/-! ## Messages -/

/-- `fmt % dict(EXC=v)`, cppexception.py:61.  Only `%(EXC)s` and `%%` are modelled; anything else after
a `%` gives `none` (Python raises, or would need conversions nobody writes here). -/
def formatExc (v : Str) : Str → Option Str
  | [] => some []
  | '%' :: '%' :: rest => (formatExc v rest).map ('%' :: ·)
  | '%' :: '(' :: 'E' :: 'X' :: 'C' :: ')' :: 's' :: rest => (formatExc v rest).map (v ++ ·)
  | '%' :: _ => none
  | c :: rest => (formatExc v rest).map (c :: ·)

/-- An exception class: its names, `message_rvalue`. -/
structure Exc where
  decl : ExcDecl
  message : Option Str := none

/-- `write_convert_to_python`, cppexception.py:56-61; `pre` is the capitalized `settings.name_prefix`. -/
def Exc.convert (pre : Str) (e : Exc) (v : Str) : Option Str :=
  match e.message with
  | none => some ("PyErr_SetNone((PyObject *) ".toList ++ e.decl.pytypestruct pre ++ ");".toList)
  | some m => (formatExc v m).map fun t =>
      "PyErr_SetString((PyObject *) ".toList ++ e.decl.pytypestruct pre ++ ", ".toList ++ t ++ ");".toList

/-- The catch clauses for `throw=excs`, function.py:212-219: the type caught and the conversion, in
the order of the list; `none` if a message cannot be formatted. -/
def clauses (pre : Str) : List Exc → Option (List (Str × Str))
  | [] => some []
  | e :: es => do
    let t ← e.convert pre "exc".toList
    let r ← clauses pre es
    pure ((e.decl.fullName, t) :: r)

/-- `generate_forward_declarations` and the definition written by `generate`,
cppexception.py:130-136, 143-146: a variable of its own unless it is a standard exception. -/
def Exc.definition (pre : Str) (e : Exc) : Option Str :=
  if e.decl.isStandard then none
  else some ("PyTypeObject *".toList ++ e.decl.pytypestruct pre ++ ";".toList)

/-- The init code that creates the Python exception, cppexception.py:149-154: a check that fails
exactly when the creation fails.  `path` is `python_full_name`. -/
def Exc.create (pre path : Str) (parent : Option ExcDecl) (e : Exc) : Str :=
  "(".toList ++ e.decl.pytypestruct pre ++ " = (PyTypeObject*) PyErr_NewException((char*)\"".toList ++ path ++
    "\", ".toList ++ (match parent with
      | none => "NULL".toList
      | some p => "(PyObject*) ".toList ++ p.pytypestruct pre) ++ ", NULL)) == NULL".toList

/-! ## Order of generation and initialisation -/

/-- Types a module can hold.  Enums are set up like types that nothing depends on. -/
inductive Kind where
  | cls | container | exc | enum
  deriving DecidableEq, Repr

/-- One call of `add_class`, `add_container`, `add_exception` or `add_enum`: the module, what is
added, `outer_class`, the base classes (`parent`), and for exceptions `is_standard_error`.  Types are
referred to by the number of the call that added them. -/
structure Item where
  mod : Nat
  kind : Kind
  outer : Option Nat := none
  bases : List Nat := []
  std : Bool := false
  deriving DecidableEq, Repr

/-- A module with its submodules. -/
inductive Tree where
  | node (m : Nat) (subs : List Tree)

/-- The types of kind `k` added to module `m`, in the order they were added (module.py:549-589: all
four lists are appended to). -/
def ownKind (h : List Item) (m : Nat) (k : Kind) : List Nat :=
  (List.range h.length).filter (fun i => (h[i]?).any (fun x => x.mod = m ∧ x.kind = k))

/-- Order within one module: classes, containers, exceptions, enums, module.py:755-805 (classes
imported from other modules are not modelled). -/
def own (h : List Item) (m : Nat) : List Nat :=
  ownKind h m .cls ++ ownKind h m .container ++ ownKind h m .exc ++ ownKind h m .enum

/-- Order of generation: submodules first, module.py:700-702. -/
def genOrder (h : List Item) : Tree → List Nat
  | .node m subs => genOrders h subs ++ own h m
where
  genOrders (h : List Item) : List Tree → List Nat
    | [] => []
    | t :: ts => genOrder h t ++ genOrders h ts

/-- Order of initialisation when the module is imported: the init function runs its own `after_init`
code, and after that the submodules' init functions, module.py:807-816. -/
def initOrder (h : List Item) : Tree → List Nat
  | .node m subs => own h m ++ initOrders h subs
where
  initOrders (h : List Item) : List Tree → List Nat
    | [] => []
    | t :: ts => initOrder h t ++ initOrders h ts

/-- Generating one type, given the types whose `tp_name` slot is filled: a nested class, container or
exception reads its outer class's `tp_name` (cppclass.py:2229, container.py:340, cppexception.py:126),
a `KeyError` if it is not there yet; enums do not (enum.py:159-175); standard exceptions generate
nothing (cppexception.py:142-144). -/
def genItem (h : List Item) (named : List Nat) (i : Nat) : PyRes (List Nat) :=
  match h[i]? with
  | none => .ok named
  | some x =>
    match x.outer with
    | none => .ok (i :: named)
    | some o =>
      if x.kind = .enum ∨ x.std = true ∨ o ∈ named then .ok (i :: named) else .error .keyError

def genAll (h : List Item) : List Nat → List Nat → PyRes (List Nat)
  | [], named => .ok named
  | i :: is, named => do genAll h is (← genItem h named i)

/-- The state of the type objects while modules are initialised: the Python bases of those that are
ready, and the nested types that were not entered into their outer class. -/
structure Rt where
  bases : Nat → Option (List Nat) := fun _ => none
  lost : List Nat := []

def Rt.set (r : Rt) (i : Nat) (bs : List Nat) : Rt :=
  { r with bases := fun j => if j = i then some bs else r.bases j }

/-- `PyType_Ready` of the bases that are not ready yet: it is called by CPython when the derived type
is made ready, at which time the base's own `tp_base` has not been assigned, so that it becomes a plain
subclass of `object`. -/
def Rt.force (r : Rt) : List Nat → Rt
  | [] => r
  | b :: bs => (if (r.bases b).isSome then r else r.set b []).force bs

/-- Is this a standard Python exception (always there)? -/
def isStd (h : List Item) (i : Nat) : Bool := (h[i]?).any (·.std)

/-- The bases a type gets.
* classes, cppclass.py:1979-1995: `tp_base`/`tp_bases` assigned, then `PyType_Ready`, which does nothing
  for a type that is already ready;
* exceptions, cppexception.py:147-154: `PyErr_NewException(name, parent, NULL)`, where a parent variable
  that is still `NULL` means `Exception`. -/
def setUp (h : List Item) (r : Rt) (i : Nat) (x : Item) : Rt :=
  match x.kind with
  | .exc => r.set i (x.bases.filter (fun p => isStd h p || (r.bases p).isSome))
  | .cls => if ((r.force x.bases).bases i).isSome then r.force x.bases else (r.force x.bases).set i x.bases
  | .container => if (r.bases i).isSome then r else r.set i x.bases
  | .enum => if (r.bases i).isSome then r else r.set i x.bases

/-- Running the init code of one type: it is set up and entered into the outer class's `tp_dict`, `NULL`
unless the outer class is ready (cppclass.py:2005, container.py:365, cppexception.py:166, enum.py:172). -/
def initItem (h : List Item) (r : Rt) (i : Nat) : Rt :=
  match h[i]? with
  | none => r
  | some x =>
    if x.std then r
    else match x.outer with
      | none => setUp h r i x
      | some o =>
        if (r.bases o).isSome then setUp h r i x
        else { setUp h r i x with lost := i :: r.lost }

def initAll (h : List Item) (l : List Nat) (r : Rt) : Rt := l.foldl (initItem h) r

end Verif.Exceptions
