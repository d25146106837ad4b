import Verif.Wrapper.Contract
import Verif.Runtime.Lifetime

/-!
# Returning objects of wrapped classes (C++ to Python)

`convert_c_to_python` of the return value handlers of classes: `CppClassReturnValue`
(cppclass.py:3251-3274), `CppClassRefReturnValue` (3322-3352), `CppClassPtrReturnValue` (3762-3791),
`CppClassSharedPtrReturnValue` (smart_ptr.py:326-350), and the function most of them share,
`common_shared_object_return` (cppclass.py:2682-2891).

The statements are kept as a syntax tree: `Code.ops` renders it into calls on the `after_call` block,
`Code.exec` says what it does to the wrappers, the wrapper registry and the C++ objects.

Simplifications: indentation is left out of the texts; types of variables other than those needed to
tell a smart pointer from a plain one are ignored; a custom `instance_creation_function` is not
modelled; the code a `post_instance_creation_function` writes is an opaque text without effect on the
state modelled.
-/
namespace Verif.Returns
open Verif Verif.Flow Verif.Params Verif.Wrap
open Verif.Lifetime (World RetOpts upd)

/-- `memory_policy` (cppclass.py:149-238, smart_ptr.py:13-130). -/
inductive Pol where
  | none
  | free
  /-- `ReferenceCountingMethodsPolicy(inc, dec)` -/
  | methods (inc dec : Str)
  /-- `ReferenceCountingFunctionsPolicy(inc, dec)` -/
  | functions (inc dec : Str)
  /-- `BoostSharedPtr`, or `StdSharedPtr` -/
  | smart (std : Bool)
  deriving DecidableEq, Repr

/-- `isinstance(memory_policy, ReferenceCountingPolicy)` -/
def Pol.counted : Pol → Bool
  | .methods _ _ => true
  | .functions _ _ => true
  | _ => false

def Pol.isSmart : Pol → Bool
  | .smart _ => true
  | _ => false

/-- What the handlers read off a `CppClass`. -/
structure RCls where
  name : Str
  fullName : Str
  pystruct : Str
  pytype : Str
  /-- `allow_subclassing` -/
  subclassing : Bool := false
  policy : Pol := .none
  /-- `automatic_type_narrowing`: the name of the map of the narrowing root -/
  narrowing : Option Str := none
  /-- `has_copy_constructor` -/
  hasCopy : Bool := true
  /-- `get_construct_name` does not raise (cppclass.py:1114-1122) -/
  constructible : Bool := true
  /-- `incomplete_type` -/
  incomplete : Bool := false
  /-- what the post instance creation function writes, if there is one -/
  post : Option Str := none
  /-- the name of the helper class -/
  helper : Option Str := none
  /-- the name of the map of a `StdMapWrapperRegistry`; `none` for `NullWrapperRegistry` -/
  registry : Option Str := none
  deriving DecidableEq, Repr

/-! ## Syntax -/

/-- How a pointer to a constant is cast. -/
inductive Cast where
  /-- `(K *) (value)` -/
  | spaced
  /-- `(K*) (value)` -/
  | tight
  /-- `const_cast<K *>(value) ` -/
  | constCast
  deriving DecidableEq, Repr

/-- Statements around the wrapper variable `py` and the returned value. -/
inductive Prim where
  /-- `wrapper_type = map.lookup_wrapper(typeid(value), &K_Type);` -/
  | narrow
  /-- `py = PyObject_New(PyK, wrapper_type);` -/
  | new (narrowed : Bool)
  /-- `py->inst_dict = NULL;` -/
  | dictNull
  /-- the policy's `get_pystruct_init_code` -/
  | policyInit
  /-- `py->obj = value;`, with a cast if the value points to a constant -/
  | setObj (cast : Cast)
  /-- `py->flags = ...;` -/
  | flags (notOwned : Bool)
  /-- `py->obj = new K(value);` -/
  | create
  /-- the post instance creation code -/
  | post
  /-- the policy's `write_incref` and `write_decref` on the value -/
  | incref
  | decref
  /-- `map[(void *) py->obj] = (PyObject *) py;`, `asVoid` if `get_pointer_to_void_name` is used -/
  | register (asVoid : Bool)
  /-- `iter = map.find((void *) value);` -/
  | find
  /-- `if (iter == map.end()) { py = NULL; } else { py = iter->second; Py_INCREF(py); }` -/
  | load
  /-- `py = value->m_pyself;` -/
  | fromHelper
  /-- `Py_INCREF(py);` -/
  | pyIncref
  deriving DecidableEq, Repr

inductive Cond where
  /-- `py == NULL` -/
  | notFound
  /-- `typeid(value).name() == typeid(K__PythonHelper).name()` -/
  | isHelper
  deriving DecidableEq, Repr

/-- Statements in sequence. -/
inductive Code where
  | done
  | prim (p : Prim) (k : Code)
  | ite (c : Cond) (t e k : Code)
  deriving DecidableEq, Repr

/-- A sequence of statements. -/
def Code.ofList : List Prim → Code
  | [] => .done
  | p :: ps => .prim p (.ofList ps)

def Code.append : Code → Code → Code
  | .done, x => x
  | .prim p k, x => .prim p (k.append x)
  | .ite c t e k, x => .ite c t e (k.append x)

/-- How the returned object is at hand: by value or reference (`retval` is the object), by pointer,
by smart pointer. -/
inductive Src where
  | object
  | pointer
  | smartPtr
  deriving DecidableEq, Repr

/-! ## Generation -/

/-- `write_allocate_pystruct`, cppclass.py:2646-2664. -/
def allocate (c : RCls) (narrowed : Bool) : List Prim :=
  .new narrowed :: (if c.subclassing then [.dictNull] else []) ++
    (if c.policy ≠ .none then [.policyInit] else [])

/-- `write_create_instance`, cppclass.py:1094-1098, with the default creation functions
(243-264, smart_ptr.py:74-94 and 110-130). -/
def createInstance (c : RCls) : PyRes (List Prim) :=
  if !c.constructible then .error .codeGenerationError
  else if c.incomplete then .error .codeGenerationError
  else .ok [.create]

/-- `write_post_instance_creation_code`, cppclass.py:1100-1106. -/
def postCreation (c : RCls) : List Prim := if c.post.isSome then [.post] else []

/-- A copy of the value for the wrapper, `has_copy_constructor` checked first. -/
def copyValue (c : RCls) : PyRes (List Prim) :=
  if !c.hasCopy then .error .codeGenerationError else createInstance c

/-- `write_create_new_wrapper`, cppclass.py:2693-2775. -/
def createNew (c : RCls) (o : RetOpts) : PyRes (List Prim) :=
  let narrowed := c.narrowing.isSome && (o.own || c.policy.counted)
  let head := (if narrowed then [Prim.narrow] else []) ++ allocate c narrowed ++
    (if c.subclassing then [.dictNull] else [])
  if o.own then .ok (head ++ [.setObj .spaced, .flags false])
  else if !c.policy.counted then
    if o.refExisting then .ok (head ++ [.setObj .spaced, .flags true])
    else if o.manages then do
      let mk ← copyValue c
      pure (head ++ mk ++ .flags false :: postCreation c)
    else .ok (head ++ [.setObj .spaced, .flags true])
  else if o.manages then .ok (head ++ [.flags false, .incref, .setObj .tight])
  else .ok (head ++ [.setObj .spaced, .flags true])

/-- What `write_register_new_wrapper` writes (wrapper_registry.py:51-52, 103-104). -/
def registerNew (c : RCls) (asVoid : Bool) : List Prim :=
  if c.registry.isSome then [.register asVoid] else []

/-- Looking the object up, and creating a wrapper if there is none (cppclass.py:2780-2817 and
2849-2888; `asVoid` tells them apart: without helper class the policy's `get_pointer_to_void_name` is
used when registering). -/
def lookupOrCreate (c : RCls) (o : RetOpts) (asVoid : Bool) : PyRes Code := do
  let new ← createNew c o
  if c.registry.isSome then
    pure (.prim .find (.prim .load (.ite .notFound (.ofList (new ++ registerNew c asVoid))
      (.ofList (if o.own && c.policy.counted then [.decref] else [])) .done)))
  else pure (.ofList (new ++ registerNew c asVoid))

/-- `common_shared_object_return`, cppclass.py:2682-2891. -/
def sharedReturn (c : RCls) (o : RetOpts) : PyRes Code := do
  match c.helper with
  | none => lookupOrCreate c o (c.policy != .none)
  | some _ =>
    let other ← lookupOrCreate c o false
    pure (.ite .isHelper
      (.ofList (.fromHelper :: .setObj .constCast ::
        (if o.own && c.policy.counted then [.decref] else []) ++ [.pyIncref]))
      other .done)

/-- The copying path of the handlers by value (cppclass.py:3251-3271, `again` set: `inst_dict` is set
twice) and by reference (3336-3349). -/
def copyReturn (c : RCls) (again : Bool) : PyRes Code := do
  let mk ← copyValue c
  pure (.ofList (allocate c false ++ (if again && c.subclassing then [.dictNull] else []) ++
    .flags false :: mk ++ registerNew c false ++ postCreation c))

/-- `target_is_const` is irrelevant for what the handlers do except for casts. -/
inductive Kind where
  /-- `CppClassReturnValue` -/
  | value
  /-- `CppClassRefReturnValue` -/
  | ref (o : RetOpts)
  /-- `CppClassPtrReturnValue` -/
  | ptr (o : RetOpts)
  /-- `CppClassSharedPtrReturnValue` -/
  | shared
  deriving DecidableEq

/-- `caller_owns_return=True, reference_existing_object=False`, smart_ptr.py:344-347. -/
def sharedOpts : RetOpts := ⟨true, false, true, false⟩

def Kind.src : Kind → Src
  | .value => .object
  | .ref _ => .object
  | .ptr _ => .pointer
  | .shared => .smartPtr

/-- The annotations of a pointer return value as given by the user; `none`: not given. -/
structure PtrArgs where
  own : Option Bool := none
  refExisting : Option Bool := none
  internal : Bool := false
  manages : Bool := true
  freeAfterCopy : Bool := false
  deriving DecidableEq, Repr

/-- `CppClassPtrReturnValue.__init__`, cppclass.py:3729-3755; `const` is `target_is_const`.
`free_after_copy is None` is never the case, since `False` is its default. -/
def ptrOpts (const : Bool) (x : PtrArgs) : PyRes RetOpts :=
  let own := if x.own = none ∧ const = true then some false else x.own
  if x.internal ∧ x.refExisting ≠ none then .error .assertionError
  else
    let ref := if x.internal then some true else x.refExisting
    if own = some true ∧ x.freeAfterCopy = true then .error .typeConfigurationError
    else .ok ⟨own.getD false, ref.getD false, x.manages, x.freeAfterCopy⟩

/-- The statements a handler writes, after the test for a null pointer. -/
def Kind.code (k : Kind) (c : RCls) : PyRes Code :=
  match k with
  | .value => copyReturn c true
  | .ref o => if o.refExisting || o.own || !o.manages then sharedReturn c o else copyReturn c false
  | .ptr o => sharedReturn c o
  | .shared => sharedReturn c sharedOpts

/-! ## Rendering -/

/-- The names of the variables, the text of the value and whether its target is constant. -/
structure Names where
  py : Str
  iter : Str
  wtype : Str
  value : Str
  const : Bool

/-- `value_ptr`, cppclass.py:2687-2692. -/
def Names.ptr (n : Names) : Src → Str
  | .object => "(&".toList ++ n.value ++ ")".toList
  | _ => n.value

/-- `value_value`. -/
def Names.val (n : Names) : Src → Str
  | .object => n.value
  | _ => "(*".toList ++ n.value ++ ")".toList

/-- `get_pointer_to_void_name`, cppclass.py:104-105, smart_ptr.py:32-33. -/
def Pol.asVoid (p : Pol) (s : Str) : Str := if p.isSmart then s ++ ".get()".toList else s

/-- `get_pointer_name`, smart_ptr.py:23-24. -/
def smartName (std : Bool) (full : Str) : Str :=
  (if std then "::std::shared_ptr< ".toList else "::boost::shared_ptr< ".toList) ++ full ++ " >".toList

/-- The text handed to `write_code`. -/
def Prim.text (c : RCls) (src : Src) (n : Names) : Prim → Str
  | .narrow => n.wtype ++ " = ".toList ++ c.narrowing.getD [] ++ ".lookup_wrapper(typeid(".toList ++ n.val src ++
      "), &".toList ++ c.pytype ++ ");".toList
  | .new narrowed => n.py ++ (if c.subclassing then " = PyObject_GC_New(".toList else " = PyObject_New(".toList) ++
      c.pystruct ++ ", ".toList ++ (if narrowed then n.wtype else '&' :: c.pytype) ++ ");".toList
  | .dictNull => n.py ++ "->inst_dict = NULL;".toList
  | .policyInit =>
    match c.policy with
    | .smart std => "new(&".toList ++ n.py ++ "->obj) ".toList ++ smartName std c.fullName ++ ";".toList
    | _ => []
  | .setObj cast =>
    if n.const then
      match cast with
      | .spaced => n.py ++ "->obj = (".toList ++ c.fullName ++ " *) (".toList ++ n.ptr src ++ ");".toList
      | .tight => n.py ++ "->obj = (".toList ++ c.fullName ++ "*) (".toList ++ n.ptr src ++ ");".toList
      | .constCast => n.py ++ "->obj = const_cast<".toList ++ c.fullName ++ " *>(".toList ++ n.ptr src ++ ") ;".toList
    else n.py ++ "->obj = ".toList ++ n.ptr src ++ ";".toList
  | .flags notOwned => n.py ++ "->flags = PYBINDGEN_WRAPPER_FLAG_".toList ++
      (if notOwned then "OBJECT_NOT_OWNED;".toList else "NONE;".toList)
  | .create =>
    match c.policy with
    | .smart true => n.py ++ "->obj = std::make_shared<".toList ++ c.fullName ++ ">(".toList ++ n.val src ++ ");".toList
    | .smart false => n.py ++ "->obj.reset (new ".toList ++ c.fullName ++ "(".toList ++ n.val src ++ "));".toList
    | _ => n.py ++ "->obj = new ".toList ++ c.fullName ++ "(".toList ++ n.val src ++ ");".toList
  | .post => c.post.getD []
  | .incref =>
    match c.policy with
    | .methods i _ => n.ptr src ++ "->".toList ++ i ++ "();".toList
    | .functions i _ => i ++ "(".toList ++ n.ptr src ++ ");".toList
    | _ => []
  | .decref =>
    match c.policy with
    | .methods _ d => n.ptr src ++ "->".toList ++ d ++ "();".toList
    | .functions _ d => d ++ "(".toList ++ n.ptr src ++ ");".toList
    | _ => []
  | .register asVoid => c.registry.getD [] ++ "[(void *) ".toList ++
      (if asVoid then c.policy.asVoid (n.py ++ "->obj".toList) else n.py ++ "->obj".toList) ++
      "] = (PyObject *) ".toList ++ n.py ++ ";".toList
  | .find => n.iter ++ " = ".toList ++ c.registry.getD [] ++ ".find((void *) ".toList ++
      (if c.policy = .none then n.ptr src else c.policy.asVoid (n.ptr src)) ++ ");".toList
  | .load => "if (".toList ++ n.iter ++ " == ".toList ++ c.registry.getD [] ++ ".end()) {\n    ".toList ++ n.py ++
      " = NULL;\n} else {\n    ".toList ++ n.py ++ " = (".toList ++ c.pystruct ++ " *) ".toList ++ n.iter ++
      "->second;\n    Py_INCREF(".toList ++ n.py ++ ");\n}\n".toList
  | .fromHelper => n.py ++ " = reinterpret_cast< ".toList ++ c.pystruct ++ "* >(reinterpret_cast< ".toList ++
      c.helper.getD [] ++ "* >(".toList ++
      (if n.const then "const_cast<".toList ++ c.fullName ++ " *>(".toList ++ n.ptr src ++ ") ".toList
       else n.ptr src) ++ ")->m_pyself);".toList
  | .pyIncref => "Py_INCREF(".toList ++ n.py ++ ");".toList

/-- The text of a condition. -/
def Cond.text (c : RCls) (src : Src) (n : Names) : Cond → Str
  | .notFound => "if (".toList ++ n.py ++ " == NULL) {".toList
  | .isHelper => "if (typeid(".toList ++ n.val src ++ ").name() == typeid(".toList ++ c.helper.getD [] ++
      ").name())\n{".toList

/-- The calls of `write_code` on `after_call`, in order. -/
def Code.texts (c : RCls) (src : Src) (n : Names) : Code → List Str
  | .done => []
  | .prim p k => p.text c src n :: k.texts c src n
  | .ite b t e k => b.text c src n :: t.texts c src n ++
      (if e = .done then [] else "} else {".toList :: e.texts c src n) ++
      "}".toList :: k.texts c src n

/-- Whether the code mentions a statement. -/
def Code.has (f : Prim → Bool) : Code → Bool
  | .done => false
  | .prim p k => f p || k.has f
  | .ite _ t e k => t.has f || e.has f || k.has f

/-- Declare a variable if the code uses it. -/
def declareIf (b : Bool) (t n : Str) (i : Option Str) (w : W) : PyRes (W × Str) :=
  if b then w.declare t n i none else .ok (w, [])

/-- The pointer handlers first write the test for a null pointer, cppclass.py:3770-3773,
smart_ptr.py:334-337. -/
def Kind.nullStep (k : Kind) (value : Str) (w : W) : W :=
  match k with
  | .ptr _ | .shared => w.op (.bare 2 ("!(".toList ++ value ++ ")".toList) ["Py_INCREF(Py_None);".toList]
      "return Py_None;".toList)
  | _ => w

/-- `free_after_copy`, cppclass.py:3789-3791. -/
def Kind.freeStep (k : Kind) (c : RCls) (function : Str) (w : W) : W :=
  match k with
  | .ptr o =>
    if o.freeAfterCopy then
      (w.op (.add 2 "delete retval;".toList)).op
        (.add 2 ("// free_after_copy for ".toList ++ c.name ++ "* ".toList ++ function ++ "s".toList))
    else w
  | _ => w

/-- `convert_c_to_python` of the class handlers; `function` is the name of the function wrapped.  (The
iterator and `wrapper_type` are declared while the code is written; declarations and code are different
objects.) -/
def Kind.convert (k : Kind) (c : RCls) (value : Str) (const : Bool) (function : Str) : Gen1 := fun w => do
  let (w, py) ← (k.nullStep value w).declare (c.pystruct ++ "*".toList) ("py_".toList ++ c.name) none none
  let code ← k.code c
  let (w, iter) ← declareIf (code.has (· == .find)) "std::map<void*, PyObject*>::const_iterator".toList
    "wrapper_lookup_iter".toList none w
  let (w, wtype) ← declareIf (code.has (· == .narrow)) "PyTypeObject*".toList "wrapper_type".toList
    (some "0".toList) w
  let w := { w with ops := w.ops ++ (code.texts c k.src ⟨py, iter, wtype, value, const⟩).map (Op.write 2) }
  pure (k.freeStep c function (w.addBuild ⟨"N".toList, [py], none⟩ true))

/-! ## Which of this is C++

A smart pointer is neither assigned from nor cast to a plain pointer. -/

def Prim.typed (c : RCls) (src : Src) : Prim → Bool
  | .setObj _ => c.policy.isSmart == (src == .smartPtr)
  | .register asVoid => !c.policy.isSmart || asVoid
  | .find => c.policy.isSmart == (src == .smartPtr)
  | .fromHelper => src != .smartPtr
  | _ => true

def Code.typed (c : RCls) (src : Src) : Code → Bool
  | .done => true
  | .prim p k => p.typed c src && k.typed c src
  | .ite _ t e k => t.typed c src && e.typed c src && k.typed c src

/-! ## Run time -/

/-- The facts of one call: the object returned is at `at_`; `same` is its `m_pyself` if it is an
instance of the helper class; a copy goes to `fresh`; `dyn` is what the type map says for its dynamic
type; `stat` is the class's own type; `junkObj` and `junkFlag` are what new memory contains. -/
structure Env where
  at_ : Nat
  fresh : Nat
  same : Option Nat
  dyn : Nat
  stat : Nat
  junkObj : Option Nat
  junkFlag : Bool

/-- The process, with Python reference counts, types and instance dictionaries of wrappers, and the
wrapper function's variables. -/
structure M where
  world : World
  refs : Nat → Nat
  type : Nat → Nat
  /-- the `inst_dict` field holds a valid pointer -/
  dict : Nat → Bool
  py : Option Nat
  iter : Option Nat
  wtype : Nat

/-- A null pointer is dereferenced. -/
def M.crash (m : M) : M := { m with world := { m.world with bad := true } }

/-- Do something with the wrapper in the variable. -/
def M.withPy (m : M) (f : Nat → M) : M :=
  match m.py with
  | none => m.crash
  | some w => f w

/-- Assigning a smart pointer: the new object gains a reference, the old one loses one. -/
def assignSmart (s : World) (w : Nat) (a : Nat) : World :=
  let s' := Lifetime.setObj (Lifetime.incref s a) w (some a)
  match (s.ws w).obj with
  | none => s'
  | some old => Lifetime.release s' old

/-- The effect of a statement. -/
def Prim.exec (c : RCls) (e : Env) (m : M) : Prim → M
  | .narrow => { m with wtype := e.dyn }
  | .new narrowed =>
    { m with world := { m.world with ws := upd m.world.ws m.world.next ⟨true, e.junkObj, e.junkFlag, false⟩
                                     next := m.world.next + 1 }
             refs := upd m.refs m.world.next 1
             type := upd m.type m.world.next (if narrowed then m.wtype else e.stat)
             dict := upd m.dict m.world.next (!c.subclassing)
             py := some m.world.next }
  | .dictNull => m.withPy (fun w => { m with dict := upd m.dict w true })
  | .policyInit =>
    if c.policy.isSmart then m.withPy (fun w => { m with world := Lifetime.setObj m.world w none }) else m
  | .setObj _ => m.withPy (fun w =>
      { m with world := if c.policy.isSmart then assignSmart m.world w e.at_
                        else Lifetime.setObj m.world w (some e.at_) })
  | .flags b => m.withPy (fun w =>
      { m with world := { m.world with ws := upd m.world.ws w { m.world.ws w with notOwned := b } } })
  | .create => m.withPy (fun w =>
      let s := Lifetime.alloc m.world e.fresh none
      { m with world :=
          let s' := Lifetime.setObj s w (some e.fresh)
          if c.policy.isSmart then
            match (s.ws w).obj with
            | none => s'
            | some old => Lifetime.release s' old
          else s' })
  | .post => m
  | .incref => { m with world := Lifetime.incref m.world e.at_ }
  | .decref => { m with world := Lifetime.release m.world e.at_ }
  | .register _ => m.withPy (fun w =>
      match (m.world.ws w).obj with
      | none => m
      | some a => { m with world := { m.world with reg := upd m.world.reg a (some w) } })
  | .find => { m with iter := m.world.reg e.at_ }
  | .load =>
    match m.iter with
    | none => { m with py := none }
    | some w => { m with py := some w, refs := upd m.refs w (m.refs w + 1) }
  | .fromHelper => { m with py := e.same }
  | .pyIncref => m.withPy (fun w => { m with refs := upd m.refs w (m.refs w + 1) })

def Cond.holds (e : Env) (m : M) : Cond → Bool
  | .notFound => m.py.isNone
  | .isHelper => e.same.isSome

def Code.exec (c : RCls) (e : Env) : Code → M → M
  | .done, m => m
  | .prim p k, m => k.exec c e (p.exec c e m)
  | .ite b t el k, m => k.exec c e (if b.holds e m then t.exec c e m else el.exec c e m)

end Verif.Returns
