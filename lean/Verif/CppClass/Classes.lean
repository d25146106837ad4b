import Verif.CppClass.Hierarchy

/-!
# Collections of wrapped classes

The part of `CppClass` (pybindgen/cppclass.py:528-745, 1039-1092, 1283-1306) that decides how a class
inherits configuration from its bases.  Classes are numbered in creation order.

Not modelled here: names, type handler registration (`name != 'dummy'`, cppclass.py:744-812),
deprecation warnings, the assertions on argument types.
-/
namespace Verif.CppClass
open Verif

/-- C++ visibility keywords (cppclass.py:616, cppmethod.py:94). -/
inductive Vis where
  | pub | prot | priv
  deriving DecidableEq, Repr

/-- Memory policies: the concrete classes of cppclass.py:169-241; `custom n` stands for any other
`MemoryPolicy` subclass (smart pointers), whose `get_instance_creation_function` is its own. -/
inductive Policy where
  | freeFunction (free : Str)
  | refMethods (incref decref : Str) (peekref : Option Str)
  | refFunctions (incref decref : Str)
  | custom (id : Nat)
  deriving DecidableEq, Repr

/-- An instance creation function (cppclass.py:1061-1086): the default one, the one of a memory
policy that overrides `get_instance_creation_function`, or a user's. -/
inductive Creator where
  | dflt
  | ofPolicy (id : Nat)
  | user (id : Nat)
  deriving DecidableEq, Repr

/-- `memory_policy.get_instance_creation_function()`: the base class returns the default one
(cppclass.py:107-108); only custom policies override it (smart_ptr.py). -/
def Policy.creator : Policy → Creator
  | .custom id => .ofPolicy id
  | _ => .dflt

/-- `parent` argument of `CppClass.__init__`, cppclass.py:681-691. -/
inductive ParentArg where
  | none
  | one (c : Nat)
  | many (cs : List Nat)
  | other
  deriving DecidableEq, Repr

/-- Arguments of `CppClass.__init__` (cppclass.py:533-546) that matter here.  An empty string is what
Python's truth test makes of an omitted name. -/
structure CtorArgs where
  parent : ParentArg := .none
  freeFunction : Str := []
  increfMethod : Str := []
  decrefMethod : Str := []
  peekrefMethod : Option Str := none
  increfFunction : Str := []
  decrefFunction : Str := []
  memoryPolicy : Option Policy := none
  narrowing : Option Bool := none
  allowSubclassing : Option Bool := none
  destructor : Vis := .pub
  isSingleton : Bool := false

/-- Module-wide defaults, settings.py:17-27. -/
structure Settings where
  narrowing : Bool := false
  allowSubclassing : Bool := false

/-- The attributes of a `CppClass`. `declared` is not in the code: it remembers the policy the class
was given itself, for the statements. -/
structure Cls where
  bases : List Nat
  policy : Option Policy
  narrowing : Bool
  allowSubclassing : Bool
  isSingleton : Bool
  declared : Option Policy
  hooks : List Nat := []
  creator : Option Nat := none
  postCreator : Option Nat := none
  helperDisabled : Bool := false
  deriving DecidableEq, Repr

/-- All classes, in creation order. -/
abbrev World := List Cls

/-- Attribute access on an existing class. -/
def World.cls (w : World) (c : Nat) : Cls :=
  w.getD c { bases := [], policy := none, narrowing := false, allowSubclassing := false,
             isSingleton := false, declared := none }

/-- `self.bases`, cppclass.py:681-691: an empty list of parents makes `self.bases[0]` fail. -/
def basesOf : ParentArg → PyRes (List Nat)
  | .many [] => .error .indexError
  | .many cs => .ok cs
  | .one c => .ok [c]
  | .none => .ok []
  | .other => .error .typeError

/-- The deprecated arguments, cppclass.py:693-704. -/
def legacyPolicy (a : CtorArgs) : PyRes (Option Policy) :=
  if a.freeFunction ≠ [] then
    if a.memoryPolicy = none then .ok (some (.freeFunction a.freeFunction)) else .error .assertionError
  else if a.increfMethod ≠ [] then
    if a.memoryPolicy = none then .ok (some (.refMethods a.increfMethod a.decrefMethod a.peekrefMethod))
    else .error .assertionError
  else if a.increfFunction ≠ [] then
    if a.memoryPolicy = none then .ok (some (.refFunctions a.increfFunction a.decrefFunction))
    else .error .assertionError
  else .ok a.memoryPolicy

/-- The `for base in self.bases: ... else:` loop, cppclass.py:710-718 (and :706-708 for no bases). -/
def inheritPolicy (w : World) (given : Option Policy) : List Nat → PyRes (Option Policy)
  | [] => .ok given
  | b :: bs =>
    match (w.cls b).policy with
    | some p => if given = none then .ok (some p) else .error .assertionError
    | none => inheritPolicy w given bs

/-- cppclass.py:720-726. -/
def inheritNarrowing (s : Settings) (w : World) (bases : List Nat) (given : Option Bool) : Bool :=
  match given with
  | some v => v
  | none =>
    match bases with
    | [] => s.narrowing
    | p :: _ => (w.cls p).narrowing

/-- cppclass.py:728-740. -/
def inheritSubclassing (s : Settings) (w : World) (bases : List Nat) (given : Option Bool)
    (destructor : Vis) : PyRes Bool := do
  let v ← match given with
    | none =>
      match bases with
      | [] => .ok s.allowSubclassing
      | p :: _ => .ok (w.cls p).allowSubclassing
    | some v =>
      if bases.any (fun b => (w.cls b).allowSubclassing) && !v then .error .valueError else .ok v
  if destructor = .priv then .ok false else .ok v

/-- `CppClass.__init__`, cppclass.py:533-742. -/
def newClass (s : Settings) (w : World) (a : CtorArgs) : PyRes Cls := do
  let bases ← basesOf a.parent
  let given ← legacyPolicy a
  let policy ← inheritPolicy w given bases
  let allow ← inheritSubclassing s w bases a.allowSubclassing a.destructor
  .ok { bases := bases, policy := policy,
        narrowing := inheritNarrowing s w bases a.narrowing,
        allowSubclassing := allow, isSingleton := a.isSingleton, declared := given }

/-- Calls a user can make on the collection. -/
inductive Op where
  /-- `CppClass(...)` -/
  | new (a : CtorArgs)
  /-- `cls.add_helper_class_hook(hook)`, cppclass.py:1039-1048 -/
  | addHook (c : Nat) (hook : Nat)
  /-- `cls.set_instance_creation_function(f)`, cppclass.py:1061-1069 -/
  | setCreator (c : Nat) (f : Nat)
  /-- `cls.set_post_instance_creation_function(f)`, cppclass.py:1071-1078 -/
  | setPostCreator (c : Nat) (f : Nat)
  /-- `cls.set_helper_class_disabled(flag)`, cppclass.py:1599-1602 -/
  | setHelperDisabled (c : Nat) (flag : Bool)

/-- Classes an operation mentions. -/
def Op.mentions : Op → List Nat
  | .new a => match a.parent with
    | .one c => [c]
    | .many cs => cs
    | _ => []
  | .addHook c _ | .setCreator c _ | .setPostCreator c _ | .setHelperDisabled c _ => [c]

/-- Effect of one call; a constructor that raises creates nothing. -/
def step (s : Settings) (w : World) : Op → World
  | .new a => match newClass s w a with
    | .ok c => w ++ [c]
    | .error _ => w
  | .addHook c f => w.set c { w.cls c with hooks := (w.cls c).hooks ++ [f] }
  | .setCreator c f => w.set c { w.cls c with creator := some f }
  | .setPostCreator c f => w.set c { w.cls c with postCreator := some f }
  | .setHelperDisabled c b => w.set c { w.cls c with helperDisabled := b }

/-- Worlds reachable from nothing by calls on existing classes. -/
inductive Reachable (s : Settings) : World → Prop where
  | start : Reachable s []
  | step {w op} : Reachable s w → (∀ c ∈ op.mentions, c < w.length) → Reachable s (step s w op)

/-! ## Reachable collections are acyclic -/

/-- Every base is an older class. -/
def Acyclic (w : World) : Prop := ∀ c b, b ∈ (w.cls c).bases → b < c

theorem cls_append_lt {w : World} {x : Cls} {c : Nat} (h : c < w.length) :
    World.cls (w ++ [x]) c = w.cls c := by
  simp [World.cls, List.getD, List.getElem?_append, h]

theorem cls_append_eq {w : World} {x : Cls} : World.cls (w ++ [x]) w.length = x := by
  simp [World.cls, List.getD]

theorem cls_ge {w : World} {c : Nat} (h : w.length ≤ c) : w.cls c =
    { bases := [], policy := none, narrowing := false, allowSubclassing := false,
      isSingleton := false, declared := none } := by
  simp [World.cls, List.getD, List.getElem?_eq_none h]

theorem cls_set {w : World} {c d : Nat} {x : Cls} (h : c < w.length) :
    World.cls (w.set c x) d = if c = d then x else w.cls d := by
  simp only [World.cls, List.getD, List.getElem?_set]
  split
  · simp [h]
  · rfl

theorem newClass_bases {s : Settings} {w : World} {a : CtorArgs} {x : Cls}
    (h : newClass s w a = .ok x) : basesOf a.parent = .ok x.bases := by
  unfold newClass at h
  simp only [bind, Except.bind] at h
  cases hb : basesOf a.parent with
  | error e => simp [hb] at h
  | ok bs =>
    simp only [hb] at h
    cases hl : legacyPolicy a with
    | error e => simp [hl] at h
    | ok g =>
      simp only [hl] at h
      cases hp : inheritPolicy w g bs with
      | error e => simp [hp] at h
      | ok p =>
        simp only [hp] at h
        cases hs : inheritSubclassing s w bs a.allowSubclassing a.destructor with
        | error e => simp [hs] at h
        | ok v => simp only [hs] at h; cases h; rfl

theorem mem_mentions_of_bases {a : CtorArgs} {bs : List Nat} (h : basesOf a.parent = .ok bs) :
    ∀ b ∈ bs, b ∈ (Op.new a).mentions := by
  unfold basesOf at h
  unfold Op.mentions
  split at h <;> cases h <;> simp_all

theorem acyclic_of_reachable {s : Settings} {w : World} (h : Reachable s w) : Acyclic w := by
  induction h with
  | start => intro c b hb; simp [World.cls] at hb
  | @step w op _ hm ih =>
    intro c b hb
    cases op with
    | new a =>
      simp only [step] at hb
      split at hb
      · rename_i x hx
        rcases Nat.lt_trichotomy c w.length with hc | hc | hc
        · rw [cls_append_lt hc] at hb; exact ih c b hb
        · subst hc
          rw [cls_append_eq] at hb
          exact hm b (mem_mentions_of_bases (newClass_bases hx) b hb)
        · rw [cls_ge (by simp; omega)] at hb; simp at hb
      · exact ih c b hb
    | addHook d f =>
      simp only [step] at hb
      rw [cls_set (hm d (by simp [Op.mentions]))] at hb
      split at hb
      · rename_i e; subst e; exact ih _ b hb
      · exact ih c b hb
    | setCreator d f =>
      simp only [step] at hb
      rw [cls_set (hm d (by simp [Op.mentions]))] at hb
      split at hb
      · rename_i e; subst e; exact ih _ b hb
      · exact ih c b hb
    | setPostCreator d f =>
      simp only [step] at hb
      rw [cls_set (hm d (by simp [Op.mentions]))] at hb
      split at hb
      · rename_i e; subst e; exact ih _ b hb
      · exact ih c b hb
    | setHelperDisabled d f =>
      simp only [step] at hb
      rw [cls_set (hm d (by simp [Op.mentions]))] at hb
      split at hb
      · rename_i e; subst e; exact ih _ b hb
      · exact ih c b hb

/-- The hierarchy of an acyclic collection. -/
def World.hier (w : World) (h : Acyclic w) : Hier := ⟨fun c => (w.cls c).bases, h⟩

end Verif.CppClass
