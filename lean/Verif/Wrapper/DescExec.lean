import Verif.Wrapper.DescProps
import Verif.Wrapper.ExecProps
import Mathlib.Data.List.Nodup

/-!
# C41 for all handlers written as data

What the generated wrapper computes, for any meaning of the single texts.  The execution below works on
one environment shared by all handlers, indexed by variable name, and runs the phases of the generated
code one after the other: all arguments are parsed, then everything written to `before_call` runs, the
C++ function is called, everything written to `after_call` runs, the result is built.  The specification
treats every parameter on its own.
-/
namespace Verif.Wrap
open Verif Verif.Flow Verif.Params Verif.DeclScope

variable {Val Py : Type}

/-- Contents of the variables of one handler, by position. -/
abbrev Loc (Val : Type) := Nat → Option Val

def Loc.set (ρ : Loc Val) (i : Nat) (x : Val) : Loc Val := fun j => if j = i then some x else ρ j

/-- Storing through the addresses handed to the parser. -/
def Loc.setAll (ρ : Loc Val) : List Nat → List Val → Loc Val
  | i :: is, x :: xs => Loc.setAll (ρ.set i x) is xs
  | _, _ => ρ

/-- The meaning of texts, each over the contents of the handler's own variables. -/
structure Sem (Val Py : Type) where
  /-- one format unit (with the arguments that are not addresses) of `PyArg_ParseTuple`: the values
  stored, `none` if the argument is refused -/
  conv : Str → List Str → Py → Option (List Val)
  /-- an initializer -/
  expr : Str → Val
  /-- a statement before the call: the new content of its target, `none` if it leaves the function -/
  run : List TOp → Loc Val → Option Val
  /-- a statement after the call -/
  post : List Tmpl → Loc Val → Val
  /-- an argument expression -/
  eval : Tmpl → Loc Val → Option Val
  /-- one format unit of `Py_BuildValue` -/
  out : Str → List Tmpl → Loc Val → Option Py
  /-- the statements of a return value handler and its format unit, on the value returned -/
  ret : List ROp → Str × List Tmpl → Val → Option Py

/-- The positions a unit stores to. -/
def PUnit.addrs (u : PUnit) : List Nat := u.args.filterMap (fun a => match a with | .addr i => some i | .text _ => none)

/-- The other arguments of a unit. -/
def PUnit.texts (u : PUnit) : List Str := u.args.filterMap (fun a => match a with | .addr _ => none | .text s => some s)

/-! ## Specification: one parameter at a time -/

/-- The variables after their declaration. -/
def Desc.start (S : Sem Val Py) (d : Desc) : Loc Val := fun i => (d.vars[i]?).bind (fun v => v.init.map S.expr)

/-- What parsing the argument does (`none`: the caller left it out). -/
def PUnit.load (S : Sem Val Py) (u : PUnit) (ρ : Loc Val) : Option Py → Option (Loc Val)
  | some x => (S.conv u.fmt u.texts x).map (ρ.setAll u.addrs)
  | none => if u.optional then some ρ else none

def setTarget (ρ : Loc Val) (t : Option Nat) (x : Val) : Loc Val :=
  match t with
  | some i => ρ.set i x
  | none => ρ

/-- The statements before the call. -/
def prep (S : Sem Val Py) : List BStmt → Loc Val → Option (Loc Val)
  | [], ρ => some ρ
  | s :: ss, ρ => (S.run s.ops ρ).bind (fun x => prep S ss (setTarget ρ s.target x))

/-- The statements after the call. -/
def finish (S : Sem Val Py) : List AStmt → Loc Val → Loc Val
  | [], ρ => ρ
  | s :: ss, ρ => finish S ss (setTarget ρ s.target (S.post s.texts ρ))

/-- One parameter: `a` is the argument parsed for it, if it has a parsing unit. -/
def Desc.accept (S : Sem Val Py) (d : Desc) (a : Option (Option Py)) : Option (Loc Val) :=
  match d.unit, a with
  | some u, some a => (u.load S (d.start S) a).bind (prep S d.before)
  | some _, none => none
  | none, _ => prep S d.before (d.start S)

/-- All parameters: those with a parsing unit take the next argument each, in declaration order. -/
def accepted (S : Sem Val Py) : List Desc → List (Option Py) → Option (List (Loc Val))
  | [], [] => some []
  | [], _ :: _ => none
  | d :: ds, args =>
    if d.unit.isSome then
      match args with
      | a :: args => (d.accept S (some a)).bind (fun ρ => (accepted S ds args).map (ρ :: ·))
      | [] => none
    else (d.accept S none).bind (fun ρ => (accepted S ds args).map (ρ :: ·))

/-- What one parameter passes to the C++ function. -/
def Desc.passes (S : Sem Val Py) (d : Desc) (ρ : Loc Val) : Option Val := S.eval d.arg ρ

/-- What one parameter adds to the result, if anything, given what the function left in its variable. -/
def Desc.gives (S : Sem Val Py) (d : Desc) (ρ : Loc Val) (y : Val) : List (Option Py) :=
  d.out.toList.map (fun o => S.out o.1 o.2 (finish S d.after (setTarget ρ d.place y)))

/-- What all parameters add to the result, in declaration order. -/
def given (S : Sem Val Py) : List Desc → List (Loc Val) → List Val → List (Option Py)
  | d :: ds, ρ :: ρs, y :: ys => d.gives S ρ y ++ given S ds ρs ys
  | _, _, _ => []

/-- What the return value handler adds. -/
def RDesc.gives (S : Sem Val Py) (d : RDesc) (x : Val) : List (Option Py) :=
  d.out.toList.map (fun o => S.ret d.ops o x)

/-- A call of the wrapper: `none` if it fails before the C++ function is called, else what is passed to the
function and what Python gets (an entry is `none` if `Py_BuildValue` reads a variable never set). -/
def callSpec (S : Sem Val Py) (ds : List Desc) (ret : RDesc) (args : List (Option Py)) (F : Callee Val) :
    Option (List (Option Val) × List (Option Py)) :=
  (accepted S ds args).map (fun ρs =>
    let xs := (ds.zip ρs).map (fun p => p.1.passes S p.2)
    let res := F xs
    let own := given S ds ρs res.2
    (xs, if ret.prepend then ret.gives S res.1 ++ own else own ++ ret.gives S res.1))

/-! ## Execution of the generated code -/

/-- A handler and the names of its variables. -/
structure Inst where
  d : Desc
  vs : List Str

/-- The handler's own variables in the environment. -/
def view (env : Env Val) (vs : List Str) : Loc Val := fun i => (vs[i]?).bind env

/-- Storing to a variable given by position. -/
def store (vs : List Str) (i : Nat) (x : Val) (env : Env Val) : Env Val :=
  match vs[i]? with
  | some v => env.set v x
  | none => env

def storeList (vs : List Str) : List Nat → List Val → Env Val → Env Val
  | i :: is, x :: xs, env => storeList vs is xs (store vs i x env)
  | _, _, env => env

def storeTarget (vs : List Str) (t : Option Nat) (x : Val) (env : Env Val) : Env Val :=
  match t with
  | some i => store vs i x env
  | none => env

/-- All declarations. -/
def initAll (S : Sem Val Py) : List (Str × Option Str) → Env Val
  | [] => fun _ => none
  | (v, x) :: rest => fun u => if u = v then x.map S.expr else initAll S rest u

/-- `PyArg_ParseTuple*`. -/
def parseAll (S : Sem Val Py) : List Inst → List (Option Py) → Env Val → Option (Env Val)
  | [], [], env => some env
  | [], _ :: _, _ => none
  | it :: its, args, env =>
    match it.d.unit with
    | none => parseAll S its args env
    | some u =>
      match args with
      | [] => none
      | some x :: args => (S.conv u.fmt u.texts x).bind (fun ys =>
          parseAll S its args (storeList it.vs u.addrs ys env))
      | none :: args => if u.optional then parseAll S its args env else none

/-- The statements of one handler before the call. -/
def runStmts (S : Sem Val Py) (vs : List Str) : List BStmt → Env Val → Option (Env Val)
  | [], env => some env
  | s :: ss, env => (S.run s.ops (view env vs)).bind (fun x => runStmts S vs ss (storeTarget vs s.target x env))

/-- Everything in `before_call`. -/
def beforeAll (S : Sem Val Py) : List Inst → Env Val → Option (Env Val)
  | [], env => some env
  | it :: its, env => (runStmts S it.vs it.d.before env).bind (beforeAll S its)

/-- What the function called leaves in the variables it can reach. -/
def storePlaces : List Inst → List Val → Env Val → Env Val
  | it :: its, y :: ys, env => storePlaces its ys (storeTarget it.vs it.d.place y env)
  | _, _, env => env

def postStmts (S : Sem Val Py) (vs : List Str) : List AStmt → Env Val → Env Val
  | [], env => env
  | s :: ss, env => postStmts S vs ss (storeTarget vs s.target (S.post s.texts (view env vs)) env)

/-- Everything in `after_call`. -/
def afterAll (S : Sem Val Py) : List Inst → Env Val → Env Val
  | [], env => env
  | it :: its, env => afterAll S its (postStmts S it.vs it.d.after env)

/-- `Py_BuildValue`, the items of the parameters. -/
def buildOut (S : Sem Val Py) (its : List Inst) (env : Env Val) : List (Option Py) :=
  its.flatMap (fun it => it.d.out.toList.map (fun o => S.out o.1 o.2 (view env it.vs)))

/-- The item of the return value, read from variable `rv`. -/
def buildRet (S : Sem Val Py) (ret : RDesc) (rv : Option Str) (env : Env Val) : List (Option Py) :=
  ret.out.toList.map (fun o => (rv.bind env).bind (S.ret ret.ops o))

/-- The wrapper. -/
def execD (S : Sem Val Py) (vars : List (Str × Option Str)) (its : List Inst) (ret : RDesc) (rv : Option Str)
    (args : List (Option Py)) (F : Callee Val) : Option (List (Option Val) × List (Option Py)) :=
  (parseAll S its args (initAll S vars)).bind (fun env =>
    (beforeAll S its env).map (fun env =>
      let xs := its.map (fun it => S.eval it.d.arg (view env it.vs))
      let res := F xs
      let env := afterAll S its (setRet rv res.1 (storePlaces its res.2 env))
      (xs, if ret.prepend then buildRet S ret rv env ++ buildOut S its env
        else buildOut S its env ++ buildRet S ret rv env)))

/-! ## Views -/

theorem view_other {env env' : Env Val} {vs : List Str} (h : ∀ v ∈ vs, env' v = env v) :
    view env' vs = view env vs := by
  funext i
  unfold view
  cases hv : vs[i]? with
  | none => rfl
  | some v => exact h v (List.mem_of_getElem? hv)

theorem store_other {vs : List Str} {i : Nat} {x : Val} {env : Env Val} {u : Str} (hu : u ∉ vs) :
    store vs i x env u = env u := by
  unfold store
  cases hv : vs[i]? with
  | none => rfl
  | some v =>
    have : u ≠ v := fun e => hu (e ▸ List.mem_of_getElem? hv)
    simp [Env.set, this]

theorem storeTarget_other {vs : List Str} {t : Option Nat} {x : Val} {env : Env Val} {u : Str} (hu : u ∉ vs) :
    storeTarget vs t x env u = env u := by
  cases t
  · rfl
  · exact store_other hu

theorem storeList_other {vs : List Str} {u : Str} (hu : u ∉ vs) : ∀ {is : List Nat} {xs : List Val} {env : Env Val},
    storeList vs is xs env u = env u
  | [], _, _ => by simp [storeList]
  | _ :: _, [], _ => by simp [storeList]
  | i :: is, x :: xs, env => by
    simp only [storeList]
    rw [storeList_other hu, store_other hu]

theorem view_store {vs : List Str} {i : Nat} {x : Val} {env : Env Val} (hn : vs.Nodup) (hi : i < vs.length) :
    view (store vs i x env) vs = (view env vs).set i x := by
  funext j
  unfold view store Loc.set
  rw [List.getElem?_eq_getElem hi]
  dsimp only
  by_cases hj : j = i
  · subst hj
    rw [List.getElem?_eq_getElem hi]
    simp [Env.set]
  · rw [if_neg hj]
    cases hv : vs[j]? with
    | none => rfl
    | some v =>
      obtain ⟨hjl, rfl⟩ := List.getElem?_eq_some_iff.mp hv
      have : vs[j] ≠ vs[i] := fun e => hj (hn.getElem_inj_iff.mp e)
      simp [Env.set, this]

theorem view_storeTarget {vs : List Str} {t : Option Nat} {x : Val} {env : Env Val} (hn : vs.Nodup)
    (ht : ∀ i, t = some i → i < vs.length) :
    view (storeTarget vs t x env) vs = setTarget (view env vs) t x := by
  cases t with
  | none => rfl
  | some i => exact view_store hn (ht i rfl)

theorem view_storeList {vs : List Str} (hn : vs.Nodup) : ∀ {is : List Nat} {xs : List Val} {env : Env Val},
    (∀ i ∈ is, i < vs.length) → view (storeList vs is xs env) vs = (view env vs).setAll is xs
  | [], _, _, _ => by simp [storeList, Loc.setAll]
  | _ :: _, [], _, _ => by simp [storeList, Loc.setAll]
  | i :: is, x :: xs, env, h => by
    simp only [storeList, Loc.setAll]
    rw [view_storeList hn (fun j hj => h j (List.mem_cons_of_mem _ hj)), view_store hn (h i List.mem_cons_self)]

/-! ## One handler's statements -/

theorem runStmts_view (S : Sem Val Py) {vs : List Str} (hn : vs.Nodup) : ∀ {ss : List BStmt} {env : Env Val},
    (∀ s ∈ ss, ∀ i, s.target = some i → i < vs.length) →
    (runStmts S vs ss env).map (view · vs) = prep S ss (view env vs) ∧
      ∀ env', runStmts S vs ss env = some env' → ∀ u, u ∉ vs → env' u = env u
  | [], env, _ => ⟨rfl, by intro env' h u _; cases h; rfl⟩
  | s :: ss, env, ht => by
    simp only [runStmts, prep]
    cases hr : S.run s.ops (view env vs) with
    | none => exact ⟨rfl, by intro env' h; cases h⟩
    | some x =>
      simp only [Option.bind_some]
      obtain ⟨h1, h2⟩ := runStmts_view S hn (ss := ss) (env := storeTarget vs s.target x env)
        (fun s' hs' => ht s' (List.mem_cons_of_mem _ hs'))
      rw [view_storeTarget hn (ht s List.mem_cons_self)] at h1
      refine ⟨h1, ?_⟩
      intro env' h u hu
      rw [h2 env' h u hu, storeTarget_other hu]

theorem postStmts_view (S : Sem Val Py) {vs : List Str} (hn : vs.Nodup) : ∀ {ss : List AStmt} {env : Env Val},
    (∀ s ∈ ss, ∀ i, s.target = some i → i < vs.length) →
    view (postStmts S vs ss env) vs = finish S ss (view env vs) ∧
      ∀ u, u ∉ vs → postStmts S vs ss env u = env u
  | [], env, _ => ⟨rfl, fun _ _ => rfl⟩
  | s :: ss, env, ht => by
    simp only [postStmts, finish]
    obtain ⟨h1, h2⟩ := postStmts_view S hn (ss := ss)
      (env := storeTarget vs s.target (S.post s.texts (view env vs)) env)
      (fun s' hs' => ht s' (List.mem_cons_of_mem _ hs'))
    rw [view_storeTarget hn (ht s List.mem_cons_self)] at h1
    refine ⟨h1, ?_⟩
    intro u hu
    rw [h2 u hu, storeTarget_other hu]

/-! ## All handlers -/

/-- The instances fit: every handler is well formed and has its own distinct variables. -/
structure Fits (its : List Inst) : Prop where
  wf : ∀ it ∈ its, it.d.WF
  length : ∀ it ∈ its, it.vs.length = it.d.vars.length
  nodup : (its.flatMap (·.vs)).Nodup

theorem Fits.tail {it : Inst} {its : List Inst} (h : Fits (it :: its)) : Fits its :=
  ⟨fun i hi => h.wf i (List.mem_cons_of_mem _ hi), fun i hi => h.length i (List.mem_cons_of_mem _ hi), by
    have := h.nodup
    rw [List.flatMap_cons] at this
    exact (List.nodup_append.mp this).2.1⟩

theorem Fits.own {it : Inst} {its : List Inst} (h : Fits (it :: its)) : it.vs.Nodup := by
  have := h.nodup
  rw [List.flatMap_cons] at this
  exact (List.nodup_append.mp this).1

theorem Fits.apart {it : Inst} {its : List Inst} (h : Fits (it :: its)) :
    ∀ v ∈ it.vs, v ∉ its.flatMap (·.vs) := by
  have := h.nodup
  rw [List.flatMap_cons] at this
  intro v hv hv'
  exact (List.nodup_append.mp this).2.2 v hv v hv' rfl

/-- The views of all handlers. -/
def views (its : List Inst) (env : Env Val) : List (Loc Val) := its.map (fun it => view env it.vs)

theorem views_other {its : List Inst} {env env' : Env Val} (h : ∀ v ∈ its.flatMap (·.vs), env' v = env v) :
    views its env' = views its env := by
  unfold views
  refine List.map_congr_left ?_
  intro it hit
  exact view_other (fun v hv => h v (List.mem_flatMap.mpr ⟨it, hit, hv⟩))

/-- Parsing, handler by handler. -/
def loads (S : Sem Val Py) : List Desc → List (Option Py) → List (Loc Val) → Option (List (Loc Val))
  | [], [], _ => some []
  | [], _ :: _, _ => none
  | _ :: _, _, [] => none
  | d :: ds, args, ρ :: ρs =>
    match d.unit with
    | none => (loads S ds args ρs).map (ρ :: ·)
    | some u =>
      match args with
      | [] => none
      | a :: args => (u.load S ρ a).bind (fun ρ' => (loads S ds args ρs).map (ρ' :: ·))

theorem addrs_lt {d : Desc} (hd : d.WF) {u : PUnit} (hu : d.unit = some u) {n : Nat} (hn : n = d.vars.length) :
    ∀ i ∈ u.addrs, i < n := by
  intro i hi
  subst hn
  obtain ⟨a, ha, he⟩ := List.mem_filterMap.mp hi
  cases a with
  | text s => cases he
  | addr j => cases he; exact (hd.unit u hu).2 _ ha

theorem parseAll_views (S : Sem Val Py) : ∀ {its : List Inst} {args : List (Option Py)} {env : Env Val},
    Fits its → (parseAll S its args env).map (views its) = loads S (its.map (·.d)) args (views its env) ∧
      ∀ env', parseAll S its args env = some env' → ∀ u, u ∉ its.flatMap (·.vs) → env' u = env u
  | [], [], env, _ => ⟨rfl, by intro env' h u _; cases h; rfl⟩
  | [], _ :: _, env, _ => ⟨rfl, by intro env' h; cases h⟩
  | it :: its, args, env, hf => by
    have hap := hf.apart
    -- what happens after this handler's own part gave `env1`
    have key : ∀ (args : List (Option Py)) (env1 : Env Val), (∀ u, u ∉ it.vs → env1 u = env u) →
        (parseAll S its args env1).map (views (it :: its)) =
          (loads S (its.map (·.d)) args (views its env)).map (view env1 it.vs :: ·) ∧
        ∀ env', parseAll S its args env1 = some env' → ∀ u, u ∉ (it :: its).flatMap (·.vs) → env' u = env u := by
      intro args env1 h1
      obtain ⟨i1, i2⟩ := parseAll_views S (its := its) (args := args) (env := env1) hf.tail
      have hv : views its env1 = views its env :=
        views_other (fun v hv => h1 v (fun hv' => hap v hv' hv))
      rw [hv] at i1
      refine ⟨?_, ?_⟩
      · rw [← i1]
        cases hp : parseAll S its args env1 with
        | none => rfl
        | some env' =>
          simp only [Option.map_some, views, List.map_cons, Option.some.injEq, List.cons.injEq, and_true]
          exact view_other (fun v hv => i2 env' hp v (hap v hv))
      · intro env' hp u hu
        rw [List.flatMap_cons, List.mem_append, not_or] at hu
        rw [i2 env' hp u hu.2, h1 u hu.1]
    simp only [parseAll, List.map_cons, loads, views]
    cases hu : it.d.unit with
    | none => exact key args env (fun _ _ => rfl)
    | some u =>
      cases args with
      | nil => exact ⟨rfl, by intro env' h; cases h⟩
      | cons a args =>
        cases a with
        | none =>
          simp only [PUnit.load]
          cases ho : u.optional with
          | false => exact ⟨rfl, by intro env' h; cases h⟩
          | true => exact key args env (fun _ _ => rfl)
        | some x =>
          simp only [PUnit.load]
          cases hc : S.conv u.fmt u.texts x with
          | none => exact ⟨rfl, by intro env' h; cases h⟩
          | some ys =>
            have := key args (storeList it.vs u.addrs ys env) (fun v hv => storeList_other hv)
            rw [view_storeList hf.own (addrs_lt (hf.wf it List.mem_cons_self) hu
              (hf.length it List.mem_cons_self))] at this
            exact this

/-- Statements before the call, handler by handler. -/
def preps (S : Sem Val Py) : List Desc → List (Loc Val) → Option (List (Loc Val))
  | d :: ds, ρ :: ρs => (prep S d.before ρ).bind (fun ρ' => (preps S ds ρs).map (ρ' :: ·))
  | _, _ => some []

theorem beforeAll_views (S : Sem Val Py) : ∀ {its : List Inst} {env : Env Val}, Fits its →
    (beforeAll S its env).map (views its) = preps S (its.map (·.d)) (views its env) ∧
      ∀ env', beforeAll S its env = some env' → ∀ u, u ∉ its.flatMap (·.vs) → env' u = env u
  | [], env, _ => ⟨rfl, by intro env' h u _; cases h; rfl⟩
  | it :: its, env, hf => by
    have hap := hf.apart
    have hd := hf.wf it List.mem_cons_self
    have hl := hf.length it List.mem_cons_self
    obtain ⟨r1, r2⟩ := runStmts_view S hf.own (ss := it.d.before) (env := env)
      (fun s hs i hi => hl ▸ hd.targetB s hs i hi)
    simp only [beforeAll, List.map_cons, views, preps]
    rw [← r1]
    cases hr : runStmts S it.vs it.d.before env with
    | none => exact ⟨rfl, by intro env' h; cases h⟩
    | some env1 =>
      simp only [Option.bind_some, Option.map_some]
      obtain ⟨i1, i2⟩ := beforeAll_views S (its := its) (env := env1) hf.tail
      have hv : views its env1 = views its env :=
        views_other (fun v hv => r2 env1 hr v (fun hv' => hap v hv' hv))
      rw [hv] at i1
      refine ⟨?_, ?_⟩
      · show _ = (preps S (its.map (·.d)) (views its env)).map (view env1 it.vs :: ·)
        rw [← i1]
        cases hp : beforeAll S its env1 with
        | none => rfl
        | some env' =>
          simp only [Option.map_some, views, List.map_cons, Option.some.injEq, List.cons.injEq, and_true]
          exact view_other (fun v hv => i2 env' hp v (hap v hv))
      · intro env' hp u hu
        rw [List.flatMap_cons, List.mem_append, not_or] at hu
        rw [i2 env' hp u hu.2, r2 env1 hr u hu.1]

theorem storePlaces_views : ∀ {its : List Inst} {ys : List Val} {env : Env Val}, Fits its →
    (ys.length = its.length → views its (storePlaces its ys env) =
      (its.zip ((views its env).zip ys)).map (fun p => setTarget p.2.1 p.1.d.place p.2.2)) ∧
      ∀ u, u ∉ its.flatMap (·.vs) → storePlaces its ys env u = env u
  | [], _, _, _ => ⟨fun _ => rfl, fun _ _ => by simp [storePlaces]⟩
  | it :: its, [], _, _ => ⟨by simp, fun _ _ => by simp [storePlaces]⟩
  | it :: its, y :: ys, env, hf => by
    have hap := hf.apart
    have hd := hf.wf it List.mem_cons_self
    have hl := hf.length it List.mem_cons_self
    obtain ⟨i1, i2⟩ := storePlaces_views (its := its) (ys := ys) (env := storeTarget it.vs it.d.place y env) hf.tail
    have hv : views its (storeTarget it.vs it.d.place y env) = views its env :=
      views_other (fun v hv => storeTarget_other (fun hv' => hap v hv' hv))
    rw [hv] at i1
    refine ⟨?_, ?_⟩
    · intro hlen
      simp only [storePlaces, views, List.map_cons, List.zip_cons_cons, List.cons.injEq]
      refine ⟨?_, i1 (by simpa using hlen)⟩
      rw [view_other (fun v hv => i2 v (hap v hv)), view_storeTarget hf.own (fun i hi => hl ▸ hd.place i hi)]
    · intro u hu
      rw [List.flatMap_cons, List.mem_append, not_or] at hu
      simp only [storePlaces]
      rw [i2 u hu.2, storeTarget_other hu.1]

theorem afterAll_views (S : Sem Val Py) : ∀ {its : List Inst} {env : Env Val}, Fits its →
    views its (afterAll S its env) = (its.zip (views its env)).map (fun p => finish S p.1.d.after p.2) ∧
      ∀ u, u ∉ its.flatMap (·.vs) → afterAll S its env u = env u
  | [], _, _ => ⟨rfl, fun _ _ => rfl⟩
  | it :: its, env, hf => by
    have hap := hf.apart
    have hd := hf.wf it List.mem_cons_self
    have hl := hf.length it List.mem_cons_self
    obtain ⟨r1, r2⟩ := postStmts_view S hf.own (ss := it.d.after) (env := env)
      (fun s hs i hi => hl ▸ hd.targetA s hs i hi)
    obtain ⟨i1, i2⟩ := afterAll_views S (its := its) (env := postStmts S it.vs it.d.after env) hf.tail
    have hv : views its (postStmts S it.vs it.d.after env) = views its env :=
      views_other (fun v hv => r2 v (fun hv' => hap v hv' hv))
    rw [hv] at i1
    refine ⟨?_, ?_⟩
    · simp only [afterAll, views, List.map_cons, List.zip_cons_cons, List.cons.injEq]
      refine ⟨?_, i1⟩
      rw [view_other (fun v hv => i2 v (hap v hv)), r1]
    · intro u hu
      rw [List.flatMap_cons, List.mem_append, not_or] at hu
      simp only [afterAll]
      rw [i2 u hu.2, r2 u hu.1]

/-- The specification by phases. -/
theorem accepted_phases (S : Sem Val Py) : ∀ (ds : List Desc) (args : List (Option Py)),
    accepted S ds args = (loads S ds args (ds.map (Desc.start S))).bind (preps S ds)
  | [], [] => rfl
  | [], _ :: _ => rfl
  | d :: ds, args => by
    have comm : ∀ (p : Option (Loc Val)) (args : List (Option Py)),
        p.bind (fun ρ => (prep S d.before ρ).bind (fun ρ => (accepted S ds args).map (ρ :: ·))) =
        (p.bind (fun ρ' => (loads S ds args (ds.map (Desc.start S))).map (ρ' :: ·))).bind (preps S (d :: ds)) := by
      intro p args
      rw [accepted_phases S ds args]
      cases p with
      | none => rfl
      | some ρ =>
        simp only [Option.bind_some]
        cases loads S ds args (ds.map (Desc.start S)) with
        | none => cases prep S d.before ρ <;> rfl
        | some ρs => rfl
    simp only [accepted, List.map_cons, loads, Desc.accept]
    cases hu : d.unit with
    | none =>
      have := comm (some (d.start S)) args
      simp only [Option.bind_some] at this
      simpa using this
    | some u =>
      simp only [Option.isSome_some, if_true]
      cases args with
      | nil => rfl
      | cons a args =>
        rw [← comm (u.load S (d.start S) a) args]
        exact Option.bind_assoc _ _ _

theorem loads_length (S : Sem Val Py) : ∀ {ds : List Desc} {args : List (Option Py)} {ρs ρs' : List (Loc Val)},
    loads S ds args ρs = some ρs' → ρs'.length = ds.length
  | [], [], _, _, h => by cases h; rfl
  | [], _ :: _, _, _, h => by cases h
  | _ :: _, _, [], _, h => by cases h
  | d :: ds, args, ρ :: ρs, ρs', h => by
    simp only [loads] at h
    split at h
    · obtain ⟨l, hl, rfl⟩ := Option.map_eq_some_iff.mp h
      simp [loads_length S hl]
    · split at h
      · cases h
      · obtain ⟨ρ', -, h⟩ := Option.bind_eq_some_iff.mp h
        obtain ⟨l, hl, rfl⟩ := Option.map_eq_some_iff.mp h
        simp [loads_length S hl]

theorem given_eq (S : Sem Val Py) : ∀ (its : List Inst) (ρs : List (Loc Val)) (ys : List Val),
    ρs.length = its.length → ys.length = its.length →
    (its.zip ((its.zip (ρs.zip ys)).map (fun p => setTarget p.2.1 p.1.d.place p.2.2))).flatMap
      (fun p => p.1.d.out.toList.map (fun o => S.out o.1 o.2 (finish S p.1.d.after p.2))) =
    given S (its.map (·.d)) ρs ys
  | [], _, _, _, _ => by simp [given]
  | _ :: _, [], _, h, _ => by simp at h
  | _ :: _, _ :: _, [], _, h => by simp at h
  | it :: its, ρ :: ρs, y :: ys, h1, h2 => by
    simp only [List.zip_cons_cons, List.map_cons, List.flatMap_cons, given, Desc.gives]
    rw [given_eq S its ρs ys (by simpa using h1) (by simpa using h2)]

theorem buildOut_views (S : Sem Val Py) : ∀ (its : List Inst) (env : Env Val),
    buildOut S its env = (its.zip (views its env)).flatMap (fun p => p.1.d.out.toList.map (fun o => S.out o.1 o.2 p.2))
  | [], _ => rfl
  | it :: its, env => by
    have := buildOut_views S its env
    simp only [buildOut, List.flatMap_cons, views, List.map_cons, List.zip_cons_cons] at this ⊢
    rw [this]

theorem zip_zip_map {α β γ : Type _} (f : α → β → γ) : ∀ (l : List α) (r : List β),
    l.zip ((l.zip r).map (fun p => f p.1 p.2)) = (l.zip r).map (fun p => (p.1, f p.1 p.2))
  | [], _ => rfl
  | _ :: _, [] => rfl
  | a :: l, b :: r => by simp [zip_zip_map f l r]

/-- **Execution meets specification**, for handlers with separate variables. -/
theorem execD_spec (S : Sem Val Py) (vars : List (Str × Option Str)) (its : List Inst) (ret : RDesc)
    (rv : Option Str) (hf : Fits its) (hstart : views its (initAll S vars) = its.map (fun it => it.d.start S))
    (hrv : ∀ r, rv = some r → r ∉ its.flatMap (·.vs)) (hret : rv = none → ret.out = none)
    (args : List (Option Py)) (F : Callee Val) (hF : ∀ xs, (F xs).2.length = xs.length) :
    execD S vars its ret rv args F = callSpec S (its.map (·.d)) ret args F := by
  unfold execD callSpec
  rw [accepted_phases]
  obtain ⟨p1, -⟩ := parseAll_views S (args := args) (env := initAll S vars) hf
  rw [hstart] at p1
  rw [show (its.map (·.d)).map (Desc.start S) = its.map (fun it => it.d.start S) by simp [Function.comp_def], ← p1]
  cases hp : parseAll S its args (initAll S vars) with
  | none => rfl
  | some env1 =>
    simp only [Option.map_some, Option.bind_some]
    obtain ⟨b1, -⟩ := beforeAll_views S (env := env1) hf
    rw [← b1]
    cases hb : beforeAll S its env1 with
    | none => rfl
    | some env2 =>
      simp only [Option.map_some, Option.some.injEq, Prod.mk.injEq]
      have hx : its.map (fun it => S.eval it.d.arg (view env2 it.vs)) =
          ((its.map (·.d)).zip (views its env2)).map (fun p => p.1.passes S p.2) := by
        simp only [views, Desc.passes]
        induction its with
        | nil => rfl
        | cons it its ih =>
          simp only [List.map_cons, List.zip_cons_cons, List.cons.injEq, true_and]
          clear ih hp hb p1 b1 hf hstart hrv hret
          induction its with
          | nil => rfl
          | cons it its ih => simp only [List.map_cons, List.zip_cons_cons, List.cons.injEq, true_and, ih]
      refine ⟨hx, ?_⟩
      rw [← hx]
      generalize hxs : its.map (fun it => S.eval it.d.arg (view env2 it.vs)) = xs
      have hlen : (F xs).2.length = its.length := by rw [hF, ← hxs]; simp
      obtain ⟨s1, s2⟩ := storePlaces_views (its := its) (ys := (F xs).2) (env := env2) hf
      generalize hres : F xs = res at s1 s2 hlen
      have hset : ∀ v ∈ its.flatMap (·.vs), setRet rv res.1 (storePlaces its res.2 env2) v = storePlaces its res.2 env2 v := by
        intro v hv
        unfold setRet
        cases rv with
        | none => rfl
        | some r =>
          have : v ≠ r := fun e => hrv r rfl (e ▸ hv)
          simp [Env.set, this]
      obtain ⟨a1, a2⟩ := afterAll_views S (its := its) (env := setRet rv res.1 (storePlaces its res.2 env2)) hf
      rw [views_other hset, s1 hlen] at a1
      have hout : buildOut S its (afterAll S its (setRet rv res.1 (storePlaces its res.2 env2))) =
          given S (its.map (·.d)) (views its env2) res.2 := by
        rw [buildOut_views, a1, zip_zip_map (fun (it : Inst) (ρ : Loc Val) => finish S it.d.after ρ), List.flatMap_map]
        exact given_eq S its _ _ (by simp [views]) hlen
      have hr : buildRet S ret rv (afterAll S its (setRet rv res.1 (storePlaces its res.2 env2))) =
          ret.gives S res.1 := by
        unfold buildRet RDesc.gives
        cases rv with
        | none => rw [hret rfl]; rfl
        | some r =>
          simp only [Option.bind_some]
          rw [a2 r (hrv r rfl)]
          simp [setRet, Env.set]
      rw [hout, hr]

end Verif.Wrap
