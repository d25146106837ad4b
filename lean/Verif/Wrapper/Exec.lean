import Verif.Wrapper.ForwardFlow
import Verif.DeclScope.Props
import Verif.Params.Props

/-!
# C41: what a generated wrapper computes

A small semantics for the code of a forward wrapper along the execution on which no check fails:
`PyArg_ParseTuple*` stores converted arguments through the addresses it is given, the C++ function
is called with the call expressions, `Py_BuildValue` converts the expressions it is given.
-/
namespace Verif.Wrap
open Verif Verif.Flow Verif.Params Verif.DeclScope

/-- The meaning of format units and initializers.  `conv` fails where `PyArg_ParseTuple` does. -/
structure Lang (Val Py : Type) where
  conv : Str → Py → Option Val
  unconv : Str → Val → Py
  expr : Str → Val

variable {Val Py : Type}

/-- Contents of the variables; `none` before anything is stored. -/
abbrev Env (Val : Type) := Str → Option Val

def Env.set (env : Env Val) (v : Str) (x : Val) : Env Val := fun u => if u = v then some x else env u

/-- The C++ function called: from the values passed, the returned value and the contents of each
argument afterwards (of interest for references and pointers). -/
abbrev Callee (Val : Type) := List (Option Val) → Val × List Val

/-- Declarations with initializers. -/
def initEnv (L : Lang Val Py) : List (Str × Option Str) → Env Val
  | [] => fun _ => none
  | (v, x) :: rest => fun u => if u = v then x.map L.expr else initEnv L rest u

/-- `PyArg_ParseTuple` on items with one address each; `args` has one entry per item, `none` if the
caller left the argument out. -/
def parseItems (L : Lang Val Py) : List PItem → List (Option Py) → Env Val → Option (Env Val)
  | [], [], env => some env
  | it :: its, a :: as, env =>
    match it.values with
    | ['&' :: v] =>
      match a with
      | some x => match L.conv it.template x with
        | some y => parseItems L its as (env.set v y)
        | none => none
      | none => if it.optional then parseItems L its as env else none
    | _ => none
  | _, _, _ => none

/-- The variable a call expression denotes (itself or its address). -/
def place : Str → Str
  | '&' :: v => v
  | v => v

/-- Storing what the call left behind. -/
def storeAll : List Str → List Val → Env Val → Env Val
  | v :: vs, x :: xs, env => storeAll vs xs (env.set v x)
  | _, _, env => env

/-- `Py_BuildValue` on items with one expression each. -/
def buildAll (L : Lang Val Py) (env : Env Val) : List BItem → Option (List Py)
  | [] => some []
  | it :: its =>
    match it.values with
    | [e] => match env e with
      | some x => (buildAll L env its).map (L.unconv it.template x :: ·)
      | none => none
    | _ => none

/-- Assignment of the returned value to a variable, if there is one. -/
def setRet (rv : Option Str) (x : Val) (env : Env Val) : Env Val :=
  match rv with
  | some v => env.set v x
  | none => env

/-- The wrapper: values converted back to Python, if the arguments are accepted.  `rv` is the
variable the result of the call is assigned to. -/
def exec (L : Lang Val Py) (rv : Option Str) (w : W) (args : List (Option Py)) (F : Callee Val) :
    Option (List Py) :=
  match parseItems L w.parse args (initEnv L w.vars) with
  | none => none
  | some env =>
    let res := F (w.call.map (fun e => env (place e)))
    buildAll L (setRet rv res.1 (storeAll (w.call.map place) res.2 env)) w.build

/-! ## Specification -/

/-- What the C++ function is to receive: for every declared parameter, in order, the next Python
argument converted if it is an input; its initializer if it is omitted or a pure output. `none` if
the arguments do not fit. -/
def inputs (L : Lang Val Py) : List Scalar → List (Option Py) → Option (List (Option Val))
  | [], [] => some []
  | [], _ :: _ => none
  | s :: ss, args =>
    if s.isIn then
      match args with
      | some x :: args => match L.conv s.fmt x with
        | some y => (inputs L ss args).map (some y :: ·)
        | none => none
      | none :: args => if s.optional then (inputs L ss args).map (s.init.map L.expr :: ·) else none
      | [] => none
    else (inputs L ss args).map (s.init.map L.expr :: ·)

/-- What is returned to Python besides the return value: the outputs, in declaration order. -/
def outputs (L : Lang Val Py) : List Scalar → List Val → List Py
  | s :: ss, x :: xs => if s.isOut then L.unconv s.fmt x :: outputs L ss xs else outputs L ss xs
  | _, _ => []

/-! ## Proof -/

def pItems : List Scalar → List Str → List PItem
  | s :: ss, v :: vs =>
    (if s.isIn then [⟨s.fmt, ['&' :: v], some s.name, s.optional⟩] else []) ++ pItems ss vs
  | _, _ => []

def bItems : List Scalar → List Str → List BItem
  | s :: ss, v :: vs => (if s.isOut then [⟨s.fmt, [v], none⟩] else []) ++ bItems ss vs
  | _, _ => []

def cItems : List Scalar → List Str → List Str
  | s :: ss, v :: vs => (if s.byPtr then '&' :: v else v) :: cItems ss vs
  | _, _ => []

def vItems : List Scalar → List Str → List (Str × Option Str)
  | s :: ss, v :: vs => (v, s.init) :: vItems ss vs
  | _, _ => []

/-- Effect of converting scalar parameters. -/
theorem convert_scalars : ∀ (ss : List Scalar) {w w' : W},
    convertParams (ss.map Scalar.convert) w = .ok w' →
    ∃ vs, vs.length = ss.length ∧ w'.vars = w.vars ++ vItems ss vs ∧ w'.parse = w.parse ++ pItems ss vs ∧
      w'.build = w.build ++ bItems ss vs ∧ w'.call = w.call ++ cItems ss vs ∧
      ∀ v ∈ vs, ∃ s ∈ ss, ∃ k, v = nthName (s.name ++ s.suffix) k
  | [], w, w', h => by
    cases h
    exact ⟨[], rfl, by simp [vItems], by simp [pItems], by simp [bItems], by simp [cItems], by simp⟩
  | s :: ss, w, w', h => by
    simp only [List.map_cons, convertParams] at h
    obtain ⟨w1, h1, h2⟩ := bind_ok.mp h
    obtain ⟨f, v, hd, rfl⟩ := scalar_spec (guardNI_ok.mp h1)
    obtain ⟨vs, hl, e1, e2, e3, e4, e5⟩ := convert_scalars ss h2
    refine ⟨v :: vs, by simp [hl], ?_, ?_, ?_, ?_, ?_⟩
    · rw [e1]; simp [vItems]
    · rw [e2]; simp [pItems]
    · rw [e3]; simp [bItems]
    · rw [e4]; simp [cItems]
    · intro u hu
      rcases List.mem_cons.mp hu with rfl | hu
      · exact ⟨s, List.mem_cons_self, _, step_name (f := w.decls)
          (r := .declare 0 s.ctype (s.name ++ s.suffix) s.init none) (congrArg Prod.snd hd)⟩
      · obtain ⟨s', hs', k, rfl⟩ := e5 u hu
        exact ⟨s', List.mem_cons_of_mem _ hs', k, rfl⟩

/-- A plain variable name. -/
def Plain (v : Str) : Prop := v.head? ≠ some '&'

theorem place_cItems : ∀ (ss : List Scalar) (vs : List Str), vs.length = ss.length →
    (∀ v ∈ vs, Plain v) → (cItems ss vs).map place = vs
  | [], [], _, _ => rfl
  | [], _ :: _, h, _ => by simp at h
  | _ :: _, [], h, _ => by simp at h
  | s :: ss, v :: vs, h, hp => by
    simp only [cItems, List.map_cons]
    rw [place_cItems ss vs (by simpa using h) (fun u hu => hp u (List.mem_cons_of_mem _ hu))]
    congr 1
    split
    · rfl
    · have := hp v List.mem_cons_self
      cases v with
      | nil => rfl
      | cons c cs =>
        unfold place
        split
        · rename_i he; cases he; exact absurd rfl this
        · rfl

/-- Parsing computes the inputs. -/
theorem parse_inputs (L : Lang Val Py) : ∀ (ss : List Scalar) (vs : List Str) (args : List (Option Py))
    (env : Env Val), vs.length = ss.length → vs.Nodup →
    (∀ p ∈ vItems ss vs, env p.1 = p.2.map L.expr) →
    (parseItems L (pItems ss vs) args env).map (fun e => vs.map e) = inputs L ss args ∧
    ∀ env', parseItems L (pItems ss vs) args env = some env' → ∀ u, u ∉ vs → env' u = env u
  | [], [], args, env, _, _, _ => by
    cases args with
    | nil =>
      refine ⟨rfl, ?_⟩
      intro env' h u _
      simp only [pItems, parseItems, Option.some.injEq] at h
      rw [h]
    | cons a as => exact ⟨rfl, by intro env' h; simp [pItems, parseItems] at h⟩
  | [], _ :: _, _, _, h, _, _ => by simp at h
  | _ :: _, [], _, _, h, _, _ => by simp at h
  | s :: ss, v :: vs, args, env, hl, hnd, hin => by
    have hl' : vs.length = ss.length := by simpa using hl
    have hv : v ∉ vs := (List.nodup_cons.mp hnd).1
    have hnd' : vs.Nodup := (List.nodup_cons.mp hnd).2
    have hmem : ∀ (ss : List Scalar) (vs : List Str), ∀ p ∈ vItems ss vs, p.1 ∈ vs := by
      intro ss
      induction ss with
      | nil => intro vs p hp; simp [vItems] at hp
      | cons s ss ih =>
        intro vs p hp
        cases vs with
        | nil => simp [vItems] at hp
        | cons v vs =>
          simp only [vItems, List.mem_cons] at hp
          rcases hp with rfl | hp
          · exact List.mem_cons_self
          · exact List.mem_cons_of_mem _ (ih vs p hp)
    have hv0 : env v = s.init.map L.expr := hin (v, s.init) (by simp [vItems])
    have hrest : ∀ p ∈ vItems ss vs, env p.1 = p.2.map L.expr :=
      fun p hp => hin p (by simp [vItems, hp])
    -- the rest keeps `v`
    have keep : ∀ (args : List (Option Py)) (env1 : Env Val),
        (∀ p ∈ vItems ss vs, env1 p.1 = p.2.map L.expr) →
        (parseItems L (pItems ss vs) args env1).map (fun e => (v :: vs).map e) =
          (inputs L ss args).map (env1 v :: ·) := by
      intro args env1 h1
      obtain ⟨i1, i2⟩ := parse_inputs L ss vs args env1 hl' hnd' h1
      rw [← i1]
      cases hp : parseItems L (pItems ss vs) args env1 with
      | none => rfl
      | some env' => simp [i2 env' hp v hv]
    have frame : ∀ (args : List (Option Py)) (env1 : Env Val),
        (∀ p ∈ vItems ss vs, env1 p.1 = p.2.map L.expr) → (∀ u, u ≠ v → env1 u = env u) →
        ∀ env', parseItems L (pItems ss vs) args env1 = some env' → ∀ u, u ∉ v :: vs → env' u = env u := by
      intro args env1 h1 h2 env' hp u hu
      simp only [List.mem_cons, not_or] at hu
      rw [(parse_inputs L ss vs args env1 hl' hnd' h1).2 env' hp u hu.2, h2 u hu.1]
    cases hi : s.isIn with
    | false =>
      have e1 : pItems (s :: ss) (v :: vs) = pItems ss vs := by simp [pItems, hi]
      rw [e1]
      refine ⟨?_, frame args env hrest (fun _ _ => rfl)⟩
      rw [keep args env hrest, hv0]
      cases args <;> simp [inputs, hi]
    | true =>
      have e1 : pItems (s :: ss) (v :: vs) =
          ⟨s.fmt, ['&' :: v], some s.name, s.optional⟩ :: pItems ss vs := by simp [pItems, hi]
      rw [e1]
      cases args with
      | nil => exact ⟨by simp [parseItems, inputs, hi], by intro env' h; simp [parseItems] at h⟩
      | cons a as =>
        cases a with
        | none =>
          cases ho : s.optional with
          | false =>
            exact ⟨by simp [parseItems, inputs, hi, ho], by intro env' h; simp [parseItems] at h⟩
          | true =>
            refine ⟨?_, ?_⟩
            · have := keep as env hrest
              rw [hv0] at this
              simpa [parseItems, inputs, hi, ho] using this
            · intro env' h
              simp only [parseItems] at h
              exact frame as env hrest (fun _ _ => rfl) env' h
        | some x =>
          cases hc : L.conv s.fmt x with
          | none =>
            exact ⟨by simp [parseItems, inputs, hi, hc], by intro env' h; simp [parseItems, hc] at h⟩
          | some y =>
            have h1 : ∀ p ∈ vItems ss vs, (env.set v y) p.1 = p.2.map L.expr := by
              intro p hp
              have : p.1 ≠ v := fun e => hv (e ▸ hmem ss vs p hp)
              simp [Env.set, this, hrest p hp]
            have h2 : ∀ u, u ≠ v → (env.set v y) u = env u := by
              intro u hu; simp [Env.set, hu]
            refine ⟨?_, ?_⟩
            · have := keep as (env.set v y) h1
              have hy : (env.set v y) v = some y := by simp [Env.set]
              rw [hy] at this
              simpa [parseItems, inputs, hi, hc] using this
            · intro env' h
              simp only [parseItems, hc] at h
              exact frame as (env.set v y) h1 h2 env' h

theorem storeAll_notin : ∀ (vs : List Str) (xs : List Val) (env : Env Val) (u : Str), u ∉ vs →
    storeAll vs xs env u = env u
  | [], _, _, _, _ => by simp [storeAll]
  | v :: vs, [], _, _, _ => by simp [storeAll]
  | v :: vs, x :: xs, env, u, hu => by
    simp only [List.mem_cons, not_or] at hu
    simp only [storeAll]
    rw [storeAll_notin vs xs _ u hu.2]
    simp [Env.set, hu.1]

theorem build_outputs (L : Lang Val Py) : ∀ (ss : List Scalar) (vs : List Str) (xs : List Val)
    (env : Env Val) (env2 : Env Val), vs.length = ss.length → xs.length = ss.length → vs.Nodup →
    (∀ u ∈ vs, env2 u = storeAll vs xs env u) →
    buildAll L env2 (bItems ss vs) = some (outputs L ss xs)
  | [], [], [], _, _, _, _, _, _ => rfl
  | [], _ :: _, _, _, _, h, _, _, _ => by simp at h
  | [], [], _ :: _, _, _, _, h, _, _ => by simp at h
  | _ :: _, [], _, _, _, h, _, _, _ => by simp at h
  | _ :: _, _ :: _, [], _, _, _, h, _, _ => by simp at h
  | s :: ss, v :: vs, x :: xs, env, env2, h1, h2, hnd, h => by
    have hv : v ∉ vs := (List.nodup_cons.mp hnd).1
    have ih := build_outputs L ss vs xs (env.set v x) env2 (by simpa using h1) (by simpa using h2)
      (List.nodup_cons.mp hnd).2 (fun u hu => by
        rw [h u (List.mem_cons_of_mem _ hu)]; rfl)
    have hx : env2 v = some x := by
      rw [h v List.mem_cons_self]
      simp only [storeAll]
      rw [storeAll_notin vs xs _ v hv]
      simp [Env.set]
    cases ho : s.isOut with
    | false => simp [bItems, outputs, ho, ih]
    | true => simp [bItems, outputs, ho, buildAll, hx, ih]

end Verif.Wrap
