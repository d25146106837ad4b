import Verif.Overload.Custom

/-!
# C123: hand-written wrappers
-/
namespace Verif.Custom
open Verif Verif.Overload

/-! ## Specification -/

/-- What the user declares under one Python name; `base` is the C name of the wrapper of a declaration. -/
inductive Decl where
  /-- a function or method to be wrapped, with the names of its input parameters -/
  | ordinary (base : Str) (ins : List Str) (isStatic : Bool)
  /-- `add_custom_function_wrapper`/`add_custom_method_wrapper`: the C name of the wrapper, its text, its flags -/
  | custom (base name : Str) (body : Option Str) (flags : List Str)
  deriving DecidableEq

/-- The wrapper object as constructed. -/
def Decl.start : Decl → Wr
  | .ordinary b ins s => ⟨.ordinary ins s, b, false, []⟩
  | .custom b n body flags => ⟨.custom n body, b, false, flags⟩

def Decl.base : Decl → Str
  | .ordinary b _ _ => b
  | .custom b _ _ _ => b

def varargs : Str := "METH_VARARGS".toList
def keywords : Str := "METH_KEYWORDS".toList
def static : Str := "METH_STATIC".toList

/-- The calling convention of a declaration in an overload set: that of a hand-written wrapper is the one given. -/
def Decl.conv : Decl → List Str
  | .ordinary _ _ s => [varargs, keywords] ++ (if s then [static] else [])
  | .custom _ _ _ flags => flags

/-- All declarations have the calling convention `S`. -/
def Uniform (S : List Str) (ds : List Decl) : Prop := ∀ d ∈ ds, ∀ f, f ∈ d.conv ↔ f ∈ S

/-- A main wrapper is needed: there are several declarations, or a hand-written one. -/
def Decl.isCustom : Decl → Bool
  | .ordinary _ _ _ => false
  | .custom _ _ _ _ => true

def NeedsMain (ds : List Decl) : Prop := 2 ≤ ds.length ∨ ∃ d ∈ ds, d.isCustom = true

/-- What follows `self` in the parameters of a C function with the calling convention `S`. -/
def following (S : List Str) (args kwargs : String) : List Str :=
  (if varargs ∈ S then [args.toList] else []) ++ (if keywords ∈ S then [kwargs.toList] else [])

/-- The parameters of the main wrapper. -/
def mainParams (p : Str) (S : List Str) : List Str :=
  (p ++ " *self".toList) :: following S "PyObject *args" "PyObject *kwargs"

/-- The arguments it passes on to the wrapper number `k`. -/
def passed (S : List Str) (k : Nat) : List Str :=
  "self".toList :: following S "args" "kwargs" ++ ["&exceptions[".toList ++ natStr k ++ "]".toList]

/-- The parameters a hand-written wrapper is documented to have. -/
def handParams (p : Str) : List Str :=
  [p ++ " *self".toList, "PyObject *args".toList, "PyObject *kwargs".toList, "PyObject **return_exception".toList]

/-- The C name a declaration is called by: a hand-written wrapper by its own name. -/
def Decl.callee (b0 : Str) (k : Nat) : Decl → Str
  | .ordinary _ _ _ => b0 ++ "__".toList ++ natStr k
  | .custom _ n _ _ => n

/-- The first parameter of a generated wrapper. -/
def selfParam (owner : Owner) (isStatic : Bool) : Str :=
  match owner with
  | .module => "PyObject * PYBINDGEN_UNUSED(dummy)".toList
  | .cls p => p ++ " *".toList ++ (if isStatic then "PYBINDGEN_UNUSED(dummy)".toList else "self".toList)

/-- What is written for a declaration: the text of a hand-written wrapper, or its declaration if there is no text. -/
def Decl.code (owner : Owner) (b0 : Str) (k : Nat) : Decl → Ev
  | .ordinary _ _ s => .define (b0 ++ "__".toList ++ natStr k)
      [selfParam owner s, "PyObject *args".toList, "PyObject *kwargs".toList, "PyObject **return_exception".toList]
  | .custom _ _ (some b) _ => .text b
  | .custom _ n none _ => .declare n (handParams owner.pystruct)

/-- The code to be written for the declarations `d :: ds` with the calling convention `S`: that of each, in order,
and the main wrapper, which calls each, in order. -/
def expectedCode (owner : Owner) (S : List Str) (d : Decl) (ds : List Decl) : List Ev :=
  (d :: ds).zipIdx.map (fun x => x.1.code owner d.base x.2) ++
  [.dispatch d.base (mainParams owner.pystruct S) ((d :: ds).zipIdx.map (fun x => (x.1.callee d.base x.2, passed S x.2)))]

/-! ## Proof -/

def both : List Str := ["METH_VARARGS".toList, "METH_KEYWORDS".toList]

theorem expectedFlags_forced (ins : List Str) : Wrap.expectedFlags ins (some .keywords) = both := by
  unfold Wrap.expectedFlags both
  simp

/-- A wrapper whose flags are known to be `S` and which can be generated. -/
structure Ready (limit : Nat) (owner : Owner) (w : Wr) : Prop where
  plain : w.isCustom = false → w.methFlags = []
  body : owner = .module → ∀ n b, w.impl = .custom n b → b.isSome = true
  stat : owner = .module → w.isStatic = false
  room : owner = .module → 1 ≤ limit

def Wr.code (owner : Owner) (b0 : Str) (k : Nat) (w : Wr) : Ev :=
  match w.impl with
  | .ordinary _ s => .define (b0 ++ "__".toList ++ natStr k)
      [selfParam owner s, "PyObject *args".toList, "PyObject *kwargs".toList, "PyObject **return_exception".toList]
  | .custom _ (some b) => .text b
  | .custom n none => .declare n (handParams owner.pystruct)

def Wr.callee (b0 : Str) (k : Nat) (w : Wr) : Str :=
  match w.impl with
  | .ordinary _ _ => b0 ++ "__".toList ++ natStr k
  | .custom n _ => n

def Wr.after (w : Wr) : Wr :=
  match w.impl with
  | .ordinary _ _ => { w.force with methFlags := both }
  | .custom _ _ => w.force

theorem genOne_eq {limit : Nat} {owner : Owner} {w : Wr} (r : Ready limit owner w) (b0 : Str) (k : Nat) :
    genOne limit owner extraParam (delegateName b0 k) w.force = .ok ([w.code owner b0 k], w.callee b0 k, w.after) := by
  obtain ⟨hp, hb, hs, hr⟩ := r
  obtain ⟨impl, base, forced, mf⟩ := w
  cases impl with
  | ordinary ins s =>
    have hm : mf = [] := hp rfl
    subst hm
    have h1 : Wr.bodyFlags ⟨.ordinary ins s, base, true, []⟩ = both := expectedFlags_forced ins
    have hz : ∀ owner, (owner = Owner.module → s = false) →
        ordinaryArgs owner (Wr.flags ⟨.ordinary ins s, base, true, both⟩) extraParam =
        .ok [selfParam owner s, "PyObject *args".toList, "PyObject *kwargs".toList, "PyObject **return_exception".toList] := by
      intro owner ho
      cases owner with
      | module => rw [ho rfl]; rfl
      | cls p => cases s <;> rfl
    show (match ordinaryArgs owner (Wr.flags ⟨.ordinary ins s, base, true, [] ++ Wr.bodyFlags ⟨.ordinary ins s, base, true, []⟩⟩) extraParam with
      | .error e => _ | .ok args => _) = _
    rw [h1, List.nil_append, hz owner (fun h => hs h)]
    simp only [Wr.code, Wr.callee, Wr.after, Wr.force, delegateName]
    rw [show Wr.bodyFlags ⟨.ordinary ins s, base, true, []⟩ = both from h1]
    rfl
  | custom n body =>
    cases owner with
    | module =>
      have hl := hr rfl
      obtain ⟨b, rfl⟩ := Option.isSome_iff_exists.mp (hb rfl n body rfl)
      obtain ⟨l, rfl⟩ : ∃ l, limit = l + 1 := ⟨limit - 1, by omega⟩
      simp only [genOne, Wr.force]
      rw [if_neg (fun h => h rfl)]
      rfl
    | cls p =>
      simp only [genOne, Wr.force]
      rw [if_neg (fun h => h rfl)]
      cases body <;> rfl

theorem delegates_eq {limit : Nat} {owner : Owner} (b0 : Str) : ∀ (ws : List Wr) (k : Nat),
    (∀ w ∈ ws, Ready limit owner w) →
    delegates limit owner b0 k ws = .ok ((ws.zipIdx k).map (fun x => x.1.code owner b0 x.2),
      (ws.zipIdx k).map (fun x => x.1.callee b0 x.2), ws.map Wr.after)
  | [], _, _ => rfl
  | w :: ws, k, h => by
    have ih := delegates_eq b0 ws (k + 1) (fun v hv => h v (List.mem_cons_of_mem _ hv))
    simp only [delegates, genOne_eq (h w List.mem_cons_self) b0 k, ih, List.zipIdx_cons, List.map_cons,
      List.singleton_append]

theorem wrapperArgs_eq (p : Str) {fl S : List Str} (h : ∀ f, f ∈ fl ↔ f ∈ S) :
    wrapperArgs p fl = mainParams p S := by
  unfold wrapperArgs mainParams following varargs keywords
  simp only [List.contains_iff_mem, h]
  rfl

theorem callArgs_eq (k : Nat) {fl S : List Str} (h : ∀ f, f ∈ fl ↔ f ∈ S) : callArgs fl k = passed S k := by
  unfold callArgs passed following varargs keywords
  simp only [List.contains_iff_mem, h]
  simp only [List.singleton_append, List.append_assoc, List.cons_append, List.nil_append]

theorem calls_eq {fl S : List Str} (h : ∀ f, f ∈ fl ↔ f ∈ S) (b0 : Str) : ∀ (ws : List Wr) (k : Nat),
    calls fl k ((ws.zipIdx k).map (fun x => x.1.callee b0 x.2)) =
      (ws.zipIdx k).map (fun x => (x.1.callee b0 x.2, passed S x.2))
  | [], _ => rfl
  | w :: ws, k => by
    simp only [List.zipIdx_cons, List.map_cons, calls, callArgs_eq k h, calls_eq h b0 ws (k + 1)]

theorem many_eq {limit : Nat} {owner : Owner} {w : Wr} {ws : List Wr} {S : List Str}
    (h : ∀ f, f ∈ w.flags ↔ f ∈ S) (hr : ∀ v ∈ ws, Ready limit owner v) :
    many limit owner w ws = .ok (ws.zipIdx.map (fun x => x.1.code owner w.base x.2) ++
        [.dispatch w.base (mainParams owner.pystruct S) (ws.zipIdx.map (fun x => (x.1.callee w.base x.2, passed S x.2)))],
      ⟨w.base, mainParams owner.pystruct S⟩, ws.map Wr.after) := by
  unfold many
  rw [delegates_eq w.base ws 0 hr]
  simp only [wrapperArgs_eq owner.pystruct h, calls_eq h w.base ws 0]

theorem sameSet_iff {a b : List Str} : sameSet a b = true ↔ ∀ f, f ∈ a ↔ f ∈ b := by
  unfold sameSet
  simp only [Bool.and_eq_true, List.all_eq_true, List.contains_iff_mem]
  exact ⟨fun ⟨h1, h2⟩ f => ⟨h1 f, h2 f⟩, fun h => ⟨fun x hx => (h x).1 hx, fun x hx => (h x).2 hx⟩⟩


theorem normLoop_all (o : Ops Wr) (ws : List Wr) (F : List Str) (hf : ∀ w ∈ ws, ∃ g, o.flags w = .ok g ∧ ∀ f, f ∈ g ↔ f ∈ F) :
    normLoop o ws = .ok ws := by
  have guard : ∀ w ∈ ws, ∃ g, o.guarded w = .ok g ∧ ∀ f, f ∈ g ↔ f ∈ F := by
    intro w hw
    obtain ⟨g, h1, h2⟩ := hf w hw
    refine ⟨g, ?_, h2⟩
    unfold Ops.guarded Utils.callWithErrorHandling
    rw [h1]
    cases o.handler <;> rfl
  have hs : ∀ (l : List Wr) (ex : Option (List Str)), (∀ w ∈ l, w ∈ ws) → (∀ g, ex = some g → ∀ f, f ∈ g ↔ f ∈ F) →
      scan o ex l = .done := by
    intro l
    induction l with
    | nil => intro ex _ _; rfl
    | cons w l ih =>
      intro ex hl hex
      obtain ⟨g, h1, h2⟩ := guard w (hl w List.mem_cons_self)
      have hl' := fun v hv => hl v (List.mem_cons_of_mem _ hv)
      unfold scan
      rw [h1]
      cases ex with
      | none => exact ih (some g) hl' (fun g' hg' => by cases hg'; exact h2)
      | some e =>
        have he := hex e rfl
        have : sameSet g e = true := sameSet_iff.mpr (fun f => (h2 f).trans (he f).symm)
        simp only [this, if_true]
        exact ih (some e) hl' hex
  unfold normLoop
  have h0 := hs ws none (fun _ h => h) (fun _ h => by cases h)
  split
  · rfl
  · rename_i e he; rw [h0] at he; cases he
  · rename_i e he; rw [h0] at he; cases he

/-- With uniform flags all wrappers are kept. -/
theorem normal_all (h : Utils.Handler Wr) (ws : List Wr) (F : List Str)
    (hf : ∀ w ∈ ws, ∀ f, f ∈ w.force.flags ↔ f ∈ F) :
    normal h ws = .ok (if ws.length = 1 then ws else ws.map Wr.force) := by
  unfold normal
  split
  · rfl
  · rename_i hl
    unfold normalize
    rw [if_neg (by rwa [List.length_map])]
    refine normLoop_all (ops h) _ F ?_
    intro w hw
    obtain ⟨v, hv, rfl⟩ := List.mem_map.mp hw
    exact ⟨_, rfl, hf v hv⟩

theorem Ready.force {limit : Nat} {owner : Owner} {w : Wr} (r : Ready limit owner w) : Ready limit owner w.force :=
  ⟨r.plain, r.body, r.stat, r.room⟩

theorem zip_force {α : Type} (f : Wr → Nat → α) (hf : ∀ w k, f w.force k = f w k) : ∀ (ws : List Wr) (k : Nat),
    ((ws.map Wr.force).zipIdx k).map (fun x => f x.1 x.2) = (ws.zipIdx k).map (fun x => f x.1 x.2)
  | [], _ => rfl
  | w :: ws, k => by
    simp only [List.map_cons, List.zipIdx_cons, hf, zip_force f hf ws (k + 1)]

/-- The code for a set of wrappers with the calling convention `S`. -/
def wrCode (owner : Owner) (S : List Str) (w : Wr) (ws : List Wr) : List Ev :=
  (w :: ws).zipIdx.map (fun x => x.1.code owner w.base x.2) ++
  [.dispatch w.base (mainParams owner.pystruct S) ((w :: ws).zipIdx.map (fun x => (x.1.callee w.base x.2, passed S x.2)))]

theorem generate_eq {limit : Nat} {h : Utils.Handler Wr} {owner : Owner} {w : Wr} {ws : List Wr} {S : List Str}
    (hf : ∀ v ∈ w :: ws, ∀ f, f ∈ v.force.flags ↔ f ∈ S) (h1 : ws = [] → w.isCustom = true ∧ ∀ f, f ∈ w.flags ↔ f ∈ S)
    (hr : ∀ v ∈ w :: ws, Ready limit owner v) :
    generate limit h owner (w :: ws) = .ok (wrCode owner S w ws, ⟨w.base, mainParams owner.pystruct S⟩, (w :: ws).map Wr.after) := by
  unfold generate
  rw [normal_all h (w :: ws) S hf]
  cases ws with
  | nil =>
    obtain ⟨hc, hw⟩ := h1 rfl
    simp only [List.length_singleton, if_true, genKept, hc]
    rw [many_eq hw hr]
    rfl
  | cons v vs =>
    have hl : ¬ (w :: v :: vs).length = 1 := by simp
    simp only [hl, if_false, List.map_cons, genKept]
    have hr' : ∀ x ∈ w.force :: v.force :: vs.map Wr.force, Ready limit owner x := by
      intro x hx
      obtain ⟨y, hy, rfl⟩ := List.mem_map.mp (show x ∈ (w :: v :: vs).map Wr.force from hx)
      exact (hr y hy).force
    rw [many_eq (hf w List.mem_cons_self) hr']
    have e1 := zip_force (fun x k => x.code owner w.base k) (fun _ _ => rfl) (w :: v :: vs) 0
    have e2 := zip_force (fun x k => (x.callee w.base k, passed S k)) (fun _ _ => rfl) (w :: v :: vs) 0
    simp only [List.map_cons] at e1 e2
    show Except.ok (_ ++ [Ev.dispatch w.base _ _], _, _) = _
    rw [show w.force.base = w.base from rfl, e1, e2]
    have ha : ∀ x : Wr, x.force.after = x.after := fun x => by
      obtain ⟨i, b, f, m⟩ := x
      cases i <;> rfl
    have hm : (vs.map Wr.force).map Wr.after = vs.map Wr.after := by
      rw [List.map_map]
      exact List.map_congr_left (fun x _ => ha x)
    simp only [List.map_cons, ha, hm]
    rfl


theorem start_code (owner : Owner) (b0 : Str) (k : Nat) (d : Decl) : d.start.code owner b0 k = d.code owner b0 k := by
  cases d with
  | ordinary b ins s => rfl
  | custom b n body fl => cases body <;> rfl

theorem start_callee (b0 : Str) (k : Nat) (d : Decl) : d.start.callee b0 k = d.callee b0 k := by
  cases d <;> rfl

theorem zip_start {α : Type} (f : Wr → Nat → α) (g : Decl → Nat → α) (hf : ∀ d k, f d.start k = g d k) :
    ∀ (ds : List Decl) (k : Nat),
    ((ds.map Decl.start).zipIdx k).map (fun x => f x.1 x.2) = (ds.zipIdx k).map (fun x => g x.1 x.2)
  | [], _ => rfl
  | d :: ds, k => by simp only [List.map_cons, List.zipIdx_cons, hf, zip_start f g hf ds (k + 1)]

theorem start_wrCode (owner : Owner) (S : List Str) (d : Decl) (ds : List Decl) :
    wrCode owner S d.start (ds.map Decl.start) = expectedCode owner S d ds := by
  have hb : d.start.base = d.base := by cases d <;> rfl
  have e1 := zip_start (fun x k => x.code owner d.base k) (fun x k => x.code owner d.base k)
    (fun x k => start_code owner d.base k x) (d :: ds) 0
  have e2 := zip_start (fun x k => (x.callee d.base k, passed S k)) (fun x k => (x.callee d.base k, passed S k))
    (fun x k => by rw [start_callee]) (d :: ds) 0
  simp only [List.map_cons] at e1 e2
  unfold wrCode expectedCode
  rw [hb, e1, e2]

theorem start_flags {S : List Str} {d : Decl} (hS : S ≠ []) (h : ∀ f, f ∈ d.conv ↔ f ∈ S) :
    ∀ f, f ∈ d.start.force.flags ↔ f ∈ S := by
  cases d with
  | ordinary b ins s =>
    have : (Decl.ordinary b ins s).start.force.flags = (Decl.ordinary b ins s).conv := by
      show Wrap.methodFlags (if ([] : List Str) = [] then Wrap.expectedFlags ins (some .keywords) else []) s = _
      rw [if_pos rfl, expectedFlags_forced]
      cases s <;> rfl
    rw [this]; exact h
  | custom b n body fl =>
    have hne : fl ≠ [] := by
      rintro rfl
      obtain ⟨x, hx⟩ := List.exists_mem_of_ne_nil S hS
      have := (h x).2 hx
      cases this
    have : (Decl.custom b n body fl).start.force.flags = fl := by
      show Wrap.methodFlags (if fl = [] then _ else fl) false = fl
      rw [if_neg hne]
      rfl
    rw [this]; exact h

theorem start_flags_custom {d : Decl} (hc : d.isCustom = true) (hne : d.conv ≠ []) :
    d.start.flags = d.conv ∧ d.start.after.flags = d.conv := by
  cases d with
  | ordinary b ins s => cases hc
  | custom b n body fl =>
    have : Wrap.methodFlags (if fl = [] then Wr.bodyFlags ⟨.custom n body, b, false, fl⟩ else fl) false = fl := by
      rw [if_neg (show ¬ fl = [] from hne)]; rfl
    have : Wrap.methodFlags (if fl = [] then Wr.bodyFlags ⟨.custom n body, b, true, fl⟩ else fl) false = fl := by
      rw [if_neg (show ¬ fl = [] from hne)]; rfl
    exact ⟨by assumption, by assumption⟩

theorem start_after_flags {S : List Str} {d : Decl} (hS : S ≠ []) (h : ∀ f, f ∈ d.conv ↔ f ∈ S) :
    ∀ f, f ∈ d.start.after.force.flags ↔ f ∈ S := by
  cases d with
  | ordinary b ins s =>
    have : (Decl.ordinary b ins s).start.after.force.flags = (Decl.ordinary b ins s).conv := by
      show Wrap.methodFlags (if both = [] then _ else both) s = _
      rw [if_neg (by unfold both; exact List.cons_ne_nil _ _)]
      cases s <;> rfl
    rw [this]; exact h
  | custom b n body fl => exact start_flags (d := .custom b n body fl) hS h

theorem tableEntry_eq {h : Utils.Handler Wr} {sig : Sig} {w : Wr} {ws : List Wr} {S : List Str}
    (hf : ∀ v ∈ w :: ws, ∀ f, f ∈ v.force.flags ↔ f ∈ S) (h1 : ws = [] → ∀ f, f ∈ w.flags ↔ f ∈ S) :
    ∃ e, tableEntry h sig (w :: ws) = .ok e ∧ e.name = sig.name ∧ ∀ f, f ∈ e.flags ↔ f ∈ S := by
  cases ws with
  | nil => exact ⟨_, rfl, rfl, h1 rfl⟩
  | cons v vs =>
    refine ⟨⟨sig.name, w.force.flags⟩, ?_, rfl, hf w List.mem_cons_self⟩
    simp only [tableEntry]
    rw [normal_all h _ S hf]
    simp only
    rw [if_pos]
    rw [List.all_eq_true]
    intro x hx
    exact sameSet_iff.mpr (fun f => (hf x hx f).trans (hf w List.mem_cons_self f).symm)

theorem needsMain_single {d : Decl} {ds : List Decl} (h : NeedsMain (d :: ds)) (hd : ds = []) : d.isCustom = true := by
  subst hd
  rcases h with h | ⟨x, hx, hc⟩
  · simp at h
  · rw [List.mem_singleton] at hx; subst hx; exact hc

theorem conv_ne {S : List Str} {d : Decl} (hS : S ≠ []) (h : ∀ f, f ∈ d.conv ↔ f ∈ S) : d.conv ≠ [] := by
  intro hn
  obtain ⟨x, hx⟩ := List.exists_mem_of_ne_nil S hS
  have := (h x).2 hx
  rw [hn] at this
  cases this

theorem class_core {limit : Nat} {h : Utils.Handler Wr} {p : Str} {S : List Str} {d : Decl} {ds : List Decl}
    (hS : S ≠ []) (hu : Uniform S (d :: ds)) (hn : NeedsMain (d :: ds)) :
    ∃ o, classMethod limit h p ((d :: ds).map Decl.start) = .ok o ∧
      o.code = expectedCode (.cls p) S d ds ∧ o.declaration = [] ∧ o.entry.name = d.base ∧
      ∀ f, f ∈ o.entry.flags ↔ f ∈ S := by
  have hb : d.start.base = d.base := by cases d <;> rfl
  have hr : ∀ v ∈ d.start :: ds.map Decl.start, Ready limit (.cls p) v := by
    intro v hv
    obtain ⟨x, _, rfl⟩ := List.mem_map.mp (show v ∈ (d :: ds).map Decl.start from hv)
    refine ⟨?_, (by intro h; cases h), (by intro h; cases h), (by intro h; cases h)⟩
    cases x with
    | ordinary => intro _; rfl
    | custom => intro h; cases h
  have hg := generate_eq (limit := limit) (h := h) (owner := .cls p) (w := d.start) (ws := ds.map Decl.start) (S := S)
    (fun v hv f => by
      obtain ⟨x, hx, rfl⟩ := List.mem_map.mp (show v ∈ (d :: ds).map Decl.start from hv)
      exact start_flags hS (hu x hx) f)
    (fun he => by
      have hd : ds = [] := List.map_eq_nil_iff.mp he
      have hc := needsMain_single hn hd
      have hu0 := hu d List.mem_cons_self
      refine ⟨by cases d with | ordinary => cases hc | custom => rfl, ?_⟩
      rw [(start_flags_custom hc (conv_ne hS hu0)).1]
      exact hu0) hr
  obtain ⟨e, he, hen, hef⟩ := tableEntry_eq (h := h) (sig := ⟨d.start.base, mainParams (Owner.cls p).pystruct S⟩)
    (w := d.start.after) (ws := (ds.map Decl.start).map Wr.after) (S := S)
    (fun v hv f => by
      obtain ⟨y, hy, rfl⟩ := List.mem_map.mp (show v ∈ ((d :: ds).map Decl.start).map Wr.after from hv)
      obtain ⟨x, hx, rfl⟩ := List.mem_map.mp hy
      exact start_after_flags hS (hu x hx) f)
    (fun he => by
      have hd : ds = [] := List.map_eq_nil_iff.mp (List.map_eq_nil_iff.mp he)
      have hc := needsMain_single hn hd
      have hu0 := hu d List.mem_cons_self
      rw [(start_flags_custom hc (conv_ne hS hu0)).2]
      exact hu0)
  refine ⟨⟨expectedCode (.cls p) S d ds, [], e⟩, ?_, rfl, rfl, hen.trans hb, hef⟩
  unfold classMethod
  rw [List.map_cons, hg]
  simp only [List.map_cons] at he ⊢
  rw [he, start_wrCode]

theorem both_iff (f : Str) : f ∈ both ↔ f ∈ [varargs, keywords] := Iff.rfl

theorem reset_after_flags {d : Decl} (hs : d.start.isStatic = false) :
    d.start.after.reset.flags = both ∧ d.start.after.reset.force.flags = both ∧
    d.start.after.reset.after.reset.flags = both ∧ d.start.after.reset.after.reset.force.flags = both := by
  have key : ∀ ins b, Wrap.methodFlags (if ([] : List Str) = [] then Wrap.expectedFlags ins (some .keywords) else b) false = both := by
    intro ins b; rw [if_pos rfl, expectedFlags_forced]; rfl
  cases d with
  | ordinary b ins s =>
    cases (show s = false from hs)
    exact ⟨key ins _, key ins _, key ins _, key ins _⟩
  | custom b n body fl => exact ⟨key [] _, key [] _, key [] _, key [] _⟩

theorem module_core {limit : Nat} {h : Utils.Handler Wr} {S : List Str} {d : Decl} {ds : List Decl}
    (hl : 1 ≤ limit) (hS : S ≠ []) (hu : Uniform S (d :: ds)) (hn : NeedsMain (d :: ds))
    (hs : ∀ x ∈ d :: ds, x.start.isStatic = false)
    (hbody : ∀ x ∈ d :: ds, ∀ b n body fl, x = .custom b n body fl → body.isSome = true) :
    ∃ o, moduleFunction limit h ((d :: ds).map Decl.start) = .ok o ∧
      o.code = expectedCode .module S d ds ∧
      o.declaration = [.declare d.base (mainParams "PyObject".toList [varargs, keywords])] ∧ o.entry.name = d.base ∧
      ∀ f, f ∈ o.entry.flags ↔ f ∈ [varargs, keywords] := by
  have hb : d.start.base = d.base := by cases d <;> rfl
  have hr : ∀ v ∈ d.start :: ds.map Decl.start, Ready limit .module v := by
    intro v hv
    obtain ⟨x, hx, rfl⟩ := List.mem_map.mp (show v ∈ (d :: ds).map Decl.start from hv)
    refine ⟨?_, ?_, fun _ => hs x hx, fun _ => hl⟩
    · cases x with
      | ordinary => intro _; rfl
      | custom => intro h; cases h
    · intro _ n b he
      cases x with
      | ordinary => cases he
      | custom b' n' body fl => cases he; exact hbody _ hx _ _ _ _ rfl
  have hg := generate_eq (limit := limit) (h := h) (owner := .module) (w := d.start) (ws := ds.map Decl.start) (S := S)
    (fun v hv f => by
      obtain ⟨x, hx, rfl⟩ := List.mem_map.mp (show v ∈ (d :: ds).map Decl.start from hv)
      exact start_flags hS (hu x hx) f)
    (fun he => by
      have hd : ds = [] := List.map_eq_nil_iff.mp he
      have hc := needsMain_single hn hd
      have hu0 := hu d List.mem_cons_self
      refine ⟨by cases d with | ordinary => cases hc | custom => rfl, ?_⟩
      rw [(start_flags_custom hc (conv_ne hS hu0)).1]
      exact hu0) hr
  have hr2 : ∀ v ∈ d.start.after.reset :: ((ds.map Decl.start).map Wr.after).map Wr.reset, Ready limit .module v := by
    intro v hv
    obtain ⟨y, hy, rfl⟩ := List.mem_map.mp (show v ∈ (((d :: ds).map Decl.start).map Wr.after).map Wr.reset from hv)
    obtain ⟨z, hz, rfl⟩ := List.mem_map.mp hy
    obtain ⟨x, hx, rfl⟩ := List.mem_map.mp hz
    have hrx := hr x.start (List.mem_map_of_mem (f := Decl.start) hx)
    refine ⟨fun _ => rfl, ?_, ?_, fun _ => hl⟩
    · intro _ n b he
      cases x with
      | ordinary => cases he
      | custom b' n' body fl => exact hrx.body rfl n b he
    · intro _
      have := hrx.stat rfl
      cases x <;> exact this
  have hg2 := generate_eq (limit := limit) (h := h) (owner := .module) (w := d.start.after.reset)
    (ws := ((ds.map Decl.start).map Wr.after).map Wr.reset) (S := both)
    (fun v hv f => by
      obtain ⟨y, hy, rfl⟩ := List.mem_map.mp (show v ∈ (((d :: ds).map Decl.start).map Wr.after).map Wr.reset from hv)
      obtain ⟨z, hz, rfl⟩ := List.mem_map.mp hy
      obtain ⟨x, hx, rfl⟩ := List.mem_map.mp hz
      rw [(reset_after_flags (hs x hx)).2.1])
    (fun he => by
      have hd : ds = [] := List.map_eq_nil_iff.mp (List.map_eq_nil_iff.mp (List.map_eq_nil_iff.mp he))
      have hc := needsMain_single hn hd
      refine ⟨by cases d with | ordinary => cases hc | custom => rfl, ?_⟩
      rw [(reset_after_flags (hs d List.mem_cons_self)).1]
      exact fun _ => Iff.rfl) hr2
  have hbb : d.start.after.reset.base = d.base := by cases d <;> rfl
  obtain ⟨e, he, hen, hef⟩ := tableEntry_eq (h := h) (sig := ⟨d.start.after.reset.base, mainParams Owner.module.pystruct both⟩)
    (w := d.start.after.reset.after.reset)
    (ws := ((((ds.map Decl.start).map Wr.after).map Wr.reset).map Wr.after).map Wr.reset) (S := both)
    (fun v hv f => by
      obtain ⟨a, ha, rfl⟩ := List.mem_map.mp
        (show v ∈ (((((d :: ds).map Decl.start).map Wr.after).map Wr.reset).map Wr.after).map Wr.reset from hv)
      obtain ⟨c, hc, rfl⟩ := List.mem_map.mp ha
      obtain ⟨y, hy, rfl⟩ := List.mem_map.mp hc
      obtain ⟨z, hz, rfl⟩ := List.mem_map.mp hy
      obtain ⟨x, hx, rfl⟩ := List.mem_map.mp hz
      rw [(reset_after_flags (hs x hx)).2.2.2])
    (fun _ f => by rw [(reset_after_flags (hs d List.mem_cons_self)).2.2.1])
  refine ⟨⟨expectedCode .module S d ds, [.declare d.start.after.reset.base (mainParams Owner.module.pystruct both)], e⟩,
    ?_, rfl, by rw [hbb]; rfl, hen.trans hbb, hef⟩
  unfold moduleFunction
  rw [List.map_cons, hg]
  simp only [List.map_cons] at he hg2 ⊢
  rw [hg2]
  simp only [List.map_cons]
  rw [he, start_wrCode]

/-! ## C123 -/

/-- **C123** (methods): whatever calling convention the wrappers under a name have in common, the class contains
the text of each hand-written wrapper (or its declaration, if none was given) exactly as given, in the order of the
declarations, each generated wrapper likewise, and one main wrapper whose parameters are those of the convention and
which calls every wrapper in turn by its name; the method table names the main wrapper, with the flags given. -/
theorem C123_method (limit : Nat) (h : Utils.Handler Wr) (p : Str) (S : List Str) (d : Decl) (ds : List Decl)
    (hS : S ≠ []) (hu : Uniform S (d :: ds)) (hn : NeedsMain (d :: ds)) :
    ∃ o, classMethod limit h p ((d :: ds).map Decl.start) = .ok o ∧
      o.code = expectedCode (.cls p) S d ds ∧ o.declaration = [] ∧ o.entry.name = d.base ∧
      ∀ f, f ∈ o.entry.flags ↔ f ∈ S :=
  class_core hS hu hn

/-- **C123** (functions): the same in a module, provided every hand-written wrapper has a text and takes positional
and keyword arguments (the default flags); the declaration in the main file is that of the main wrapper. -/
theorem C123_function_partial (limit : Nat) (hl : 1 ≤ limit) (h : Utils.Handler Wr) (d : Decl) (ds : List Decl)
    (hu : Uniform [varargs, keywords] (d :: ds)) (hn : NeedsMain (d :: ds))
    (hbody : ∀ x ∈ d :: ds, ∀ b n body fl, x = .custom b n body fl → body.isSome = true) :
    ∃ o, moduleFunction limit h ((d :: ds).map Decl.start) = .ok o ∧
      o.code = expectedCode .module [varargs, keywords] d ds ∧
      o.declaration = [.declare d.base (mainParams "PyObject".toList [varargs, keywords])] ∧ o.entry.name = d.base ∧
      ∀ f, f ∈ o.entry.flags ↔ f ∈ [varargs, keywords] := by
  refine module_core hl (List.cons_ne_nil _ _) hu hn ?_ hbody
  intro x hx
  cases x with
  | custom => rfl
  | ordinary b ins s =>
    cases s with
    | false => rfl
    | true =>
      have : static ∈ [varargs, keywords] := (hu _ hx static).1 (by simp [Decl.conv])
      exact absurd this (by decide)


mutual
theorem fnGenerate_none (name : Str) : ∀ n, fnGenerate n name none = .error .runtimeError
  | 0 => by simp only [fnGenerate]
  | n + 1 => by simp only [fnGenerate]; exact fnDeclare_none name n
theorem fnDeclare_none (name : Str) : ∀ n, fnDeclare n name none = .error .runtimeError
  | 0 => by simp only [fnDeclare]
  | n + 1 => by simp only [fnDeclare, fnGenerate_none name n]
end

theorem genOne_none {limit : Nat} {w : Wr} {n : Str} (h : w.impl = .custom n none) (name : Str) :
    genOne limit .module extraParam name w = .error .runtimeError := by
  unfold genOne
  rw [h]
  simp only
  rw [if_neg (fun h => h rfl), fnGenerate_none]

theorem delegates_none {limit : Nat} (hl : 1 ≤ limit) (b0 : Str) : ∀ (ws : List Wr) (k : Nat),
    (∀ w ∈ ws, w.isCustom = false → w.methFlags = []) → (∀ w ∈ ws, w.isStatic = false) →
    (∃ w ∈ ws, ∃ n, w.impl = .custom n none) → delegates limit .module b0 k ws = .error .runtimeError
  | [], _, _, _, h => by obtain ⟨w, hw, _⟩ := h; cases hw
  | w :: ws, k, h1, h2, h3 => by
    by_cases hw : ∃ n, w.impl = .custom n none
    · obtain ⟨n, hn⟩ := hw
      simp only [delegates]
      rw [genOne_none (w := w.force) (n := n) hn]
    · have hr : Ready limit .module w := by
        refine ⟨h1 w List.mem_cons_self, ?_, fun _ => h2 w List.mem_cons_self, fun _ => hl⟩
        intro _ n b he
        cases b with
        | none => exact absurd ⟨n, he⟩ hw
        | some b => rfl
      have ih := delegates_none hl b0 ws (k + 1) (fun v hv => h1 v (List.mem_cons_of_mem _ hv))
        (fun v hv => h2 v (List.mem_cons_of_mem _ hv)) (by
          obtain ⟨v, hv, n, hn⟩ := h3
          rcases List.mem_cons.mp hv with rfl | hv
          · exact absurd ⟨n, hn⟩ hw
          · exact ⟨v, hv, n, hn⟩)
      simp only [delegates, genOne_eq hr, ih]

/-- **C123** fails for functions whose hand-written wrapper has no text: `generate` wants its declaration,
`generate_declaration` wants it generated, and so on until the stack is full (function.py:275-284, 340-345); the
`RecursionError` ends the generation of the module, however much stack there is and whatever error handler is
installed. -/
theorem C123_function_without_text_counterexample (limit : Nat) (hl : 1 ≤ limit) (h : Utils.Handler Wr) (d : Decl) (ds : List Decl)
    (hu : Uniform [varargs, keywords] (d :: ds)) (hb : ∃ b n fl, .custom b n none fl ∈ d :: ds) :
    moduleFunction limit h ((d :: ds).map Decl.start) = .error .runtimeError := by
  have hne : [varargs, keywords] ≠ [] := List.cons_ne_nil _ _
  have hs : ∀ x ∈ d :: ds, x.start.isStatic = false := by
    intro x hx
    cases x with
    | custom => rfl
    | ordinary b ins s =>
      cases s with
      | false => rfl
      | true =>
        have : static ∈ [varargs, keywords] := (hu _ hx static).1 (by simp [Decl.conv])
        exact absurd this (by decide)
  have hm : ∀ x : Decl, x.start.isCustom = false → x.start.methFlags = [] := by
    intro x hx
    cases x with
    | custom => cases hx
    | ordinary => rfl
  obtain ⟨b, n, fl, hmem⟩ := hb
  have hmany : ∀ w ws, (w :: ws = (d :: ds).map Decl.start ∨ w :: ws = ((d :: ds).map Decl.start).map Wr.force) →
      many limit .module w (w :: ws) = .error .runtimeError := by
    intro w ws hw
    unfold many
    have hall : ∀ v ∈ w :: ws, ∃ x ∈ d :: ds, v.impl = x.start.impl ∧ v.methFlags = x.start.methFlags := by
      intro v hv
      rcases hw with hw | hw
      · rw [hw] at hv
        obtain ⟨x, hx, rfl⟩ := List.mem_map.mp hv
        exact ⟨x, hx, rfl, rfl⟩
      · rw [hw] at hv
        obtain ⟨y, hy, rfl⟩ := List.mem_map.mp hv
        obtain ⟨x, hx, rfl⟩ := List.mem_map.mp hy
        exact ⟨x, hx, rfl, rfl⟩
    rw [delegates_none hl w.base (w :: ws) 0]
    · intro v hv hc
      obtain ⟨x, hx, h1, h2⟩ := hall v hv
      rw [h2]
      refine hm x ?_
      unfold Wr.isCustom at hc ⊢
      rwa [h1] at hc
    · intro v hv
      obtain ⟨x, hx, h1, _⟩ := hall v hv
      have := hs x hx
      unfold Wr.isStatic at this ⊢
      rwa [h1]
    · rcases hw with hw | hw
      · exact ⟨(Decl.custom b n none fl).start, by rw [hw]; exact List.mem_map_of_mem (f := Decl.start) hmem, n, rfl⟩
      · exact ⟨(Decl.custom b n none fl).start.force, by
          rw [hw]; exact List.mem_map_of_mem (f := Wr.force) (List.mem_map_of_mem (f := Decl.start) hmem), n, rfl⟩
  have hgen : generate limit h .module ((d :: ds).map Decl.start) = .error .runtimeError := by
    unfold generate
    rw [normal_all h _ [varargs, keywords] (fun v hv f => by
      obtain ⟨x, hx, rfl⟩ := List.mem_map.mp hv
      exact start_flags hne (hu x hx) f)]
    cases ds with
    | nil =>
      rw [List.mem_singleton] at hmem
      subst hmem
      exact hmany _ [] (Or.inl rfl)
    | cons d2 ds =>
      have hl2 : ¬ ((d :: d2 :: ds).map Decl.start).length = 1 := by simp
      simp only [hl2, if_false]
      exact hmany d.start.force (d2.start.force :: (ds.map Decl.start).map Wr.force) (Or.inr rfl)
  unfold moduleFunction
  rw [hgen]

theorem passed_varargs : passed [varargs] 0 = ["self".toList, "args".toList, "&exceptions[0]".toList] := by decide +kernel
theorem following_varargs : following [varargs] "PyObject *args" "PyObject *kwargs" = ["PyObject *args".toList] := by
  decide +kernel

/-- **C123** fails for functions whose hand-written wrapper takes positional arguments only: writing the declaration
clears the flags the user gave (base.py:809), so the main wrapper, defined with two parameters, is declared with three,
and the method table announces keyword arguments. -/
theorem C123_function_flags_counterexample (limit : Nat) (hl : 1 ≤ limit) (h : Utils.Handler Wr) (b n body : Str) :
    ∃ o, moduleFunction limit h [(Decl.custom b n (some body) [varargs]).start] = .ok o ∧
      o.code = [.text body, .dispatch b ["PyObject *self".toList, "PyObject *args".toList]
        [(n, ["self".toList, "args".toList, "&exceptions[0]".toList])]] ∧
      o.declaration = [.declare b ["PyObject *self".toList, "PyObject *args".toList, "PyObject *kwargs".toList]] ∧
      keywords ∈ o.entry.flags := by
  obtain ⟨o, h1, h2, h3, _, h5⟩ := module_core (limit := limit) (h := h) (S := [varargs])
    (d := .custom b n (some body) [varargs]) (ds := []) hl (List.cons_ne_nil _ _)
    (fun x hx f => by rw [List.mem_singleton] at hx; subst hx; rfl)
    (Or.inr ⟨_, List.mem_singleton_self _, rfl⟩) (fun x hx => by rw [List.mem_singleton] at hx; subst hx; rfl)
    (fun x hx b' n' body' fl he => by rw [List.mem_singleton] at hx; subst hx; cases he; rfl)
  refine ⟨o, h1, ?_, ?_, (h5 keywords).2 (by simp)⟩
  · rw [h2]
    show [Ev.text body, .dispatch b (("PyObject".toList ++ " *self".toList) :: following [varargs] _ _) [(n, passed [varargs] 0)]] = _
    rw [passed_varargs, following_varargs]
    rfl
  · rw [h3, show mainParams "PyObject".toList [varargs, keywords] =
      ["PyObject *self".toList, "PyObject *args".toList, "PyObject *kwargs".toList] by decide +kernel]
    rfl

/-- **C123** (functions), in general: whatever flags the hand-written wrappers of a set have in common, the flags in
the method table are those for positional and keyword arguments. -/
theorem C123_function_flags_lost (limit : Nat) (hl : 1 ≤ limit) (h : Utils.Handler Wr) (S : List Str) (d : Decl) (ds : List Decl)
    (hS : S ≠ []) (hu : Uniform S (d :: ds)) (hn : NeedsMain (d :: ds))
    (hs : ∀ b ins, Decl.ordinary b ins true ∉ d :: ds)
    (hbody : ∀ x ∈ d :: ds, ∀ b n body fl, x = .custom b n body fl → body.isSome = true) :
    ∃ o, moduleFunction limit h ((d :: ds).map Decl.start) = .ok o ∧
      o.code = expectedCode .module S d ds ∧
      o.declaration = [.declare d.base (mainParams "PyObject".toList [varargs, keywords])] ∧
      ∀ f, f ∈ o.entry.flags ↔ f ∈ [varargs, keywords] := by
  obtain ⟨o, h1, h2, h3, _, h5⟩ := module_core (h := h) hl hS hu hn (fun x hx => by
    cases x with
    | custom => rfl
    | ordinary b ins s =>
      cases s with
      | false => rfl
      | true => exact absurd hx (hs b ins)) hbody
  exact ⟨o, h1, h2, h3, h5⟩

/-- **C123** fails for methods whose hand-written wrapper is written elsewhere and takes positional arguments only:
it is declared with four parameters and called with three arguments. -/
theorem C123_method_declaration_counterexample (limit : Nat) (h : Utils.Handler Wr) (p b n : Str) :
    ∃ o, classMethod limit h p [(Decl.custom b n none [varargs]).start] = .ok o ∧
      o.code = [.declare n (handParams p), .dispatch b [p ++ " *self".toList, "PyObject *args".toList]
        [(n, ["self".toList, "args".toList, "&exceptions[0]".toList])]] ∧ (handParams p).length = 4 := by
  obtain ⟨o, h1, h2, _⟩ := class_core (limit := limit) (h := h) (p := p) (S := [varargs])
    (d := .custom b n none [varargs]) (ds := []) (List.cons_ne_nil _ _)
    (fun x hx f => by rw [List.mem_singleton] at hx; subst hx; rfl) (Or.inr ⟨_, List.mem_singleton_self _, rfl⟩)
  refine ⟨o, h1, ?_, rfl⟩
  rw [h2]
  show [Ev.declare n (handParams p), .dispatch b ((p ++ " *self".toList) :: following [varargs] _ _) [(n, passed [varargs] 0)]] = _
  rw [passed_varargs, following_varargs]

/-- **C123** (calling conventions that differ): with an error handler installed, of several wrappers those remain
whose convention is that of the first one, in order. -/
theorem C123_kept (h : Utils.Handler Wr) (hh : h.isSome = true) (d d2 : Decl) (ds : List Decl)
    (hne : ∀ b n body, Decl.custom b n body [] ∉ d :: d2 :: ds) :
    normal h ((d :: d2 :: ds).map Decl.start) =
      .ok (((d :: d2 :: ds).filter (fun x => decide (∀ f ∈ x.conv, f ∈ d.conv) && decide (∀ f ∈ d.conv, f ∈ x.conv))).map
        (fun x => x.start.force)) := by
  unfold normal
  rw [if_neg (by simp)]
  rw [C22_kept_exactly _ _ hh (by simp)]
  have hfl : ∀ x ∈ d :: d2 :: ds, x.start.force.flags = x.conv := by
    intro x hx
    cases x with
    | ordinary b ins s =>
      show Wrap.methodFlags (if ([] : List Str) = [] then Wrap.expectedFlags ins (some .keywords) else []) s = _
      rw [if_pos rfl, expectedFlags_forced]
      cases s <;> rfl
    | custom b n body fl =>
      show Wrap.methodFlags (if fl = [] then _ else fl) false = fl
      rw [if_neg (by rintro rfl; exact hne _ _ _ hx)]
      rfl
  have hus : ∀ w, usable (ops h) w = some w.flags := by
    intro w
    unfold usable ops
    rfl
  have hfat : ∀ ws, firstFatal (ops h) ws = none := by
    intro ws
    unfold firstFatal
    rw [List.findSome?_eq_none_iff]
    intro w _
    unfold fatal Ops.guarded Utils.callWithErrorHandling ops
    cases h <;> rfl
  rw [hfat]
  unfold keep
  have h0 : (((d :: d2 :: ds).map Decl.start).map Wr.force).findSome? (usable (ops h)) = some d.conv := by
    rw [List.map_cons, List.map_cons, List.findSome?_cons, hus, hfl d List.mem_cons_self]
  simp only [h0, hus]
  rw [List.map_map, List.filter_map]
  congr 1
  congr 1
  refine List.filter_congr ?_
  intro x hx
  show sameSet x.start.force.flags d.conv = _
  rw [hfl x hx, Bool.eq_iff_iff, sameSet_iff]
  simp only [Bool.and_eq_true, decide_eq_true_eq]
  exact ⟨fun h => ⟨fun f hf => (h f).1 hf, fun f hf => (h f).2 hf⟩, fun h f => ⟨h.1 f, h.2 f⟩⟩

/-! ### Examples -/

def tFoo : Decl := .ordinary "_wrap_foo_f".toList ["x".toList] false
def tHand : Decl := .custom "_wrap_foo_f".toList "_wrap_f_from_string".toList (some "PyObject *_wrap_f_from_string(…) {…}".toList) [varargs, keywords]
def tElse : Decl := .custom "_wrap_PyBar_Hooray".toList "_wrap_PyBar_Hooray_lenx".toList none [varargs, keywords, static]
def tHooray : Decl := .ordinary "_wrap_PyBar_Hooray".toList [] true

example : Uniform [varargs, keywords] [tFoo, tHand] ∧ NeedsMain [tFoo, tHand] ∧
    (∀ x ∈ [tFoo, tHand], ∀ b n body fl, x = .custom b n body fl → body.isSome = true) := by
  refine ⟨?_, Or.inl (by decide), ?_⟩
  · intro d hd f
    rcases List.mem_cons.mp hd with rfl | hd
    · rfl
    · rw [List.mem_singleton] at hd; subst hd; rfl
  · intro d hd b n body fl he
    rcases List.mem_cons.mp hd with rfl | hd
    · cases he
    · rw [List.mem_singleton] at hd; subst hd; cases he; rfl
example : Uniform [varargs, keywords, static] [tHooray, tElse] ∧ NeedsMain [tHooray, tElse] := by
  refine ⟨?_, Or.inl (by decide)⟩
  intro d hd f
  rcases List.mem_cons.mp hd with rfl | hd
  · rfl
  · rw [List.mem_singleton] at hd; subst hd; rfl
/-- A hand-written wrapper that takes positional arguments only is dropped from a set with an ordinary one. -/
example : ((tFoo :: [.custom [] [] none [varargs]]).filter
    (fun x => decide (∀ f ∈ x.conv, f ∈ tFoo.conv) && decide (∀ f ∈ tFoo.conv, f ∈ x.conv))) = [tFoo] := by decide +kernel

end Verif.Custom
