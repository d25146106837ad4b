import Verif.Handlers.ReturnsProps
import Verif.Wrapper.ForwardFlow

/-!
# C94: class return values in whole wrappers, and where the property fails
-/
namespace Verif.Returns
open Verif Verif.Flow Verif.Params Verif.Wrap Verif.DeclScope
open Verif.Lifetime (World RetOpts upd upd_same)

/-! ## When code is generated -/

/-- **C94, refusals.**  Code for a pointer or shared reference is refused exactly when the annotations
ask for a copy of an object that cannot be copied or constructed. -/
theorem C94_refused (c : RCls) (o : RetOpts) :
    (∃ code, sharedReturn c o = .ok code) ↔
      ¬ (copies c o = true ∧ (c.hasCopy = false ∨ c.constructible = false ∨ c.incomplete = true)) := by
  have hnew : (∃ l, createNew c o = .ok l) ↔
      ¬ (copies c o = true ∧ (c.hasCopy = false ∨ c.constructible = false ∨ c.incomplete = true)) := by
    unfold createNew copies copyValue createInstance
    cases o.own <;> cases c.policy.counted <;> cases o.refExisting <;> cases o.manages <;>
      cases c.hasCopy <;> cases c.constructible <;> cases c.incomplete <;>
      simp [bind, Except.bind, pure, Except.pure]
  have hlook : ∀ v, (∃ code, lookupOrCreate c o v = .ok code) ↔ ∃ l, createNew c o = .ok l := by
    intro v
    unfold lookupOrCreate
    cases createNew c o with
    | error x => simp [bind, Except.bind]
    | ok l => cases c.registry.isSome <;> simp [bind, Except.bind, pure, Except.pure]
  rw [← hnew, ← hlook (match c.helper with | none => c.policy != .none | some _ => false)]
  unfold sharedReturn
  cases c.helper with
  | none => exact Iff.rfl
  | some n =>
    cases lookupOrCreate c o false with
    | error x => simp [bind, Except.bind]
    | ok l => simp [bind, Except.bind, pure, Except.pure]

/-- By value and by copied reference. -/
theorem C94_refused_copy (c : RCls) (again : Bool) :
    (∃ code, copyReturn c again = .ok code) ↔
      c.hasCopy = true ∧ c.constructible = true ∧ c.incomplete = false := by
  unfold copyReturn copyValue createInstance
  cases c.hasCopy <;> cases c.constructible <;> cases c.incomplete <;>
    simp [bind, Except.bind, pure, Except.pure]

/-! ## Which generated code compiles -/

theorem typed_ofList (c : RCls) (s : Src) : ∀ l : List Prim,
    (Code.ofList l).typed c s = l.all (fun p => p.typed c s)
  | [] => rfl
  | p :: l => by simp [Code.ofList, Code.typed, typed_ofList c s l]

theorem createNew_typed (c : RCls) (o : RetOpts) (s : Src) (l : List Prim) (h : createNew c o = .ok l)
    (hs : c.policy.isSmart = (s == .smartPtr)) : ∀ p ∈ l, p.typed c s = true := by
  have ha : ∀ b, ∀ p ∈ allocate c b, p.typed c s = true := by
    intro b p hp
    unfold allocate at hp
    rcases List.mem_append.mp hp with hp | hp
    · rcases List.mem_cons.mp hp with rfl | hp
      · rfl
      · split at hp
        · rw [List.mem_singleton.mp hp]; rfl
        · cases hp
    · split at hp
      · rw [List.mem_singleton.mp hp]; rfl
      · cases hp
  have hset : ∀ k, (Prim.setObj k).typed c s = true := by intro k; simp [Prim.typed, hs]
  have hd : ∀ n, ∀ p ∈ (if n then [Prim.narrow] else []) ++ allocate c n ++
      (if c.subclassing then [Prim.dictNull] else []), p.typed c s = true := by
    intro n p hp
    rcases List.mem_append.mp hp with hp | hp
    · rcases List.mem_append.mp hp with hp | hp
      · split at hp
        · rw [List.mem_singleton.mp hp]; rfl
        · cases hp
      · exact ha _ p hp
    · split at hp
      · rw [List.mem_singleton.mp hp]; rfl
      · cases hp
  have add : ∀ (n : Bool) (x : List Prim), (∀ p ∈ x, p.typed c s = true) →
      ∀ p ∈ (if n then [Prim.narrow] else []) ++ allocate c n ++
        (if c.subclassing then [Prim.dictNull] else []) ++ x, p.typed c s = true := by
    intro n x hx p hp
    rcases List.mem_append.mp hp with hp | hp
    · exact hd n p hp
    · exact hx p hp
  have two : ∀ b, ∀ p ∈ [Prim.setObj .spaced, .flags b], p.typed c s = true := by
    intro b p hp
    rcases List.mem_cons.mp hp with rfl | hp
    · exact hset _
    · rw [List.mem_singleton.mp hp]; rfl
  unfold createNew at h
  dsimp only at h
  split at h
  · cases h; exact add _ _ (two _)
  · split at h
    · split at h
      · cases h; exact add _ _ (two _)
      · split at h
        · obtain ⟨mk, hmk, h⟩ := bind_ok.mp h
          cases h
          have : mk = [.create] := by
            unfold copyValue createInstance at hmk
            split at hmk
            · cases hmk
            · split at hmk
              · cases hmk
              · split at hmk
                · cases hmk
                · cases hmk; rfl
          subst this
          rw [List.append_assoc]
          refine add _ _ ?_
          intro p hp
          simp only [List.cons_append, List.nil_append, List.mem_cons] at hp
          rcases hp with rfl | rfl | hp
          · rfl
          · rfl
          · unfold postCreation at hp
            split at hp
            · rw [List.mem_singleton.mp hp]; rfl
            · cases hp
        · cases h; exact add _ _ (two _)
    · split at h
      · cases h
        refine add _ _ ?_
        intro p hp
        simp only [List.mem_cons, List.not_mem_nil, or_false] at hp
        rcases hp with rfl | rfl | rfl
        · rfl
        · rfl
        · exact hset _
      · cases h; exact add _ _ (two _)

theorem lookupOrCreate_typed (c : RCls) (o : RetOpts) (s : Src) (v : Bool) (code : Code)
    (h : lookupOrCreate c o v = .ok code) (hs : c.policy.isSmart = (s == .smartPtr))
    (hv : c.policy.isSmart = true → c.registry.isSome = true → v = true) : code.typed c s = true := by
  obtain ⟨new, hnew, h⟩ := bind_ok.mp h
  have hn := createNew_typed c o s new hnew hs
  have hall : (Code.ofList (new ++ registerNew c v)).typed c s = true := by
    rw [typed_ofList, List.all_append, Bool.and_eq_true]
    refine ⟨List.all_eq_true.mpr hn, ?_⟩
    unfold registerNew
    cases hr : c.registry.isSome with
    | false => rfl
    | true =>
      simp only [if_true, List.all_cons, List.all_nil, Bool.and_true, Prim.typed]
      cases hsm : c.policy.isSmart with
      | false => rfl
      | true => rw [hv hsm hr]; rfl
  split at h
  · cases h
    simp only [Code.typed, hall, Prim.typed, hs, beq_self_eq_true, Bool.true_and, Bool.and_true]
    rw [typed_ofList]
    split <;> rfl
  · cases h
    exact hall

/-- **C94, the code compiles** (as far as smart pointers and plain pointers are kept apart) for classes
not kept by smart pointers, returned in any way, and for classes kept by smart pointers, returned by
smart pointer, if they have no helper class. -/
theorem C94_compiles_partial (k : Kind) (c : RCls) (code : Code) (h : k.code c = .ok code)
    (hk : if c.policy.isSmart then k = .shared ∧ c.helper = none else k ≠ .shared) :
    code.typed c k.src = true := by
  have hsrc : c.policy.isSmart = (k.src == .smartPtr) := by
    cases hsm : c.policy.isSmart with
    | true => rw [hsm] at hk; rw [hk.1]; rfl
    | false =>
      rw [hsm] at hk
      cases k with
      | shared => exact absurd rfl hk
      | _ => rfl
  have hcopy : ∀ again, c.policy.isSmart = false → copyReturn c again = .ok code → code.typed c k.src = true := by
    intro again hsm hc
    obtain ⟨mk, hmk, hc⟩ := bind_ok.mp hc
    cases hc
    have : mk = [.create] := by
      unfold copyValue createInstance at hmk
      split at hmk
      · cases hmk
      · split at hmk
        · cases hmk
        · split at hmk
          · cases hmk
          · cases hmk; rfl
    subst this
    rw [typed_ofList]
    unfold allocate registerNew postCreation
    refine List.all_eq_true.mpr ?_
    intro p hp
    cases p with
    | setObj k => exfalso; revert hp; split <;> split <;> split <;> split <;> split <;> simp
    | find => exfalso; revert hp; split <;> split <;> split <;> split <;> split <;> simp
    | fromHelper => exfalso; revert hp; split <;> split <;> split <;> split <;> split <;> simp
    | register b => simp [Prim.typed, hsm]
    | _ => rfl
  have hshared : ∀ o, sharedReturn c o = .ok code → code.typed c k.src = true := by
    intro o hc
    unfold sharedReturn at hc
    cases hh : c.helper with
    | none =>
      rw [hh] at hc
      refine lookupOrCreate_typed c o _ _ code hc hsrc (fun hsm _ => ?_)
      cases hp : c.policy with
      | none => rw [hp] at hsm; cases hsm
      | _ => rfl
    | some n =>
      rw [hh] at hc
      obtain ⟨other, ho, hc⟩ := bind_ok.mp hc
      cases hc
      have hsm : c.policy.isSmart = false := by
        cases hsm : c.policy.isSmart with
        | false => rfl
        | true => rw [hsm] at hk; rw [hk.2] at hh; cases hh
      have ht := lookupOrCreate_typed c o _ _ other ho hsrc (fun h _ => by rw [hsm] at h; cases h)
      simp only [Code.typed, ht, Bool.and_true, typed_ofList]
      have hs2 : (k.src == Src.smartPtr) = false := by rw [← hsrc]; exact hsm
      have hs3 : (k.src != Src.smartPtr) = true := by simp [bne, hs2]
      split <;> simp [Prim.typed, hs2, hs3, hsm]
  cases k with
  | value =>
    refine hcopy true ?_ h
    rw [hsrc]; rfl
  | ref o =>
    unfold Kind.code at h
    dsimp only at h
    split at h
    · exact hshared o h
    · refine hcopy false ?_ h
      rw [hsrc]; rfl
  | ptr o => exact hshared o h
  | shared => exact hshared sharedOpts h

/-! ## Whole wrappers

The handlers by value and by reference follow the rules under which C42 and C44 hold for whole wrappers. -/

theorem q0_app {a b : Str} (ha : Q0 a) (hb : Q0 b) : Q0 (a ++ b) := by
  cases a with
  | nil => exact hb
  | cons x xs => exact ha

instance (s : Str) : Decidable (Q0 s) := inferInstanceAs (Decidable (s.head? ≠ some '\n'))

theorem q0_lit {a : Str} (x : Str) (h : Q0 a ∧ a ≠ []) : Q0 (a ++ x) := by
  obtain ⟨h1, h2⟩ := h
  cases a with
  | nil => exact absurd rfl h2
  | cons c cs => exact h1

theorem q0_assoc {a b c : Str} (h : Q0 (a ++ (b ++ c))) : Q0 ((a ++ b) ++ c) := by rwa [List.append_assoc]

/-- Move the first piece of a text to the front. -/
macro "q0_front" : tactic => `(tactic| repeat (with_reducible refine q0_assoc ?_))

/-- None of the texts the user supplies starts with a newline. -/
structure QuietCls (c : RCls) : Prop where
  narrowing : ∀ t, c.narrowing = some t → Q0 t
  registry : ∀ t, c.registry = some t → Q0 t
  post : ∀ t, c.post = some t → Q0 t
  inc : ∀ i d, (c.policy = .functions i d) → Q0 i ∧ Q0 d

theorem q0_getD {o : Option Str} (h : ∀ t, o = some t → Q0 t) : Q0 (o.getD []) := by
  cases o with
  | none => simp [Q0]
  | some t => exact h t rfl

theorem prim_quiet (c : RCls) (hc : QuietCls c) (s : Src) (n : Names) (hpy : Q0 n.py) (hit : Q0 n.iter)
    (hwt : Q0 n.wtype) (hval : Q0 n.value) (p : Prim) : Q0 (p.text c s n) := by
  have hptr : Q0 (n.ptr s) := by
    unfold Names.ptr
    split
    · q0_front; exact q0_lit _ (by decide)
    · exact hval
  cases p with
  | narrow => unfold Prim.text; dsimp only; q0_front; exact q0_app hwt (q0_lit _ (by decide))
  | new b =>
    unfold Prim.text; dsimp only; q0_front
    exact q0_app hpy (by split <;> exact q0_lit _ (by decide))
  | dictNull => exact q0_app hpy (by decide)
  | policyInit =>
    unfold Prim.text; dsimp only
    split
    · q0_front; exact q0_lit _ (by decide)
    · simp [Q0]
  | setObj k =>
    unfold Prim.text; dsimp only
    split
    · split <;> q0_front <;> exact q0_app hpy (q0_lit _ (by decide))
    · q0_front; exact q0_app hpy (q0_lit _ (by decide))
  | flags b => unfold Prim.text; dsimp only; q0_front; exact q0_app hpy (q0_lit _ (by decide))
  | create =>
    unfold Prim.text; dsimp only
    split <;> q0_front <;> exact q0_app hpy (q0_lit _ (by decide))
  | post => exact q0_getD hc.post
  | incref =>
    unfold Prim.text; dsimp only
    split
    · q0_front; exact q0_app hptr (q0_lit _ (by decide))
    · rename_i i d hp
      q0_front
      exact q0_app (hc.inc i d hp).1 (q0_lit _ (by decide))
    · simp [Q0]
  | decref =>
    unfold Prim.text; dsimp only
    split
    · q0_front; exact q0_app hptr (q0_lit _ (by decide))
    · rename_i i d hp
      q0_front
      exact q0_app (hc.inc i d hp).2 (q0_lit _ (by decide))
    · simp [Q0]
  | register b => unfold Prim.text; dsimp only; q0_front; exact q0_app (q0_getD hc.registry) (q0_lit _ (by decide))
  | find => unfold Prim.text; dsimp only; q0_front; exact q0_app hit (q0_lit _ (by decide))
  | load => unfold Prim.text; dsimp only; q0_front; exact q0_lit _ (by decide)
  | fromHelper => unfold Prim.text; dsimp only; q0_front; exact q0_app hpy (q0_lit _ (by decide))
  | pyIncref => unfold Prim.text; dsimp only; q0_front; exact q0_lit _ (by decide)

theorem texts_quiet (c : RCls) (hc : QuietCls c) (s : Src) (n : Names) (hpy : Q0 n.py) (hit : Q0 n.iter)
    (hwt : Q0 n.wtype) (hval : Q0 n.value) : ∀ (code : Code), ∀ t ∈ code.texts c s n, Q0 t
  | .done, _, h => by cases h
  | .prim p k, t, h => by
    rcases List.mem_cons.mp h with rfl | h
    · exact prim_quiet c hc s n hpy hit hwt hval p
    · exact texts_quiet c hc s n hpy hit hwt hval k t h
  | .ite b x y k, t, h => by
    unfold Code.texts at h
    rcases List.mem_append.mp h with h | h
    · rcases List.mem_append.mp h with h | h
      · rcases List.mem_cons.mp h with h | h
        · rw [h]; cases b <;> (unfold Cond.text; dsimp only; q0_front; exact q0_lit _ (by decide))
        · exact texts_quiet c hc s n hpy hit hwt hval x t h
      · split at h
        · cases h
        · rcases List.mem_cons.mp h with h | h
          · rw [h]; decide
          · exact texts_quiet c hc s n hpy hit hwt hval y t h
    · rcases List.mem_cons.mp h with h | h
      · rw [h]; decide
      · exact texts_quiet c hc s n hpy hit hwt hval k t h

theorem nameOk_q0 {v : Str} (h : NameOk v) : Q0 v := by
  have := q0_name h []
  rwa [List.append_nil] at this

theorem declareIf_spec {b : Bool} {t n : Str} {i : Option Str} {w w' : W} {v : Str} (hn : NameOk n)
    (h : declareIf b t n i w = .ok (w', v)) :
    w'.ops = w.ops ∧ w'.parse = w.parse ∧ w'.flags = w.flags ∧ w'.build = w.build ∧
      (∃ l, w'.vars = w.vars ++ l) ∧ Q0 v := by
  unfold declareIf at h
  split at h
  · have hs := (declare_spec h).2
    refine ⟨?_, ?_, ?_, ?_, ⟨[(v, i)], ?_⟩, nameOk_q0 (declare_nameOk h hn)⟩ <;> rw [hs]
  · cases h
    exact ⟨rfl, rfl, rfl, rfl, ⟨[], by simp⟩, by simp [Q0]⟩

/-- What the conversion by value or by reference does to the wrapper under generation. -/
theorem convert_shape {k : Kind} {c : RCls} {value function : Str} {const : Bool} {w w' : W}
    (hk : k = .value ∨ ∃ o, k = .ref o) (h : k.convert c value const function w = .ok w') :
    ∃ code n, k.code c = .ok code ∧ Q0 n.py ∧ Q0 n.iter ∧ Q0 n.wtype ∧ n.value = value ∧
      w'.ops = w.ops ++ (code.texts c k.src n).map (Op.write 2) ∧ w'.parse = w.parse ∧ w'.flags = w.flags ∧
      (∃ l, w'.vars = w.vars ++ l) ∧ w'.build = ⟨"N".toList, [n.py], none⟩ :: w.build := by
  unfold Kind.convert at h
  have hw : k.nullStep value w = w := by rcases hk with rfl | ⟨o, rfl⟩ <;> rfl
  rw [hw] at h
  obtain ⟨⟨w1, py⟩, h1, h⟩ := bind_ok.mp h
  obtain ⟨code, hcode, h⟩ := bind_ok.mp h
  obtain ⟨⟨w2, it⟩, h2, h⟩ := bind_ok.mp h
  obtain ⟨⟨w3, wt⟩, h3, h⟩ := bind_ok.mp h
  dsimp only at h
  have hpy : Q0 py := nameOk_q0 (declare_nameOk h1 ⟨'p', _, rfl, by decide⟩)
  obtain ⟨a1, a2, a3, a4, ⟨l2, a5⟩, a6⟩ := declareIf_spec ⟨'w', _, rfl, by decide⟩ h2
  obtain ⟨b1, b2, b3, b4, ⟨l3, b5⟩, b6⟩ := declareIf_spec ⟨'w', _, rfl, by decide⟩ h3
  have hs := (declare_spec h1).2
  refine ⟨code, ⟨py, it, wt, value, const⟩, hcode, hpy, a6, b6, rfl, ?_⟩
  have hw' : w' = W.addBuild { w3 with ops := w3.ops ++ (code.texts c k.src ⟨py, it, wt, value, const⟩).map (Op.write 2) }
      ⟨"N".toList, [py], none⟩ true := by
    rcases hk with rfl | ⟨o, rfl⟩ <;> (cases h; rfl)
  subst hw'
  refine ⟨?_, ?_, ?_, ⟨[(py, none)] ++ l2 ++ l3, ?_⟩, ?_⟩
  · simp [W.addBuild, b1, a1, hs]
  · simp [W.addBuild, b2, a2, hs]
  · simp [W.addBuild, b3, a3, hs]
  · simp [W.addBuild, b5, a5, hs]
  · simp [W.addBuild, Params.addBuild, b4, a4, hs]

/-- The handlers by value and by reference follow the rules. -/
def classReturn (k : Kind) (hk : k = .value ∨ ∃ o, k = .ref o) (c : RCls) (hc : QuietCls c) (value : Str)
    (hv : Q0 value) (const : Bool) (function : Str) : RetHandler where
  convert := k.convert c value const function
  late := by
    intro w w' h
    obtain ⟨code, n, -, -, -, -, -, h1, -⟩ := convert_shape hk h
    refine ⟨_, h1, ?_⟩
    intro op hop
    obtain ⟨t, -, rfl⟩ := List.mem_map.mp hop
    rfl
  keeps := by
    intro w w' h
    obtain ⟨code, n, -, -, -, -, -, -, h2, h3, h4, -⟩ := convert_shape hk h
    exact ⟨h2, h3, h4⟩
  quiet := by
    intro w w' h
    obtain ⟨code, n, -, h1, h2, h3, h4, h5, -⟩ := convert_shape hk h
    refine ⟨_, h5, ?_⟩
    intro op hop
    obtain ⟨t, ht, rfl⟩ := List.mem_map.mp hop
    exact texts_quiet c hc k.src n h1 h2 h3 (h4 ▸ hv) code t ht

/-! ## Examples -/

/-- A class with a registry, subclassable, with a helper class and type narrowing. -/
def exFoo : RCls :=
  { name := "Foo".toList, fullName := "ns::Foo".toList, pystruct := "PyNsFoo".toList
    pytype := "PyNsFoo_Type".toList, subclassing := true, narrowing := some "PyNsFoo__typeid_map".toList
    helper := some "PyNsFoo__PythonHelper".toList, registry := some "PyNs_wrapper_registry".toList }

def exRef : RetOpts := ⟨false, true, true, false⟩
def exOwn : RetOpts := ⟨true, false, true, false⟩
def exCopy : RetOpts := ⟨false, false, true, false⟩

def exEnv : Env := ⟨5, 9, none, 2, 1, some 77, true⟩

def exM : M :=
  { world := { Lifetime.init with heap := upd Lifetime.init.heap 5 (some ⟨1, 1, none⟩) }
    refs := fun _ => 0, type := fun _ => 0, dict := fun _ => false, py := none, iter := none, wtype := 0 }

example : ∃ code, (Kind.ptr exOwn).code exFoo = .ok code ∧ existing exFoo exEnv exM.world = none ∧
    newType exFoo exOwn exEnv = 2 ∧ ((code.exec exFoo exEnv exM).world.ws 0) = ⟨true, some 5, false, false⟩ ∧
    (code.exec exFoo exEnv exM).world.reg 5 = some 0 :=
  ⟨_, rfl, rfl, rfl, rfl, rfl⟩

/-- The second time the same object is returned, Python gets the same wrapper. -/
example : ∃ code, (Kind.ptr exRef).code exFoo = .ok code ∧
    (code.exec exFoo exEnv (code.exec exFoo exEnv exM)).py = some 0 ∧
    (code.exec exFoo exEnv (code.exec exFoo exEnv exM)).refs 0 = 2 :=
  ⟨_, rfl, rfl, rfl⟩

example : QuietCls exFoo :=
  ⟨fun _ h => by cases h; decide, fun _ h => by cases h; decide,
    fun _ h => by (cases h), fun _ _ h => by (cases h)⟩

/-- A class kept by `std::shared_ptr`. -/
def exSmart : RCls :=
  { name := "Foo".toList, fullName := "Foo".toList, pystruct := "PyFoo".toList, pytype := "PyFoo_Type".toList
    policy := .smart true, registry := some "reg".toList }

example : ∃ code, Kind.shared.code exSmart = .ok code ∧ code.typed exSmart .smartPtr = true ∧
    (code.exec exSmart exEnv exM).world.heap 5 = some ⟨2, 1, none⟩ :=
  ⟨_, rfl, rfl, rfl⟩

example : ((Kind.ref exCopy).convert exFoo "retval".toList true "f".toList {}).toOption.map
    (fun w => w.ops.length) = some 5 := by decide +kernel

/-! ## Where C94 fails -/

/-- A wrapper for `Foo *Bar::f(Foo *a)` with the method's object as custodian of the argument. -/
def exNull : Config :=
  { (funConfig false [] none "retval = ".toList "f".toList [] "return NULL;".toList none .void
      [("self".toList, "a".toList)] []) with
    ret := some ((Kind.ptr exRef).convert exFoo "retval".toList false "f".toList) }

theorem path_of_stmts : ∀ (l : List Stmt) (c : Str) (b : List Act) (rest : List Stmt),
    (∀ s ∈ l, ∀ r, s ≠ .act (.ret r)) →
    Path (l ++ .exit c b :: rest) (l.map (fun
      | .act a => Ev.did a
      | .acq i k s => .took i k s
      | .exit c _ => .passed c) ++ .left c :: b.map .did)
  | [], c, b, rest, _ => .leave
  | s :: l, c, b, rest, h => by
    have ih := path_of_stmts l c b rest (fun s hs => h s (List.mem_cons_of_mem _ hs))
    cases s with
    | act a =>
      cases a with
      | code t => exact .code ih
      | clean i k t => exact .clean ih
      | ret r => exact absurd rfl (h _ List.mem_cons_self r)
    | acq i k t => exact .acq ih
    | exit c' b' => exact .pass ih

/-- What happens when no branch is taken. -/
def straight (l : List Stmt) : List Ev :=
  l.map (fun
    | .act a => .did a
    | .acq i k s => .took i k s
    | .exit c _ => .passed c)

def exNullW : W := (generateBody exNull {}).toOption.getD {}

def exNullBody : List Stmt := ((Gen.fresh (fun _ => "return NULL;".toList)).run exNullW.ops).body 3

/-- **C94: a null pointer becomes `None`, without the values of output parameters and without the
cleanups.**  The branch leaves the wrapper by itself, skipping what was to be released. -/
theorem C94_null_counterexample :
    ∃ w t, generateBody exNull {} = .ok w ∧
      Path (((Gen.fresh (fun _ => "return NULL;".toList)).run w.ops).body 3) t ∧
      t.getLast? = some (.did (.ret "return Py_None;".toList)) ∧
      taken t = [(1, 1, "Py_DECREF(wards);".toList)] ∧ cleaned t = [] := by
  have hw : generateBody exNull {} = .ok exNullW := by
    have : (generateBody exNull {}).toOption.isSome = true := by decide +kernel
    unfold exNullW
    cases h : generateBody exNull {} with
    | error e => rw [h] at this; cases this
    | ok w => rfl
  have hb : exNullBody = exNullBody.take 5 ++ .exit "!(retval)".toList
      [.code "Py_INCREF(Py_None);".toList, .ret "return Py_None;".toList] :: exNullBody.drop 6 := by
    decide +kernel
  have hr : ∀ s ∈ exNullBody.take 5, ∀ r, s ≠ .act (.ret r) := by
    have : (exNullBody.take 5).all (fun | .act (.ret _) => false | _ => true) = true := by decide +kernel
    intro s hs r h
    have := List.all_eq_true.mp this s hs
    rw [h] at this
    cases this
  refine ⟨exNullW, straight (exNullBody.take 5) ++ .left "!(retval)".toList ::
    [Ev.did (.code "Py_INCREF(Py_None);".toList), .did (.ret "return Py_None;".toList)], hw, ?_, ?_, ?_, ?_⟩
  · have := path_of_stmts (exNullBody.take 5) "!(retval)".toList
      [.code "Py_INCREF(Py_None);".toList, .ret "return Py_None;".toList] (exNullBody.drop 6) hr
    rw [← hb] at this
    exact this
  · decide +kernel
  · decide +kernel
  · decide +kernel

/-- **C94: a pointer without ownership annotation is accepted.**  The documentation wants an error ("Either
caller_owns_return or self.reference_existing_object must be given"); the test looks for
`free_after_copy is None`, which it never is, and the wrapper copies an object nobody frees. -/
theorem C94_unannotated_counterexample :
    ptrOpts false {} = .ok ⟨false, false, true, false⟩ ∧ copies exFoo ⟨false, false, true, false⟩ = true :=
  ⟨rfl, rfl⟩

/-- What `CppClassPtrReturnValue.__init__` refuses, and what it makes of the rest: the object is owned if
`caller_owns_return` is given as true, it is referenced if `reference_existing_object` or
`return_internal_reference` is, and the other two options are taken as given. -/
theorem C94_annotations (const : Bool) (x : PtrArgs) :
    ((∃ o, ptrOpts const x = .ok o) ↔
      ¬ (x.internal = true ∧ x.refExisting ≠ none) ∧ ¬ (x.own = some true ∧ x.freeAfterCopy = true)) ∧
    ∀ o, ptrOpts const x = .ok o →
      (o.own = true ↔ x.own = some true) ∧ (o.refExisting = true ↔ x.internal = true ∨ x.refExisting = some true) ∧
      o.manages = x.manages ∧ o.freeAfterCopy = x.freeAfterCopy := by
  unfold ptrOpts
  dsimp only
  by_cases h : x.internal = true ∧ x.refExisting ≠ none
  · rw [if_pos h]
    simp [h]
  · rw [if_neg h]
    have e : (if x.own = none ∧ const = true then some false else x.own) = some true ↔ x.own = some true := by
      split
      · rename_i hc; simp [hc.1]
      · rfl
    by_cases h2 : x.own = some true ∧ x.freeAfterCopy = true
    · rw [if_pos ⟨e.mpr h2.1, h2.2⟩]
      simp [h2]
    · rw [if_neg (fun hc => h2 ⟨e.mp hc.1, hc.2⟩)]
      constructor
      · simp only [not_false_eq_true, h, h2, and_self, iff_true]
        exact ⟨_, rfl⟩
      · intro o ho
        cases ho
        have g : ∀ z : Option Bool, z.getD false = true ↔ z = some true := by
          intro z; cases z <;> simp
        refine ⟨(g _).trans e, (g _).trans ?_, rfl, rfl⟩
        cases x.internal <;> simp

/-- What the conversion of a pointer writes: the test for a null pointer, the statements of the code, and last, if
`free_after_copy` is given, the deletion of the object, as a cleanup: by C42 it is run exactly once, and after
all statements, on every path that comes this far. -/
theorem C94_freed {o : RetOpts} {c : RCls} {value function : Str} {const : Bool} {w w' : W}
    (h : (Kind.ptr o).convert c value const function w = .ok w') :
    ∃ code n, sharedReturn c o = .ok code ∧
      w'.ops = w.ops ++ .bare 2 ("!(".toList ++ value ++ ")".toList) ["Py_INCREF(Py_None);".toList] "return Py_None;".toList ::
        (code.texts c .pointer n).map (Op.write 2) ++
        (if o.freeAfterCopy then [.add 2 "delete retval;".toList,
          .add 2 ("// free_after_copy for ".toList ++ c.name ++ "* ".toList ++ function ++ "s".toList)] else []) := by
  unfold Kind.convert at h
  obtain ⟨⟨w1, py⟩, h1, h⟩ := bind_ok.mp h
  obtain ⟨code, hcode, h⟩ := bind_ok.mp h
  obtain ⟨⟨w2, it⟩, h2, h⟩ := bind_ok.mp h
  obtain ⟨⟨w3, wt⟩, h3, h⟩ := bind_ok.mp h
  dsimp only at h
  obtain ⟨a1, -⟩ := declareIf_spec ⟨'w', _, rfl, by decide⟩ h2
  obtain ⟨b1, -⟩ := declareIf_spec ⟨'w', _, rfl, by decide⟩ h3
  have hs := declare_ops h1
  refine ⟨code, ⟨py, it, wt, value, const⟩, hcode, ?_⟩
  have hops : w3.ops = w.ops ++ [.bare 2 ("!(".toList ++ value ++ ")".toList) ["Py_INCREF(Py_None);".toList]
      "return Py_None;".toList] := by
    rw [b1, a1, hs]
    rfl
  cases h
  unfold Kind.freeStep
  dsimp only
  cases hf : o.freeAfterCopy
  · show w3.ops ++ _ = _
    rw [hops, List.append_assoc, if_neg nofun, List.append_nil]
    rfl
  · show ((w3.ops ++ _) ++ _) ++ _ = _
    rw [hops, if_pos rfl]
    simp only [List.append_assoc]
    rfl

example : ∃ w', (Kind.ptr ⟨false, false, true, true⟩).convert exFoo "retval".toList false "f".toList {} = .ok w' := ⟨_, rfl⟩

/-- **C94: classes kept by smart pointers.**  Returning such an object by value is generated but does not
compile if the class has a wrapper registry: the smart pointer is cast to `void *`. -/
theorem C94_smart_value_counterexample :
    ∃ code, Kind.value.code exSmart = .ok code ∧ code.typed exSmart .object = false :=
  ⟨_, rfl, rfl⟩

/-- **C94: with a helper class** (virtual methods, subclassing allowed) returning the smart pointer does
not compile either: the smart pointer is cast to a pointer to the helper class. -/
theorem C94_smart_helper_counterexample :
    ∃ code, Kind.shared.code { exSmart with helper := some "PyFoo__PythonHelper".toList, registry := none } = .ok code ∧
      code.typed { exSmart with helper := some "PyFoo__PythonHelper".toList, registry := none } .smartPtr = false :=
  ⟨_, rfl, rfl⟩

/-- **C94: a copy is asked for, but Python gets the object itself** if it has a wrapper for it: `free_after_copy`
then deletes the object under that wrapper. -/
theorem C94_copy_counterexample :
    ∃ code m, (Kind.ptr ⟨false, false, true, true⟩).code exFoo = .ok code ∧
      copies exFoo ⟨false, false, true, true⟩ = true ∧
      (code.exec exFoo exEnv m).py = some 0 ∧ (m.world.ws 0).obj = some exEnv.at_ ∧
      (Lifetime.release (code.exec exFoo exEnv m).world exEnv.at_).heap exEnv.at_ = none ∧
      ((Lifetime.release (code.exec exFoo exEnv m).world exEnv.at_).ws 0).obj = some exEnv.at_ :=
  ⟨_, { exM with world := { exM.world with reg := upd exM.world.reg 5 (some 0)
                                           ws := upd exM.world.ws 0 ⟨true, some 5, true, false⟩
                                           next := 1 } }, rfl, rfl, rfl, rfl, rfl, rfl⟩

end Verif.Returns
