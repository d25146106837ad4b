import Verif.Exchange.MixedExact

/-!
# C103: the property
-/
namespace Verif.Exchange
open Verif Verif.Flow Verif.Params Verif.DeclScope Verif.Wrap

variable {T D N : Type}

/-! ## Specification in terms of what can be observed -/

/-- The content of a C++ variable. -/
inductive XV (T D N : Type) where
  | bytes (b : Bytes)
  | val (v : CVal T D N)

def XC.content : XC T D N → XV T D N
  | .s c => .bytes c.bytes
  | .v c => .val c.val

def XV.back : XV T D N → BackX T D N
  | .bytes b => .bytes b
  | .val v => .value v

/-- The Python values of the input arguments, in order. -/
def inputsOnly (L : XLib T D N) : List (XArg T D N) → Option (List (PyV T D))
  | [] => some []
  | a :: as => if a.kind.isIn then (a.input L).bind (fun x => (inputsOnly L as).map (x :: ·)) else inputsOnly L as

/-- The C++ value of a Python object, for an output argument. -/
def XArg.wants (L : XLib T D N) (x : PyV T D) (a : XArg T D N) : Option (XV T D N) :=
  match a.kind, a.cell with
  | .s k, .s _ => (k.take L.lib.codec x).map .bytes
  | .v (.boolPtr _ _), _ | .v (.boolRef _ _), _ => (L.lib.truth x).map (fun b => .val (.bool b))
  | .v (.contRef c _ _), .v ⟨_, .cont k, _, _⟩ => if (L.conv c.conv x k).1 then some (.val (.cont (L.conv c.conv x k).2)) else none
  | .v (.numPtr f _ _), _ => (L.numIn f x).map (fun n => .val (.num n))
  | _, _ => none

/-- The C++ value of a Python object, as return value. -/
def R.wants (L : XLib T D N) (x : PyV T D) : R → Option (XV T D N)
  | .s k => (k.take L.lib.codec x).map .bytes
  | .v .bool => (L.lib.truth x).map (fun b => .val (.bool b))
  | .v (.cont c _) =>
    if (L.conv c.conv x (L.empty c.full)).1 then some (.val (.cont (L.conv c.conv x (L.empty c.full)).2)) else none
  | .v (.obj _) => some (.val (.obj (some x)))
  | .v (.num f) => (L.numIn f x).map (fun n => .val (.num n))

/-- The C++ value of what the override returned: `None` if nothing is expected, otherwise the one value that is. -/
def wanted (L : XLib T D N) (args : List (XArg T D N)) (r : R) (x : PyV T D) : Option (XV T D N) :=
  match args.filter (fun a => a.kind.isOut), decide (r = .s .void) with
  | [], _ => r.wants L x
  | [a], true => a.wants L x
  | _, _ => none

/-- The outcome of the exchange: the override is called with the inputs and its result converted. -/
def exchanged (L : XLib T D N) (args : List (XArg T D N)) (r : R) (f : List (PyV T D) → Option (PyV T D)) : Option (XV T D N) :=
  (inputsOnly L args).bind (fun xs => (f xs).bind (wanted L args r))

/-! ## Lemmas -/

theorem inputs_only (L : XLib T D N) : ∀ args : List (XArg T D N), (∀ a ∈ args, a.kind.passes = a.kind.isIn) →
    inputsX L args = inputsOnly L args
  | [], _ => rfl
  | a :: as, h => by
    simp only [inputsX, inputsOnly, h a List.mem_cons_self, inputs_only L as (fun b hb => h b (List.mem_cons_of_mem _ hb))]

theorem sent_content (a : XArg T D N) : a.sent.content = a.cell.content := by
  obtain ⟨name, kind, cell⟩ := a
  cases kind with
  | s k => cases cell <;> rfl
  | v k =>
    cases cell with
    | s c => rfl
    | v c =>
      simp only [XArg.sent, VK.sent]
      split <;> rfl

theorem result_content (a : XArg T D N) (h : a.kind.isOut = false) : a.result.content = a.cell.content := by
  obtain ⟨name, kind, cell⟩ := a
  cases kind with
  | s k =>
    cases cell with
    | s c =>
      have : k.isOut = false := h
      simp [XArg.result, XC.content, Arg.result, this]
    | v c => rfl
  | v k =>
    cases cell with
    | s c => rfl
    | v c =>
      simp only [XArg.result, VK.sent]
      split <;> rfl

theorem forall_map {α β : Type} {P : α → β → Prop} {g : α → β} : ∀ {l : List α}, (∀ a ∈ l, P a (g a)) → List.Forall₂ P l (l.map g)
  | [], _ => .nil
  | a :: _, h => .cons (h a List.mem_cons_self) (forall_map (fun b hb => h b (List.mem_cons_of_mem _ hb)))

theorem mem_one {args : List (XArg T D N)} {a c : XArg T D N} (h : args.filter (fun a => a.kind.isOut) = [a]) (hc : c ∈ args)
    (ho : c.kind.isOut = true) : c = a := by
  have : c ∈ args.filter (fun a => a.kind.isOut) := List.mem_filter.mpr ⟨hc, by simpa using ho⟩
  rw [h] at this
  exact List.mem_singleton.mp this

/-- Truth values can be determined. -/
theorem isTrueC_of (L : Lib T D) {x : PyV T D} {b : Bool} (h : L.truth x = some b) : L.isTrueC x = b := by
  simp [Lib.isTrueC, h]

theorem took_wants_arg (L : XLib T D N) (a : XArg T D N) (hg : a.Good) (ho : a.kind.isOut = true) (x : PyV T D)
    (ht : (L.lib.truth x).isSome = true) :
    (∀ v, a.wants L x = some v → (a.took L x).ok = true ∧ (a.took L x).val.content = v ∧ (a.took L x).pending = false) ∧
    (a.wants L x = none → (a.took L x).ok = false) := by
  obtain ⟨b, hb⟩ := Option.isSome_iff_exists.mp ht
  obtain ⟨name, kind, cell⟩ := a
  cases kind with
  | s k =>
    cases cell with
    | v c => exact hg.elim
    | s c =>
      have hk : k.isOut = true := ho
      simp only [XArg.wants, XArg.took]
      cases h : k.take L.lib.codec x with
      | none => exact ⟨nofun, fun _ => rfl⟩
      | some s =>
        refine ⟨fun v hv => ?_, nofun⟩
        simp only [Option.map_some, Option.some.injEq] at hv
        subst hv
        exact ⟨rfl, by simp [XC.content, Arg.result, hk], rfl⟩
  | v k =>
    cases cell with
    | s c => exact hg.elim
    | v c =>
      obtain ⟨-, h2, h3, -, -⟩ := hg
      obtain ⟨ty, val, tk, ad⟩ := c
      simp only at h2 h3
      cases k with
      | boolPtr i o =>
        simp only [XArg.wants, XArg.took, VK.took, hb, isTrueC_of L.lib hb, Option.map_some]
        exact ⟨fun v hv => by cases hv; exact ⟨by trivial, by trivial, by trivial⟩, nofun⟩
      | boolRef i o =>
        simp only [XArg.wants, XArg.took, VK.took, hb, isTrueC_of L.lib hb, Option.map_some]
        exact ⟨fun v hv => by cases hv; exact ⟨by trivial, by trivial, by trivial⟩, nofun⟩
      | contRef c i o =>
        cases val with
        | cont k =>
          simp only [XArg.wants, XArg.took, VK.took]
          cases hc : (L.conv c.conv x k).1 with
          | true => exact ⟨fun v hv => by cases hv; exact ⟨by trivial, by trivial, by trivial⟩, nofun⟩
          | false => exact ⟨nofun, fun _ => rfl⟩
        | _ => exact h3.elim
      | numPtr f i o =>
        simp only [XArg.wants, XArg.took, VK.took]
        cases hn : L.numIn f x with
        | none => exact ⟨nofun, fun _ => rfl⟩
        | some n => exact ⟨fun v hv => by cases hv; exact ⟨rfl, rfl, rfl⟩, nofun⟩
      | bool => cases ho
      | cont c => cases ho
      | obj t => cases ho
      | num f => cases ho

/-- A refused value leaves the argument alone. -/
theorem took_refused (L : XLib T D N) (hc : ∀ c x k, (L.conv c x k).1 = false → (L.conv c x k).2 = k) (a : XArg T D N) (hg : a.Good)
    (ho : a.kind.isOut = true) (x : PyV T D) (h : (a.took L x).ok = false) : (a.took L x).val.content = a.cell.content := by
  obtain ⟨name, kind, cell⟩ := a
  cases kind with
  | s k =>
    cases cell with
    | v c => exact hg.elim
    | s c =>
      simp only [XArg.took] at h ⊢
      cases hk : k.take L.lib.codec x with
      | none => rfl
      | some s => rw [hk] at h; cases h
  | v k =>
    cases cell with
    | s c => exact hg.elim
    | v c =>
      obtain ⟨-, h2, h3, -, -⟩ := hg
      obtain ⟨ty, val, tk, ad⟩ := c
      simp only at h2 h3
      cases k with
      | boolPtr i o => cases h
      | boolRef i o => cases h
      | contRef c i o =>
        cases val with
        | cont k =>
          have h : (L.conv c.conv x k).1 = false := h
          show XV.val (CVal.cont (L.conv c.conv x k).2) = XV.val (CVal.cont k)
          rw [hc _ _ _ h]
        | _ => exact h3.elim
      | numPtr f i o =>
        simp only [XArg.took, VK.took] at h ⊢
        cases hn : L.numIn f x with
        | none => rfl
        | some n => rw [hn] at h; cases h
      | bool => cases ho
      | cont c => cases ho
      | obj t => cases ho
      | num f => cases ho

theorem took_wants_ret (L : XLib T D N) (r : R) (hr : r ≠ .s .void) (h1 : r ≠ .s .cstr) (h2 : r ≠ .v (.obj false)) (x : PyV T D)
    (ht : (L.lib.truth x).isSome = true) :
    (∀ v, r.wants L x = some v → (r.took L x).ok = true ∧ (r.took L x).val = v.back ∧ (r.took L x).pending = false) ∧
    (r.wants L x = none → (r.took L x).ok = false) := by
  obtain ⟨b, hb⟩ := Option.isSome_iff_exists.mp ht
  cases r with
  | s k =>
    have hv : k ≠ .void := fun e => hr (e ▸ rfl)
    have hc : k ≠ .cstr := fun e => h1 (e ▸ rfl)
    simp only [R.wants, R.took]
    cases hk : k.take L.lib.codec x with
    | none => exact ⟨nofun, fun _ => rfl⟩
    | some s =>
      simp only [if_neg hv, if_neg hc]
      exact ⟨fun v hv => by cases hv; exact ⟨by trivial, by trivial, by trivial⟩, nofun⟩
  | v k =>
    cases k with
    | bool =>
      simp only [R.wants, R.took, hb, isTrueC_of L.lib hb, Option.map_some]
      exact ⟨fun v hv => by cases hv; exact ⟨by trivial, by trivial, by trivial⟩, nofun⟩
    | cont c t =>
      simp only [R.wants, R.took]
      cases hc : (L.conv c.conv x (L.empty c.full)).1 with
      | true => exact ⟨fun v hv => by cases hv; exact ⟨by trivial, by trivial, by trivial⟩, nofun⟩
      | false => exact ⟨nofun, fun _ => rfl⟩
    | obj o =>
      cases o with
      | false => exact absurd rfl h2
      | true => exact ⟨fun v hv => by cases hv; exact ⟨rfl, rfl, rfl⟩, nofun⟩
    | num f =>
      simp only [R.wants, R.took]
      cases hn : L.numIn f x with
      | none => exact ⟨nofun, fun _ => rfl⟩
      | some n => exact ⟨fun v hv => by cases hv; exact ⟨rfl, rfl, rfl⟩, nofun⟩

/-- A call that came to nothing: the arguments have the contents they had, no exception is set, the C++ implementation
runs where there is one. -/
def CameToNothingX (p : Proxy) (args : List (XArg T D N)) (fin : FinX T D N) : Prop :=
  List.Forall₂ (fun a c => c.content = a.cell.content) args fin.cells ∧ fin.leaked = [] ∧ fin.pending = false ∧
    fin.back = giveUpX p ∧ fin.parent = (!p.isVoid && !p.noParent)

theorem failed_nothing (p : Proxy) (args : List (XArg T D N)) (g : Option (List (PyV T D))) :
    CameToNothingX p args (failedX p g (args.map (·.sent)) false) :=
  ⟨forall_map (fun a _ => sent_content a), rfl, rfl, rfl, rfl⟩

theorem called_spec (L : XLib T D N) (p : Proxy) (args : List (XArg T D N)) (r : R) (ha : ∀ a ∈ args, a.Good)
    (hin : ∀ a ∈ args, a.kind.passes = a.kind.isIn) (h1 : r ≠ .s .cstr) (h2 : r ≠ .v (.obj false))
    (hc : ∀ c x k, (L.conv c x k).1 = false → (L.conv c x k).2 = k)
    (f : List (PyV T D) → Option (PyV T D))
    (ht : ∀ xs x, f xs = some x → (L.lib.truth x).isSome = true)
    (hnone : r = .s .void → args.filter (fun a => a.kind.isOut) = [] → ∀ xs x, f xs = some x → isNone x = true) :
    (calledX L p args r f).given = inputsOnly L args ∧
    (∀ v, exchanged L args r f = some v →
      (calledX L p args r f).back = (if r = .s .void then .nothing else v.back) ∧ (calledX L p args r f).parent = false ∧
      (calledX L p args r f).pending = false ∧
      List.Forall₂ (fun a c => c.content = (if a.kind.isOut then v else a.cell.content)) args (calledX L p args r f).cells) ∧
    (exchanged L args r f = none → CameToNothingX p args (calledX L p args r f)) := by
  unfold exchanged calledX
  rw [inputs_only L args hin]
  cases hi : inputsOnly L args with
  | none => exact ⟨rfl, nofun, fun _ => failed_nothing p args none⟩
  | some xs =>
    simp only [Option.bind_some]
    cases hf : f xs with
    | none => exact ⟨rfl, nofun, fun _ => failed_nothing p args _⟩
    | some x =>
      simp only [Option.bind_some]
      have htx := ht xs x hf
      unfold returnedX wanted
      cases ho : args.filter (fun a => a.kind.isOut) with
      | nil =>
        have hpl : ∀ a ∈ args, a.kind.isOut = false := by
          intro a haa
          simpa using List.filter_eq_nil_iff.mp ho a haa
        by_cases hv : r = .s .void
        · simp only [decide_eq_true hv, hnone hv ho xs x hf, if_true, if_pos hv]
          have hw : r.wants L x = some (.bytes []) := by
            subst hv
            have := hnone rfl ho xs x hf
            cases x <;> simp [isNone] at this
            rfl
          rw [hw]
          refine ⟨(by trivial), fun v _ => ⟨(by trivial), (by trivial), (by trivial), forall_map (fun a haa => ?_)⟩, nofun⟩
          rw [hpl a haa, result_content a (hpl a haa)]; simp
        · simp only [decide_eq_false hv, if_neg hv]
          obtain ⟨k1, k2⟩ := took_wants_ret L r hv h1 h2 x htx
          cases hw : r.wants L x with
          | none =>
            rw [if_neg (by rw [k2 hw]; simp)]
            exact ⟨rfl, nofun, fun _ => failed_nothing p args _⟩
          | some v =>
            obtain ⟨j1, j2, j3⟩ := k1 v hw
            rw [if_pos j1]
            refine ⟨rfl, fun v' hv' => ?_, nofun⟩
            cases hv'
            refine ⟨j2, rfl, j3, forall_map (fun a haa => ?_)⟩
            rw [hpl a haa, result_content a (hpl a haa)]; simp
      | cons a os =>
        cases os with
        | cons b os =>
          cases decide (r = .s .void) <;> exact ⟨rfl, nofun, fun _ => failed_nothing p args _⟩
        | nil =>
          by_cases hv : r = .s .void
          · simp only [decide_eq_true hv, if_pos hv]
            have haf : a ∈ args.filter (fun a => a.kind.isOut) := by rw [ho]; exact List.mem_singleton.mpr rfl
            have hao : a.kind.isOut = true := by simpa using (List.mem_filter.mp haf).2
            have haa := ha a (List.mem_filter.mp haf).1
            obtain ⟨k1, k2⟩ := took_wants_arg L a haa hao x htx
            cases hw : a.wants L x with
            | none =>
              rw [if_neg (by rw [k2 hw]; simp)]
              refine ⟨rfl, nofun, fun _ => ⟨forall_map (fun c hcc => ?_), rfl, rfl, rfl, rfl⟩⟩
              cases hco : c.kind.isOut with
              | false => simpa using sent_content c
              | true =>
                have := mem_one ho hcc hco
                subst this
                simpa using took_refused L hc c haa hao x (k2 hw)
            | some v =>
              obtain ⟨j1, j2, j3⟩ := k1 v hw
              rw [if_pos j1]
              refine ⟨rfl, fun v' hv' => ?_, nofun⟩
              cases hv'
              refine ⟨rfl, rfl, j3, forall_map (fun c hcc => ?_)⟩
              cases hco : c.kind.isOut with
              | false => simpa using result_content c hco
              | true =>
                have := mem_one ho hcc hco
                subst this
                simpa using j2
          · simp only [decide_eq_false hv]
            exact ⟨rfl, nofun, fun _ => failed_nothing p args _⟩

theorem convert_of (r : R) (w w' : W) (h : r.convert w = .ok w') : r.desc.convert w = .ok w' := by
  cases r with
  | s k => exact h
  | v k =>
    cases k with
    | cont c t =>
      simp only [R.convert, VR.convert] at h
      split at h
      · cases h
      · split at h
        · split at h
          · exact h
          · cases h
        · cases h
    | _ => exact h

theorem generate_of {p : Proxy} {retDecl : Option Str} {ps : List Gen1} {r : R} {w0 w : W}
    (h : reverseGenerate (p.config retDecl ps r.convert) w0 = .ok w) :
    reverseGenerate (p.config retDecl ps r.desc.convert) w0 = .ok w := by
  simp only [reverseGenerate, bind_ok, Proxy.config] at h ⊢
  obtain ⟨w1, e1, w2, e2, w3, e3, w4, e4, w5, e5, w6, e6, w7, e7, h⟩ := h
  exact ⟨w1, e1, w2, e2, w3, e3, w4, e4, w5, e5, w6, e6, w7, convert_of r w6 w7 e7, h⟩

/-- What is generated: the body has the text of a plan, and running the plan behaves as specified. -/
theorem generated (p : Proxy) (retDecl : Option Str) (ks : List (Str × K)) (r : R) (hp : FitsX p r) (hr : r.Good)
    (hks : ∀ k ∈ ks, ∀ v, k.2 = .v v → v.Good) (w0 w : W) (h0 : w0.ops = [] ∧ w0.build = [] ∧ w0.parse = [])
    (h : reverseGenerate (p.config retDecl (ks.map (fun k => (k.2.desc k.1).convert)) r.convert) w0 = .ok w) :
    ∃ gil m o hn, ((Gen.fresh (fun _ => p.errorReturn)).run w.ops).body 2 = (plan p gil m o hn).flatMap (St.text p m hn) ∧
    ∀ (L : XLib T D N) (args : List (XArg T D N)), args.map (fun a => (a.name, a.kind)) = ks → (∀ a ∈ args, a.Good) →
    ∀ f : List (PyV T D) → Option (PyV T D),
      execX L p (some f) (plan p gil m o hn) (startX L args r) = some (calledX L p args r f) := by
  have hfr : ∀ d ∈ ks.map (fun k => k.2.desc k.1), d.front = false := by
    intro d hd
    obtain ⟨k, -, rfl⟩ := List.mem_map.mp hd
    cases k.2 with
    | s k => cases k <;> rfl
    | v k => cases k <;> rfl
  have hbk : ∀ d ∈ r.desc :: ks.map (fun k => k.2.desc k.1), ∀ u, d.back = some u → u.1 ≠ [] := by
    intro d hd u hu
    rcases List.mem_cons.mp hd with rfl | hd
    · cases r with
      | s r => cases r <;> simp [R.desc, RK.desc, stdBack, glibBack, sharp] at hu <;> subst hu <;> simp
      | v r =>
        cases r <;> simp [R.desc, VR.desc] at hu <;> subst hu <;> first | exact hr.1 | simp
    · obtain ⟨k, hk, rfl⟩ := List.mem_map.mp hd
      cases hkk : k.2 with
      | s q =>
        rw [hkk] at hu
        cases q <;> simp [K.desc, PK.desc, stdBack, glibBack, sharp] at hu <;> (try rw [← hu.2]) <;> simp
      | v q =>
        have hg := hks k hk q hkk
        rw [hkk] at hu
        cases q <;> simp [K.desc, VK.desc] at hu <;> (try rw [← hu.2]) <;> first | exact hg.1 | simp
  have h := generate_of h
  rw [show ks.map (fun k => (k.2.desc k.1).convert) = (ks.map (fun k => k.2.desc k.1)).map RevD.convert by
    rw [List.map_map]; rfl] at h
  obtain ⟨gil, m, o, hn, a1, a2, -, hbody⟩ := body_plan hfr hbk h h0.1 h0.2.1 h0.2.2
  exact ⟨gil, m, o, hn, hbody, fun L args hk ha f =>
    C103_exact L p args r hp ha hr gil m o hn (by rw [a1, ← hk, List.map_map]; rfl) a2 f⟩

/-- **C103.**  For parameters and return values that are strings, booleans, numbers, containers and Python objects in any
mixture, the body that is generated does the following when the method has a Python override `f`, for all arguments:

* if every input argument can be expressed in Python, `f` is called with exactly these values, in order;
* if it returns an object that has a value of the one type expected, the C++ caller gets this value and every other argument
  is as it was;
* otherwise every argument has the content it had and the C++ implementation runs where there is one;
* no exception stays set.

Provided that: no container is output only; `char *` and borrowed `PyObject *` are not returned; the truth value of what the
override returns can be determined; converters leave the container alone when they refuse an object; an override of a method
that returns nothing returns `None`. -/
theorem C103_exchange_partial (p : Proxy) (retDecl : Option Str) (ks : List (Str × K)) (r : R) (hp : FitsX p r) (hr : r.Good)
    (hks : ∀ k ∈ ks, ∀ v, k.2 = .v v → v.Good) (hin : ∀ k ∈ ks, k.2.passes = k.2.isIn)
    (hcs : r ≠ .s .cstr) (hob : r ≠ .v (.obj false))
    (w0 w : W) (h0 : w0.ops = [] ∧ w0.build = [] ∧ w0.parse = [])
    (h : reverseGenerate (p.config retDecl (ks.map (fun k => (k.2.desc k.1).convert)) r.convert) w0 = .ok w) :
    ∃ gil m o hn, ((Gen.fresh (fun _ => p.errorReturn)).run w.ops).body 2 = (plan p gil m o hn).flatMap (St.text p m hn) ∧
    ∀ (L : XLib T D N), (∀ c x k, (L.conv c x k).1 = false → (L.conv c x k).2 = k) →
    ∀ (args : List (XArg T D N)), args.map (fun a => (a.name, a.kind)) = ks → (∀ a ∈ args, a.Good) →
    ∀ f : List (PyV T D) → Option (PyV T D), (∀ xs x, f xs = some x → (L.lib.truth x).isSome = true) →
      (r = .s .void → (∀ k ∈ ks, k.2.isOut = false) → ∀ xs x, f xs = some x → isNone x = true) →
      ∃ fin, execX L p (some f) (plan p gil m o hn) (startX L args r) = some fin ∧
        fin.given = inputsOnly L args ∧
        (∀ v, exchanged L args r f = some v →
          fin.back = (if r = .s .void then .nothing else v.back) ∧ fin.parent = false ∧ fin.pending = false ∧
          List.Forall₂ (fun a c => c.content = (if a.kind.isOut then v else a.cell.content)) args fin.cells) ∧
        (exchanged L args r f = none → CameToNothingX p args fin) := by
  obtain ⟨gil, m, o, hn, hb, hex⟩ := generated (T := T) (D := D) (N := N) p retDecl ks r hp hr hks w0 w h0 h
  refine ⟨gil, m, o, hn, hb, fun L hc args hk ha f ht hnone => ⟨_, hex L args hk ha f, ?_⟩⟩
  refine called_spec L p args r ha (fun a haa => ?_) hcs hob hc f ht (fun hv ho => hnone hv (fun k hkk => ?_))
  · exact hin (a.name, a.kind) (hk ▸ List.mem_map.mpr ⟨a, haa, rfl⟩)
  · rw [← hk] at hkk
    obtain ⟨a, haa, rfl⟩ := List.mem_map.mp hkk
    simpa using List.filter_eq_nil_iff.mp ho a haa

/-- References: of every `PyObject *` that is handed over exactly one reference is used up whenever the C++ implementation does
not get the argument too, and of no other. -/
theorem C103_references_partial (L : XLib T D N) (p : Proxy) (args : List (XArg T D N)) (r : R) (hp : FitsX p r) (ha : ∀ a ∈ args, a.Good)
    (hr : r.Good) (gil m o : Str) (hn : Named) (h1 : hn.params.map (·.1) = args.map (fun a => a.kind.desc a.name))
    (h2 : hn.ret.1 = r.desc) (f : List (PyV T D) → Option (PyV T D)) :
    ∃ fin, execX L p (some f) (plan p gil m o hn) (startX L args r) = some fin ∧
      List.Forall₂ (fun a c => ∀ v, c = .v v →
        v.taken = (match a.kind, a.cell.content with
          | .v (.obj true), .val (.obj (some _)) => 1
          | _, _ => 0)) args fin.cells := by
  refine ⟨_, C103_exact L p args r hp ha hr gil m o hn h1 h2 f, ?_⟩
  have hs : ∀ a ∈ args, ∀ v, a.sent = .v v → v.taken = (match a.kind, a.cell.content with
          | .v (.obj true), .val (.obj (some _)) => 1
          | _, _ => 0) := by
    intro a haa v hv
    have hg := ha a haa
    obtain ⟨name, kind, cell⟩ := a
    cases kind with
    | s k =>
      cases cell with
      | s c => cases hv
      | v c => exact hg.elim
    | v k =>
      cases cell with
      | s c => cases hv
      | v c =>
        obtain ⟨ty, val, tk, ad⟩ := c
        have h0 : tk = 0 := hg.2.2.2.1
        simp only [XArg.sent] at hv
        cases hv
        simp only [VK.sent, XC.content]
        split
        · rfl
        · rename_i hno
          simp only [h0]
          split
          · rename_i e1 e2
            cases e1
            cases e2
            exact absurd rfl (hno _ rfl)
          · rfl
  have hres : ∀ a ∈ args, ∀ v, a.result = .v v → v.taken = (match a.kind, a.cell.content with
          | .v (.obj true), .val (.obj (some _)) => 1
          | _, _ => 0) := by
    intro a haa v hv
    refine hs a haa v ?_
    obtain ⟨name, kind, cell⟩ := a
    cases kind <;> cases cell <;> first | exact hv | cases hv
  have htk : ∀ x, ∀ a ∈ args, a.kind.isOut = true → ∀ v, (a.took L x).val = .v v → v.taken = (match a.kind, a.cell.content with
          | .v (.obj true), .val (.obj (some _)) => 1
          | _, _ => 0) := by
    intro x a haa ho v hv
    have hg := ha a haa
    obtain ⟨name, kind, cell⟩ := a
    cases kind with
    | s k =>
      cases cell with
      | s c =>
        simp only [XArg.took] at hv
        split at hv <;> cases hv
      | v c => exact hg.elim
    | v k =>
      cases cell with
      | s c => exact hg.elim
      | v c =>
        have h0 : c.taken = 0 := hg.2.2.2.1
        simp only [XArg.took] at hv
        cases hv
        cases k <;> first | exact h0 | cases ho
  unfold calledX
  split
  · exact forall_map hs
  · split
    · exact forall_map hs
    · unfold returnedX
      split
      · split
        · exact forall_map hres
        · exact forall_map hs
      · split
        · exact forall_map hres
        · exact forall_map hs
      · split
        · refine forall_map (fun a haa => ?_)
          cases ho : a.kind.isOut with
          | true => exact htk _ a haa ho
          | false => exact hres a haa
        · refine forall_map (fun a haa => ?_)
          cases ho : a.kind.isOut with
          | true => exact htk _ a haa ho
          | false => exact hs a haa
      · exact forall_map hs

section counterexamples
variable (L : XLib T D N) (p : Proxy) (gil m o : Str) (hn : Named)

/-- A reference is used up before the C++ implementation gets the object: the override of a method that returns a number raises
an exception. -/
theorem C103_references_counterexample (name : Str) (x : PyV T D) (fmt : Str) (hf : IsNum fmt) (hp : FitsX p (.v (.num fmt)))
    (hpar : p.noParent = false) (h1 : hn.params.map (·.1) = [VK.desc name (.obj true)]) (h2 : hn.ret.1 = VR.desc (.num fmt)) :
    ∃ fin, execX L p (some (fun _ => none)) (plan p gil m o hn)
      (startX L [⟨name, .v (.obj true), .v { ty := .obj, val := .obj (some x) }⟩] (.v (.num fmt))) = some fin ∧
      fin.parent = true ∧ fin.cells = [.v { ty := .obj, val := .obj (some x), taken := 1 }] := by
  have hv : p.isVoid = false := by rw [hp.void]; rfl
  refine ⟨_, C103_exact L p [⟨name, .v (.obj true), .v { ty := .obj, val := .obj (some x) }⟩] (.v (.num fmt)) hp
    (by intro a ha; rw [List.mem_singleton.mp ha]; exact ⟨trivial, rfl, trivial, rfl, rfl⟩) hf gil m o hn h1 h2 _, ?_, ?_⟩
  · show (!p.isVoid && !p.noParent) = true
    rw [hv, hpar]; rfl
  · rfl

/-- An object whose truth value cannot be determined counts as true, and the exception stays set. -/
theorem C103_truth_counterexample (hp : FitsX p (.v .bool)) (h1 : hn.params = []) (h2 : hn.ret.1 = VR.desc .bool)
    (x : PyV T D) (hx : L.lib.truth x = none) :
    ∃ fin, execX L p (some (fun _ => some x)) (plan p gil m o hn) (startX L [] (.v .bool)) = some fin ∧
      fin.back = .value (.bool true) ∧ fin.pending = true := by
  refine ⟨_, C103_exact L p [] (.v .bool) hp nofun trivial gil m o hn (by rw [h1]; rfl) h2 _, ?_, ?_⟩
  · show BackX.value (CVal.bool (L.lib.isTrueC x)) = _
    simp [Lib.isTrueC, hx]
  · show (L.lib.truth x).isNone = true
    rw [hx]; rfl

/-- The override of a method that returns nothing returns something: the exception stays set. -/
theorem C103_none_counterexample (hp : FitsX p (.s .void)) (h1 : hn.params = []) (h2 : hn.ret.1 = RK.desc .void)
    (x : PyV T D) (hx : isNone x = false) :
    ∃ fin, execX L p (some (fun _ => some x)) (plan p gil m o hn) (startX L [] (.s .void)) = some fin ∧ fin.pending = true := by
  refine ⟨_, C103_exact L p [] (.s .void) hp nofun trivial gil m o hn (by rw [h1]; rfl) h2 _, ?_⟩
  simp [calledX, inputsX, returnedX, hx, failedX]

/-- A container that is output only is passed all the same: the override gets an argument too many. -/
theorem C103_output_counterexample (name : Str) (c : Cont) (k : Nat) (hp : FitsX p (.s .void))
    (h1 : hn.params.map (·.1) = [VK.desc name (.contRef c false true)]) (h2 : hn.ret.1 = RK.desc .void)
    (f : List (PyV T D) → Option (PyV T D)) :
    ∃ fin, execX L p (some f) (plan p gil m o hn)
      (startX L [⟨name, .v (.contRef c false true), .v { ty := .cont c, val := .cont k }⟩] (.s .void)) = some fin ∧
      fin.given = some [.wrapper (L.empty c.full)] := by
  refine ⟨_, C103_exact L p [⟨name, .v (.contRef c false true), .v { ty := .cont c, val := .cont k }⟩] (.s .void) hp
    (by intro a ha; rw [List.mem_singleton.mp ha]; exact ⟨trivial, rfl, trivial, rfl, rfl⟩) trivial gil m o hn h1 h2 _, ?_⟩
  have hi : inputsX L [⟨name, .v (.contRef c false true), .v { ty := .cont c, val := .cont k }⟩] =
    some [(.wrapper (L.empty c.full) : PyV T D)] := rfl
  unfold calledX
  rw [hi]
  dsimp only
  split
  · rfl
  · simp only [returnedX, K.isOut, VK.isOut, List.filter_cons, List.filter_nil, if_true, decide_true]
    split <;> rfl

/-- A refused object can change the container: the converter empties it first. -/
theorem C103_refused_counterexample (name : Str) (c : Cont) (k : Nat) (hp : FitsX p (.s .void))
    (h1 : hn.params.map (·.1) = [VK.desc name (.contRef c true true)]) (h2 : hn.ret.1 = RK.desc .void)
    (x : PyV T D) (hx : (L.conv c.conv x k).1 = false) :
    ∃ fin, execX L p (some (fun _ => some x)) (plan p gil m o hn)
      (startX L [⟨name, .v (.contRef c true true), .v { ty := .cont c, val := .cont k }⟩] (.s .void)) = some fin ∧
      fin.cells = [.v { ty := .cont c, val := .cont (L.conv c.conv x k).2 }] := by
  refine ⟨_, C103_exact L p [⟨name, .v (.contRef c true true), .v { ty := .cont c, val := .cont k }⟩] (.s .void) hp
    (by intro a ha; rw [List.mem_singleton.mp ha]; exact ⟨trivial, rfl, trivial, rfl, rfl⟩) trivial gil m o hn h1 h2 _, ?_⟩
  have hi : inputsX L [⟨name, .v (.contRef c true true), .v { ty := .cont c, val := .cont k }⟩] =
    some [(.wrapper k : PyV T D)] := rfl
  unfold calledX
  rw [hi]
  simp only [returnedX, K.isOut, VK.isOut, List.filter_cons, List.filter_nil, if_true, decide_true, XArg.took, VK.took, hx]
  simp [failedX]

/-- A `PyObject *` that the caller is not to own is returned after the object was given up. -/
theorem C103_borrowed_counterexample (hp : FitsX p (.v (.obj false))) (h1 : hn.params = []) (h2 : hn.ret.1 = VR.desc (.obj false))
    (x : PyV T D) :
    ∃ fin, execX L p (some (fun _ => some x)) (plan p gil m o hn) (startX L [] (.v (.obj false))) = some fin ∧
      fin.back = .dangling := by
  refine ⟨_, C103_exact L p [] (.v (.obj false)) hp nofun trivial gil m o hn (by rw [h1]; rfl) h2 _, rfl⟩

end counterexamples

/-- Nothing is accepted when two values are to come back, even of different types. -/
theorem C103_several_counterexample (L : XLib T D N) (args : List (XArg T D N)) (r : R)
    (h : 2 ≤ (args.filter (fun a => a.kind.isOut)).length + (if r = .s .void then 0 else 1)) (x : PyV T D) :
    wanted L args r x = none := by
  unfold wanted
  cases ho : args.filter (fun a => a.kind.isOut) with
  | nil => rw [ho] at h; simp at h; split at h <;> omega
  | cons a l =>
    cases l with
    | cons b l => cases decide (r = .s .void) <;> rfl
    | nil =>
      rw [ho] at h
      by_cases hv : r = .s .void
      · rw [if_pos hv] at h; simp at h
      · rw [decide_eq_false hv]

/-! ## Non-vacuity -/

def intVec : Cont :=
  { name := "V".toList, pystruct := "PyV".toList, pytype := "PyV_Type".toList, full := "std::vector< int >".toList
    conv := "_wrap_convert_py2c__V".toList }

def proxy2 : Proxy :=
  { cls := "A".toList, pystruct := "PyA".toList, method := "g".toList, params := ["b".toList, "v".toList, "s".toList], isVoid := false
    noParent := false, errorReturn := "return 0;".toList }

def mixedKs : List (Str × K) :=
  [("b".toList, .v .bool), ("v".toList, .v (.contRef intVec true false)), ("s".toList, .s .std), ("o".toList, .v (.obj true))]

/-- `double g(bool b, const std::vector<int> &v, std::string s, PyObject *o)` -/
example : (reverseGenerate (proxy2.config (some "double".toList) (mixedKs.map (fun k => (k.2.desc k.1).convert)) (R.convert (.v (.num "d".toList)))) {}).isOk =
    true := by decide +kernel

/-- A method returning a container: `retval` is not declared in advance (container.py:823). -/
example : (reverseGenerate (proxy2.config none [] (R.convert (.v (.cont intVec "std::vector< int >".toList)))) {}).isOk = true := by
  decide +kernel

/-- A container returned by reference is refused. -/
example : (reverseGenerate (proxy2.config none [] (R.convert (.v (.cont intVec "std::vector< int > &".toList)))) {}).isOk = false := by
  decide +kernel

example : FitsX proxy2 (.v (.num "d".toList)) := ⟨rfl, nofun, by decide, fun _ => by decide⟩
example : IsNum "d".toList := by unfold IsNum; decide
example : ∀ k ∈ mixedKs, k.2.passes = k.2.isIn := by decide

/-- A library whose converter accepts wrappers, and empties the container otherwise. -/
def smallLib : XLib (List Char) Nat Nat where
  lib := { codec := ascii, strTruth := fun s => !s.isEmpty, floatTruth := fun x => x != 0, narrow := id
           asUnsigned := fun _ => 0, converter := fun _ _ => none, init := fun _ => .string [] }
  conv := fun _ x _ => match x with
    | .wrapper k => (true, k)
    | _ => (false, 0)
  empty := fun _ => 0
  numOut := fun _ n => .float n
  numIn := fun _ x => match x with
    | .float n => some n
    | _ => none

def mixedArgs : List (XArg (List Char) Nat Nat) :=
  [⟨"b".toList, .v .bool, .v { ty := .bool, val := .bool true }⟩,
   ⟨"v".toList, .v (.contRef intVec true false), .v { ty := .cont intVec, val := .cont 7 }⟩,
   ⟨"s".toList, .s .std, .s { ty := .std, bytes := [104, 105] }⟩,
   ⟨"o".toList, .v (.obj true), .v { ty := .obj, val := .obj (some (.int 3)) }⟩]

example : mixedArgs.map (fun a => (a.name, a.kind)) = mixedKs := by decide

example : ∀ a ∈ mixedArgs, a.Good := by
  intro a ha
  simp only [mixedArgs, List.mem_cons, List.not_mem_nil, or_false] at ha
  rcases ha with rfl | rfl | rfl | rfl
  · exact ⟨trivial, rfl, trivial, rfl, rfl⟩
  · exact ⟨trivial, rfl, trivial, rfl, rfl⟩
  · exact ⟨rfl, rfl, rfl⟩
  · exact ⟨trivial, rfl, trivial, rfl, rfl⟩

/-- An override that returns a float: it saw the four arguments. -/
example : inputsOnly smallLib mixedArgs = some [.bool true, .wrapper 7, .str "hi".toList, .int 3] := by
  rfl
example : exchanged smallLib mixedArgs (.v (.num "d".toList)) (fun _ => some (.float 5)) = some (.val (.num 5)) := rfl
example : exchanged smallLib mixedArgs (.v (.num "d".toList)) (fun _ => some (.bool true)) = none := rfl
example : (smallLib.conv intVec.conv .none 7) = (false, 0) := rfl

end Verif.Exchange
