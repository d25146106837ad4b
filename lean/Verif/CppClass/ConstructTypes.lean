import Verif.CppClass.ConstructProps

/-!
# C97: types, dispatch among constructors, helper classes and inherited constructors
-/
namespace Verif.Construct
open Verif Verif.Utils Verif.Overload

/-! ## Calling a type -/

/-- What a constructor makes: as in `product`, or what the function used as constructor returns. -/
def made (K : Cls) (c : Ctor) (sub : Bool) : Inst :=
  match c.function with
  | some f => ⟨f, c.args, false⟩
  | none => product K c sub

/-- The Python object after construction. -/
def after (K : Cls) (c : Ctor) (sub : Bool) (s : Self) : Self :=
  { obj := some (made K c sub), owns := true,
    lost := if ptrOf K.own.policy = .raw then s.lost ++ s.obj.toList else s.lost }

/-- **C97 (partial: some declared constructor can be generated, or there is none).**  Calling a wrapped class, or
a Python subclass of it, either raises an exception and leaves the Python object as it was, or makes the Python
object own one new object created by a declared constructor of this very class that accepts the arguments; private
constructors are never used, protected ones only for Python subclasses and through the helper class. -/
theorem C97_type_partial (handler : Handler Ctor) (base pystruct : Str) (K : Cls) (cs : List Ctor) (slot : Slot)
    (h : tpInit handler base pystruct K cs = .ok slot) (hs : slot ≠ .null) (xs : List Wrapped)
    (accepts : Ctor → Bool) (throws sub : Bool) (s : Self) :
    callType accepts throws s (⟨K, slot⟩ :: xs) sub = .exception s ∨
    ∃ c ∈ cs, accepts c = true ∧ c.vis ≠ .priv ∧ (c.vis = .prot → sub = true ∧ K.helper ≠ none) ∧
      callType accepts throws s (⟨K, slot⟩ :: xs) sub = .object (after K c sub s) := by
  rcases C97_slot handler base pystruct K cs slot h with ⟨rfl, -⟩ | ⟨-, -, ⟨l, rfl, hl⟩ | ⟨rfl, -⟩⟩
  · exact .inl rfl
  · cases hfd : l.find? accepts with
    | none =>
      refine .inl ?_
      simp only [callType, Wrapped.call, hfd]
    | some c =>
      have hcl := List.mem_of_find?_eq_some hfd
      have hacc : accepts c = true := by simpa using List.find?_some hfd
      obtain ⟨hcs, b, hb⟩ := (hl c).1 hcl
      obtain ⟨-, -, hv, hp⟩ := generate_ok hb
      cases hfun : c.function with
      | some f =>
        have hrun := C97_function K c b f hfun hb (ptrOf K.own.policy) sub throws s
        cases throws with
        | true =>
          refine .inl ?_
          simp only [callType, Wrapped.call, hfd, hb, hrun]
          rfl
        | false =>
          refine .inr ⟨c, hcs, hacc, hv, fun hpr => ?_, ?_⟩
          · -- with a helper class, functions are not accepted as constructors
            exfalso
            obtain ⟨-, hcb, -, -⟩ := generate_ok hb
            unfold callBody at hcb
            rw [hfun] at hcb
            dsimp only at hcb
            split at hcb
            · cases hcb
            · next hn => exact hp hpr (by simpa using hn)
          · simp only [callType, Wrapped.call, hfd, hb, hrun]
            simp [after, made, hfun]
      | none =>
        have hrun := C97_constructor K c b hfun hb (ptrOf K.own.policy) sub throws s
        by_cases href : K.helper.isSome ∧ sub = false ∧ Refused K c
        · refine .inl ?_
          rw [if_pos href] at hrun
          simp only [callType, Wrapped.call, hfd, hb, hrun]
        · rw [if_neg href] at hrun
          cases throws with
          | true =>
            refine .inl ?_
            simp only [callType, Wrapped.call, hfd, hb, hrun]
            rfl
          | false =>
            refine .inr ⟨c, hcs, hacc, hv, fun hpr => ⟨?_, hp hpr⟩, ?_⟩
            · cases sub with
              | true => rfl
              | false =>
                exact absurd ⟨Option.isSome_iff_ne_none.2 (hp hpr), rfl, .inl (by simp [hpr])⟩ href
            · simp only [callType, Wrapped.call, hfd, hb, hrun]
              simp [after, made, hfun]
  · exact absurd rfl hs

/-- **C97, the constructor used** is the first one, in the order of declaration, that could be generated and accepts
the arguments, provided there is one and its object is created; nothing else can be the reason of an exception. -/
theorem C97_first (handler : Handler Ctor) (base pystruct : Str) (K : Cls) (cs l : List Ctor)
    (h : tpInit handler base pystruct K cs = .ok (.ctors l)) (xs : List Wrapped)
    (accepts : Ctor → Bool) (sub : Bool) (s : Self) (c : Ctor) (hc : l.find? accepts = some c)
    (hr : K.helper.isSome → sub = false → ¬ Refused K c) :
    callType accepts false s (⟨K, .ctors l⟩ :: xs) sub = .object (after K c sub s) := by
  rcases C97_slot handler base pystruct K cs _ h with ⟨h1, -⟩ | ⟨-, -, ⟨l', h1, hl⟩ | ⟨h1, -⟩⟩
  · cases h1
  · cases h1
    obtain ⟨-, b, hb⟩ := (hl c).1 (List.mem_of_find?_eq_some hc)
    cases hfun : c.function with
    | some f =>
      have hrun := C97_function K c b f hfun hb (ptrOf K.own.policy) sub false s
      simp only [callType, Wrapped.call, hc, hb, hrun]
      simp [after, made, hfun]
    | none =>
      have hrun := C97_constructor K c b hfun hb (ptrOf K.own.policy) sub false s
      rw [if_neg (fun hx => hr hx.1 hx.2.1 hx.2.2)] at hrun
      simp only [callType, Wrapped.call, hc, hb, hrun]
      simp [after, made, hfun]
  · cases h1

/-- **C97, abstract classes.**  Calling a class with pure virtual methods raises an exception, whatever its
constructors and whether it has a helper class or not. -/
theorem C97_abstract_partial (handler : Handler Ctor) (base pystruct : Str) (K : Cls) (ha : K.abstract = true)
    (cs : List Ctor) (slot : Slot) (h : tpInit handler base pystruct K.prepare cs = .ok slot) (hs : slot ≠ .null)
    (xs : List Wrapped) (accepts : Ctor → Bool) (throws : Bool) (s : Self) :
    callType accepts throws s (⟨K.prepare, slot⟩ :: xs) false = .exception s := by
  rcases C97_slot handler base pystruct K.prepare cs slot h with ⟨rfl, -⟩ | ⟨hcan, -, ⟨l, rfl, hl⟩ | ⟨rfl, -⟩⟩
  · rfl
  · have habs : K.prepare.abstract = true := by
      unfold Cls.prepare
      dsimp only
      split <;> split <;> exact ha
    have hhelp : K.prepare.helper.isSome = true := by
      rcases hcan with h0 | ⟨x, hx, -⟩
      · by_contra hn
        unfold Cls.prepare at h0 hn
        dsimp only at h0 hn
        by_cases h1 : (K.helper.any fun x => x.cannot) = true
        · rw [if_pos h1] at h0 hn
          rw [if_pos (by simp [ha])] at h0
          exact absurd h0 (by simp)
        · rw [if_neg h1] at h0 hn
          by_cases h2 : (K.abstract && K.helper.isNone) = true
          · rw [if_pos h2] at h0
            exact absurd h0 (by simp)
          · rw [if_neg h2] at hn
            rw [ha] at h2
            cases hk : K.helper with
            | none => simp [hk] at h2
            | some x => simp [hk] at hn
      · simp [hx]
    cases hfd : l.find? accepts with
    | none => simp only [callType, Wrapped.call, hfd]
    | some c =>
      obtain ⟨-, b, hb⟩ := (hl c).1 (List.mem_of_find?_eq_some hfd)
      cases hfun : c.function with
      | some f =>
        exfalso
        obtain ⟨-, hcb, -, -⟩ := generate_ok hb
        unfold callBody at hcb
        rw [hfun] at hcb
        dsimp only at hcb
        rw [if_pos hhelp] at hcb
        cases hcb
      | none =>
        have hrun := C97_constructor K.prepare c b hfun hb (ptrOf K.prepare.own.policy) false throws s
        rw [if_pos ⟨hhelp, rfl, .inr (.inr habs)⟩] at hrun
        simp only [callType, Wrapped.call, hfd, hb, hrun]
  · exact absurd rfl hs

/-! ## Dispatch among several constructors -/

theorem zip_written {o : Ops Ctor} {kept : List Ctor} : ∀ (k : Nat),
    (((kept.zipIdx k).filter fun p => match o.gen p.1 with
      | .ok _ => true
      | .error _ => false).map fun p => p.1) = kept.filter (fun c => match o.gen c with
    | .ok _ => true
    | .error _ => false) := by
  induction kept with
  | nil => intro k; rfl
  | cons c cs ih =>
    intro k
    rw [List.zipIdx_cons, List.filter_cons, List.filter_cons]
    dsimp only
    cases hg : o.gen c with
    | ok u => simp [ih]
    | error e => simp [ih]

/-- `find?` on an image. -/
theorem find?_split {α : Type} {p : α → Bool} : ∀ {l : List α} {a : α}, l.find? p = some a →
    ∃ l1 l2, l = l1 ++ a :: l2 ∧ (∀ x ∈ l1, p x = false) ∧ p a = true
  | x :: xs, a, h => by
    by_cases hx : p x = true
    · rw [List.find?_cons_of_pos hx] at h
      cases h
      exact ⟨[], xs, rfl, by simp, hx⟩
    · rw [List.find?_cons_of_neg hx] at h
      obtain ⟨l1, l2, rfl, h1, h2⟩ := find?_split h
      refine ⟨x :: l1, l2, rfl, ?_, h2⟩
      intro y hy
      rcases List.mem_cons.1 hy with rfl | hy
      · simpa using hx
      · exact h1 y hy

/-- **C97, several constructors.**  The function generated for several constructors returns what the first of the
constructors generated that accepts the arguments returns, and raises an exception if none does: it does what
`callType` assumes.  `oc` says what the delegates do with the arguments. -/
theorem C97_dispatch {R E : Type} (handler : Handler Ctor) (base pystruct : Str) (K : Cls) (cs : List Ctor)
    (args ds : List Str) (body : List Overload.Stmt)
    (h : Overload.generate (ctorOps handler K) base pystruct cs = .ok (.dispatcher args ds body))
    (accepts : Ctor → Bool) (result : Ctor → R) (error : Ctor → E) (oc : Str → Reply R E)
    (hoc : ∀ kept, normalize (ctorOps handler K) cs = .ok kept → ∀ i c, kept[i]? = some c →
      oc (base ++ "__".toList ++ natStr i) = if accepts c then .accept (result c) else .reject (error c)) :
    (∀ c, (written (ctorOps handler K) cs).find? accepts = some c →
      ∃ t, Overload.run oc body = some (.returned (result c), t)) ∧
    ((written (ctorOps handler K) cs).find? accepts = none →
      ∃ es n t, Overload.run oc body = some (.typeError es n, t)) := by
  obtain ⟨kept, hk, -, rfl, hd, -⟩ := C23_generate _ _ _ _ _ _ _ h
  have hds : ds = ((kept.zipIdx 0).filter fun p => match (ctorOps handler K).gen p.1 with
      | .ok _ => true
      | .error _ => false).map fun p => base ++ "__".toList ++ natStr p.2 := C23_delegates _ _ _ _ _ hd
  have hw : written (ctorOps handler K) cs = ((kept.zipIdx 0).filter fun p => match (ctorOps handler K).gen p.1 with
      | .ok _ => true
      | .error _ => false).map fun p => p.1 := by
    rw [zip_written 0]
    unfold written
    rw [hk]
    rfl
  revert hds hw
  generalize hZ : ((kept.zipIdx 0).filter fun p => match (ctorOps handler K).gen p.1 with
      | .ok _ => true
      | .error _ => false) = Z
  intro hds hw
  have hZoc : ∀ p ∈ Z, oc (base ++ "__".toList ++ natStr p.2) =
      if accepts p.1 then .accept (result p.1) else .reject (error p.1) := by
    intro p hp
    rw [← hZ] at hp
    have hm := (List.mem_filter.1 hp).1
    refine hoc kept hk p.2 p.1 ?_
    rw [List.mem_zipIdx_iff_getElem?] at hm
    simpa using hm
  rw [hw, List.find?_map]
  constructor
  · intro c hc
    cases hf : Z.find? (accepts ∘ fun p => p.1) with
    | none => rw [hf] at hc; cases hc
    | some q =>
      rw [hf] at hc
      cases hc
      obtain ⟨l1, l2, hl, h1, h2⟩ := find?_split hf
      have e : ds = (l1.map (fun p => (base ++ "__".toList ++ natStr p.2, error p.1))).map Prod.fst ++
          (base ++ "__".toList ++ natStr q.2) :: l2.map (fun p => base ++ "__".toList ++ natStr p.2) := by
        rw [hds, hl, List.map_append, List.map_cons, List.map_map]
        rfl
      rw [e]
      refine ⟨_, C23_first_accepting_wins oc _ _ _ (result q.1) ?_ ?_⟩
      · intro p hp
        obtain ⟨r, hr, rfl⟩ := List.mem_map.1 hp
        have hacc : accepts r.1 = false := h1 r hr
        have := hZoc r (by rw [hl]; exact List.mem_append_left _ hr)
        rw [hacc] at this
        simpa using this
      · have hacc : accepts q.1 = true := h2
        have := hZoc q (by rw [hl]; simp)
        rw [hacc] at this
        simpa using this
  · intro hn
    have hf : Z.find? (accepts ∘ fun p => p.1) = none := by simpa using hn
    have e : ds = (Z.map (fun p => (base ++ "__".toList ++ natStr p.2, error p.1))).map Prod.fst := by
      rw [hds, List.map_map]
      rfl
    rw [e]
    refine ⟨_, _, _, C23_all_reject oc _ ?_⟩
    intro p hp
    obtain ⟨r, hr, rfl⟩ := List.mem_map.1 hp
    have hacc : accepts r.1 = false := by
      have := List.find?_eq_none.1 hf r hr
      simpa using this
    have := hZoc r hr
    rw [hacc] at this
    simpa using this

/-! ## Helper classes -/

theorem helperCtors_spec : ∀ (cs : List Ctor) (seen : List (List Str)),
    (∀ hc ∈ helperCtors seen cs, (∃ c ∈ cs, hc.params = c.params) ∧ hc.passes = hc.params.map Prod.snd ∧
      hc.params.map Prod.fst ∉ seen) ∧
    ((helperCtors seen cs).map (fun hc => hc.params.map Prod.fst)).Nodup ∧
    (∀ c ∈ cs, c.params.map Prod.fst ∈ seen ∨
      ∃ hc ∈ helperCtors seen cs, hc.params.map Prod.fst = c.params.map Prod.fst)
  | [], seen => ⟨nofun, List.nodup_nil, nofun⟩
  | c :: cs, seen => by
    unfold helperCtors
    dsimp only
    by_cases hs : c.params.map Prod.fst ∈ seen
    · rw [if_pos hs]
      obtain ⟨h1, h2, h3⟩ := helperCtors_spec cs seen
      refine ⟨fun hc hm => ?_, h2, fun d hd => ?_⟩
      · obtain ⟨⟨d, hd, e⟩, r⟩ := h1 hc hm
        exact ⟨⟨d, List.mem_cons_of_mem _ hd, e⟩, r⟩
      · rcases List.mem_cons.1 hd with rfl | hd
        · exact .inl hs
        · exact h3 d hd
    · rw [if_neg hs]
      obtain ⟨h1, h2, h3⟩ := helperCtors_spec cs (seen ++ [c.params.map Prod.fst])
      refine ⟨fun hc hm => ?_, ?_, fun d hd => ?_⟩
      · rcases List.mem_cons.1 hm with rfl | hm
        · exact ⟨⟨c, List.mem_cons_self, rfl⟩, rfl, hs⟩
        · obtain ⟨⟨d, hd, e⟩, r, hn⟩ := h1 hc hm
          exact ⟨⟨d, List.mem_cons_of_mem _ hd, e⟩, r, fun hx => hn (List.mem_append_left _ hx)⟩
      · rw [List.map_cons, List.nodup_cons]
        refine ⟨fun hm => ?_, h2⟩
        obtain ⟨hc, hm, he⟩ := List.mem_map.1 hm
        exact (h1 hc hm).2.2 (by rw [he]; simp)
      · rcases List.mem_cons.1 hd with rfl | hd
        · exact .inr ⟨_, List.mem_cons_self, rfl⟩
        · rcases h3 d hd with hx | ⟨hc, hm, he⟩
          · rcases List.mem_append.1 hx with hx | hx
            · exact .inl hx
            · exact .inr ⟨_, List.mem_cons_self, (List.mem_singleton.1 hx).symm⟩
          · exact .inr ⟨hc, List.mem_cons_of_mem _ hm, he⟩

/-- **C97, the helper class** has, for every constructor declared, exactly one constructor with the same parameter
types, and no others; each passes its parameters on, each in its place. -/
theorem C97_helper (cs : List Ctor) :
    (∀ c ∈ cs, ∃ hc ∈ helperCtors [] cs, hc.params.map Prod.fst = c.params.map Prod.fst) ∧
    (∀ hc ∈ helperCtors [] cs, (∃ c ∈ cs, hc.params = c.params) ∧ hc.passes = hc.params.map Prod.snd) ∧
    ((helperCtors [] cs).map (fun hc => hc.params.map Prod.fst)).Nodup := by
  obtain ⟨h1, h2, h3⟩ := helperCtors_spec cs []
  refine ⟨fun c hc => ?_, fun hc hm => ⟨(h1 hc hm).1, (h1 hc hm).2.1⟩, h2⟩
  rcases h3 c hc with hx | hx
  · cases hx
  · exact hx

/-! ## Inherited constructors -/

/-- A constructor without parameters. -/
def isDefault (c : BCtor) : Bool := c.nparams = 0

/-- In C++ a class without constructors of its own can be constructed without arguments exactly if all its
bases can, from within it. -/
def cppDefault (bases : List (Nat × List BCtor)) : Prop :=
  ∀ b ∈ bases, ∃ c ∈ b.2, c.nparams = 0 ∧ c.vis ≠ .priv

/-- **C97, inherited constructors (partial: one base, whose constructor without parameters is not protected).**  After
`inherit_default_constructors` the class has a public constructor without parameters exactly if it has one in C++, and
it has a copy constructor of some visibility exactly if the base has one of that visibility. -/
theorem C97_inherited_partial (n : Nat) (cs : List BCtor)
    (hp : ∀ c ∈ cs, c.nparams = 0 → c.vis ≠ .prot) :
    (Added.default .pub ∈ inheritDefaults [(n, cs)] ↔ cppDefault [(n, cs)]) ∧
    (∀ v, Added.copy v ∈ inheritDefaults [(n, cs)] ↔ ∃ c ∈ cs, c.nparams = 1 ∧ c.refTo = some n ∧ c.vis = v) := by
  constructor
  · unfold inheritDefaults cppDefault
    simp only [List.flatMap_cons, List.flatMap_nil, List.append_nil, List.mem_filterMap, List.mem_singleton, forall_eq]
    constructor
    · rintro ⟨c, hc, h⟩
      split at h
      · next h0 => exact ⟨c, hc, h0, by rw [Added.default.inj (Option.some.inj h)]; decide⟩
      · split at h <;> cases h
    · rintro ⟨c, hc, h0, hv⟩
      refine ⟨c, hc, ?_⟩
      rw [if_pos h0]
      have := hp c hc h0
      cases hvis : c.vis <;> simp_all
  · intro v
    unfold inheritDefaults
    simp only [List.flatMap_cons, List.flatMap_nil, List.append_nil, List.mem_filterMap]
    refine exists_congr fun c => and_congr_right fun _ => ?_
    by_cases h0 : c.nparams = 0
    · rw [if_pos h0]
      exact ⟨nofun, fun h => absurd (h.1.symm.trans h0) (by decide)⟩
    · rw [if_neg h0]
      by_cases h1 : c.nparams = 1 ∧ c.refTo.isSome ∧ c.refTo = (List.head? [(n, cs)]).map Prod.fst
      · rw [if_pos h1]
        exact ⟨fun h => ⟨h1.1, h1.2.2, Added.copy.inj (Option.some.inj h)⟩, fun h => by rw [h.2.2]⟩
      · rw [if_neg h1]
        exact ⟨nofun, fun h => absurd ⟨h.1, by rw [h.2.1]; rfl, h.2.1⟩ h1⟩

/-! ## Where it goes wrong -/

def baseCls : Cls := { full := "Base".toList, name := "Base".toList, pytype := "PyBase_Type".toList }
def derivedCls : Cls := { full := "Derived".toList, name := "Derived".toList, pytype := "PyDerived_Type".toList }

/-- Every statement of the code. -/
def Body.stmts : Body → List Stmt
  | .straight l => l
  | .bySub _ a b => a ++ b

/-- **Creation functions are inherited**: whatever instance the code creates, of the class itself or of its helper, it is made by
the creation function of the nearest class of the hierarchy that has one; if none has one, by `new` or its
smart pointer variant. -/
theorem C97_creation (K : Cls) (c : Ctor) (b : Body) (h : generate K c = .ok b) (k : Create) (t : Str) (args : List Str)
    (hs : Stmt.create k t args ∈ b.stmts) :
    args = c.args ∧
    (∀ pre l post f, K.own :: K.above = pre ++ l :: post → (∀ x ∈ pre, x.custom = none) → l.custom = some f → k = .custom f) ∧
    ((∀ x ∈ K.own :: K.above, x.custom = none) → ∃ p, k = .plain p) := by
  have hk : k = creationOf K.mro ∧ args = c.args := by
    obtain ⟨-, hb, -, -⟩ := generate_ok h
    have hp : ∀ s ∈ postStmts K, ∃ f, s = .post f := by
      intro s hs
      unfold postStmts at hs
      cases hq : K.post with
      | none => rw [hq] at hs; simp at hs
      | some f => rw [hq] at hs; simp at hs; exact ⟨f, hs⟩
    cases hf : c.function with
    | some f =>
      simp only [callBody, hf] at hb
      split at hb
      · cases hb
      · cases hb
        simp [Body.stmts] at hs
    | none =>
      rcases callBody_ok hf hb with ⟨-, -, -, rfl⟩ | ⟨hc, -, ⟨-, rfl⟩ | ⟨-, -, -, rfl⟩⟩ <;>
        (simp only [Body.stmts, List.mem_append, List.mem_cons, List.not_mem_nil, or_false, reduceCtorEq, false_or] at hs
         simp only [Stmt.create.injEq] at hs
         have hno : Stmt.create k t args ∉ postStmts K := fun hm => by
           obtain ⟨f, hf⟩ := hp _ hm
           cases hf
         simp only [hno, or_false] at hs
         first
           | exact ⟨hs.1, hs.2.2⟩
           | (rcases hs with hs | hs <;> exact ⟨hs.1, hs.2.2⟩))
  refine ⟨hk.2, ?_, ?_⟩
  · intro pre l post f he hpre hl
    have : K.mro.findSome? (·.custom) = some f := by
      show (K.own :: K.above).findSome? (·.custom) = some f
      rw [he, List.findSome?_append, List.findSome?_eq_none_iff.mpr (by simpa using hpre)]
      simp [hl]
    rw [hk.1, creationOf, this]
  · intro hno
    have : K.mro.findSome? (·.custom) = none := List.findSome?_eq_none_iff.mpr (by simpa [Cls.mro] using hno)
    rw [hk.1, creationOf, this]
    dsimp only
    split <;> exact ⟨_, rfl⟩

/-- A class that inherits its creation function from the second base. -/
example : ∃ b, generate { full := "A".toList, name := "A".toList, pytype := "PyA_Type".toList, above := [{}, { custom := some "make".toList }] } {} =
    .ok b ∧ Stmt.create (.custom "make".toList) "A".toList [] ∈ b.stmts := ⟨_, rfl, by decide⟩

/-- **A class all of whose constructors are skipped gets the `tp_init` of its base**, which the comment at
cppclass.py:2275-2280 says must not happen: calling `Derived` gives a wrapper of type `Derived` that holds a
`Base` object. -/
theorem C97_skipped_counterexample :
    tpInit none "i".toList "PyDerived".toList derivedCls [{ vis := .priv }] = .ok .null ∧
    tpInit none "i".toList "PyBase".toList baseCls [{}] = .ok (.ctors [{}]) ∧
    callType (fun _ => true) false {} [⟨derivedCls, .null⟩, ⟨baseCls, .ctors [{}]⟩] false =
      .object { obj := some ⟨"Base".toList, [], false⟩, owns := true } := by
  refine ⟨?_, ?_, ?_⟩ <;> rfl

/-- Without a base the wrapper is created without a C++ object. -/
theorem C97_empty_counterexample :
    tpInit none "i".toList "PyBase".toList baseCls [{ vis := .priv }] = .ok .null ∧
    callType (fun _ => true) false {} [⟨baseCls, .null⟩] false = .object {} := by
  refine ⟨?_, ?_⟩ <;> rfl

/-- The creation function is the one of the last class of the hierarchy: a class with a shared pointer below one
without does not compile. -/
theorem C97_policy_counterexample : ∃ K c b, generate K c = .ok b ∧ K.own.policy = some .std ∧ K.above = [{}] ∧
    b.compiles K c = false :=
  ⟨{ baseCls with own := { policy := some .std }, above := [{}] }, {}, _, rfl, rfl, rfl, by decide⟩

/-- Shared pointers and a helper class do not compile together. -/
theorem C97_shared_helper_counterexample : ∃ K c b, generate K c = .ok b ∧ K.own.policy = some .std ∧ K.above = [] ∧
    K.helper = some { name := "H".toList } ∧ b.compiles K c = false :=
  ⟨{ baseCls with own := { policy := some .std }, helper := some { name := "H".toList } }, {}, _, rfl, rfl, rfl, rfl,
    by decide⟩

/-- The helper class has constructors for private constructors, which cannot be called from it. -/
theorem C97_private_helper_counterexample : ∃ cs hc, hc ∈ helperCtors [] cs ∧
    ∀ c ∈ cs, c.params.map Prod.fst = hc.params.map Prod.fst → c.vis = .priv :=
  ⟨[{}, { vis := .priv, params := [("int".toList, "x".toList)] }], ⟨[("int".toList, "x".toList)], ["x".toList]⟩,
    by decide, by decide⟩

/-- A protected constructor of a base is inherited as protected, although the implicit constructor is public; and
with several bases one is added if any of them has one. -/
theorem C97_inherited_counterexample :
    (cppDefault [(0, [⟨.prot, 0, none⟩])] ∧ Added.default .pub ∉ inheritDefaults [(0, [⟨.prot, 0, none⟩])]) ∧
    (¬ cppDefault [(0, [⟨.pub, 0, none⟩]), (1, [⟨.pub, 2, none⟩])] ∧
      Added.default .pub ∈ inheritDefaults [(0, [⟨.pub, 0, none⟩]), (1, [⟨.pub, 2, none⟩])]) ∧
    inheritDefaults [(0, [⟨.pub, 1, some 0⟩]), (1, [⟨.pub, 1, some 1⟩])] = [.copy .pub] := by
  refine ⟨⟨?_, by decide⟩, ⟨?_, by decide⟩, by decide⟩
  · intro b hb
    rcases List.mem_singleton.1 hb with rfl
    exact ⟨_, List.mem_singleton.2 rfl, rfl, by decide⟩
  · intro h
    obtain ⟨c, hc, h0, -⟩ := h (1, [⟨.pub, 2, none⟩]) (by simp)
    rcases List.mem_singleton.1 hc with rfl
    exact absurd h0 (by decide)

/-- Calling `__init__` again loses the first object. -/
theorem C97_again_counterexample :
    ∃ s, callType (fun _ => true) false {} [⟨baseCls, .ctors [{}]⟩] false = .object s ∧
    ∃ s', callType (fun _ => true) false s [⟨baseCls, .ctors [{}]⟩] false = .object s' ∧
      s'.lost = [⟨"Base".toList, [], false⟩] :=
  ⟨_, rfl, _, rfl, rfl⟩

/-! ## Non-vacuity -/

/-- An abstract class with a helper class, two public constructors and a protected one. -/
def zoo : Cls := { full := "ns::Zoo".toList, name := "Zoo".toList, pytype := "PyZoo_Type".toList, abstract := true,
                   helper := some { name := "PyZoo__PythonHelper".toList } }
def zooCtors : List Ctor := [{ args := ["x".toList], params := [("int".toList, "x".toList)] },
  { vis := .prot }, { vis := .priv, params := [("char".toList, "c".toList)] }]

example : tpInit none "_wrap_PyZoo__tp_init".toList "PyZoo".toList zoo.prepare zooCtors =
    .ok (.ctors (zooCtors.take 2)) := by
  rw [tpInit, if_pos (by decide), Overload.generate, normalize, if_neg (by decide), normLoop]
  unfold written
  rw [normalize, if_neg (by decide), normLoop]
  rfl

example : callType (fun c => c.vis = .prot) false {} [⟨zoo.prepare, .ctors (zooCtors.take 2)⟩] true =
    .object { obj := some ⟨"PyZoo__PythonHelper".toList, [], true⟩, owns := true } := rfl

example : callType (fun _ => true) false {} [⟨zoo.prepare, .ctors (zooCtors.take 2)⟩] false = .exception {} := rfl

end Verif.Construct
