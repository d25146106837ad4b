import Verif.Handlers.Returns

/-!
# C94: what Python gets when C++ returns an object

For every class, every ownership annotation for which code is generated, and every state of the
process.
-/
namespace Verif.Returns
open Verif Verif.Flow Verif.Params Verif.Wrap
open Verif.Lifetime (World RetOpts upd upd_same)

/-! ## Specification -/

/-- The wrapper Python already has for the object: the object is an instance of the helper class, which
remembers its wrapper, or the registry knows the object. -/
def existing (c : RCls) (e : Env) (s : World) : Option Nat :=
  let known := if c.registry.isSome then s.reg e.at_ else none
  if c.helper.isSome then e.same.or known else known

/-- The object was found through the helper class. -/
def viaHelper (c : RCls) (e : Env) : Bool := c.helper.isSome && e.same.isSome

/-- The annotations ask for a copy. -/
def copies (c : RCls) (o : RetOpts) : Bool :=
  !o.own && !c.policy.counted && !o.refExisting && o.manages

/-- The annotations say that C++ keeps the object. -/
def borrows (c : RCls) (o : RetOpts) : Bool :=
  !o.own && (if c.policy.counted then !o.manages else o.refExisting || !o.manages)

/-- The annotations ask for a reference of its own for Python. -/
def takesRef (c : RCls) (o : RetOpts) : Bool := !o.own && c.policy.counted && o.manages

/-- The object of a new wrapper. -/
def newObj (c : RCls) (o : RetOpts) (e : Env) : Nat := if copies c o then e.fresh else e.at_

/-- The Python type of a new wrapper. -/
def newType (c : RCls) (o : RetOpts) (e : Env) : Nat :=
  if c.narrowing.isSome && (o.own || c.policy.counted) then e.dyn else e.stat

/-- Python gets the wrapper `w` it already had: one more Python reference, a reference to the C++ object
handed over with it is given up, nothing else changes (`touch`: the wrapper is made to point to the
object). -/
structure GotExisting (m m' : M) (w : Nat) (a : Nat) (drop touch : Bool) : Prop where
  py : m'.py = some w
  refs : m'.refs = upd m.refs w (m.refs w + 1)
  type : m'.type = m.type
  dict : m'.dict = m.dict
  ws : m'.world.ws = if touch then upd m.world.ws w { m.world.ws w with obj := some a } else m.world.ws
  next : m'.world.next = m.world.next
  reg : m'.world.reg = m.world.reg
  heap : m'.world.heap = if drop then (Lifetime.release m.world a).heap else m.world.heap
  bad : m.world.heap a ≠ none → m'.world.bad = m.world.bad

/-- Python gets a new wrapper, of type `t`, for the object at `x`. -/
structure GotNew (c : RCls) (m m' : M) (t x : Nat) (notOwned : Bool) (heap : Nat → Option Lifetime.Obj)
    (a : Nat) : Prop where
  py : m'.py = some m.world.next
  refs : m'.refs = upd m.refs m.world.next 1
  type : m'.type = upd m.type m.world.next t
  dict : m'.dict = upd m.dict m.world.next true
  ws : m'.world.ws = upd m.world.ws m.world.next ⟨true, some x, notOwned, false⟩
  next : m'.world.next = m.world.next + 1
  reg : m'.world.reg = if c.registry.isSome then upd m.world.reg x (some m.world.next) else m.world.reg
  heap : m'.world.heap = heap
  bad : m.world.heap a ≠ none → m'.world.bad = m.world.bad

/-! ## Execution -/

theorem exec_append (c : RCls) (e : Env) : ∀ (l l' : List Prim) (m : M),
    (Code.ofList (l ++ l')).exec c e m = (Code.ofList l').exec c e ((Code.ofList l).exec c e m)
  | [], _, _ => rfl
  | _ :: l, l', _ => exec_append c e l l' _

theorem upd_upd {β : Type} (f : Nat → β) (a : Nat) (x y : β) : upd (upd f a x) a y = upd f a y := by
  funext z
  simp only [Lifetime.upd_apply]
  split <;> rfl

/-- The wrapper structure. -/
theorem head_exec (c : RCls) (e : Env) (n again : Bool) (m : M) :
    (Code.ofList ((if n then [Prim.narrow] else []) ++ allocate c n ++
      (if again && c.subclassing then [.dictNull] else []))).exec c e m =
    { m with world := { m.world with
               ws := upd m.world.ws m.world.next
                 ⟨true, if c.policy.isSmart then none else e.junkObj, e.junkFlag, false⟩
               next := m.world.next + 1 }
             refs := upd m.refs m.world.next 1
             type := upd m.type m.world.next (if n then e.dyn else e.stat)
             dict := upd m.dict m.world.next true
             py := some m.world.next
             wtype := if n then e.dyn else m.wtype } := by
  have key : ∀ (q : M) (t : Nat), t = (if n then q.wtype else e.stat) →
      (Code.ofList (allocate c n ++ (if again && c.subclassing then [.dictNull] else []))).exec c e q =
    { q with world := { q.world with
               ws := upd q.world.ws q.world.next
                 ⟨true, if c.policy.isSmart then none else e.junkObj, e.junkFlag, false⟩
               next := q.world.next + 1 }
             refs := upd q.refs q.world.next 1
             type := upd q.type q.world.next t
             dict := upd q.dict q.world.next true
             py := some q.world.next } := by
    intro q t ht
    rw [exec_append]
    unfold allocate
    rw [ht]
    cases hp : c.policy <;> cases hs : c.subclassing <;> cases again <;>
      simp [Code.ofList, Code.exec, Prim.exec, hs, hp, Pol.isSmart, M.withPy, upd_upd, Lifetime.setObj]
  rw [List.append_assoc, exec_append]
  cases n with
  | false => exact key m _ rfl
  | true => exact key _ _ rfl

/-- The new wrapper's C++ object and flag. -/
theorem tail_exec (c : RCls) (e : Env) (m : M) (w : Nat) (hw : m.py = some w)
    (hns : c.policy.isSmart = false) (x : Nat) (f : Bool) (l : List Prim) (k : Cast)
    (h : (l = [.setObj k, .flags f] ∧ x = e.at_)) :
    (Code.ofList l).exec c e m =
      { m with world := { m.world with ws := upd m.world.ws w { m.world.ws w with obj := some x, notOwned := f } } } := by
  obtain ⟨rfl, rfl⟩ := h
  simp [Code.ofList, Code.exec, Prim.exec, M.withPy, hw, hns, Lifetime.setObj, upd_upd]

/-- What a new wrapper leaves in the heap. -/
def newHeap (c : RCls) (o : RetOpts) (e : Env) (s : World) : Nat → Option Lifetime.Obj :=
  if copies c o then upd s.heap e.fresh (some ⟨1, 0, none⟩)
  else if takesRef c o then (Lifetime.incref s e.at_).heap
  else s.heap

theorem registerNew_exec (c : RCls) (e : Env) (v : Bool) (m : M) (w x : Nat) (hw : m.py = some w)
    (hx : (m.world.ws w).obj = some x) :
    (Code.ofList (registerNew c v)).exec c e m =
      { m with world := { m.world with
          reg := if c.registry.isSome then upd m.world.reg x (some w) else m.world.reg } } := by
  unfold registerNew
  cases c.registry with
  | none => rfl
  | some r => simp [Code.ofList, Code.exec, Prim.exec, M.withPy, hw, hx]

theorem createNew_spec (c : RCls) (o : RetOpts) (e : Env) (v : Bool) (m : M) (l : List Prim)
    (hns : c.policy.isSmart = false) (h : createNew c o = .ok l) :
    GotNew c m ((Code.ofList (l ++ registerNew c v)).exec c e m) (newType c o e) (newObj c o e)
      (borrows c o) (newHeap c o e m.world) e.at_ := by
  obtain ⟨n, hn⟩ : ∃ n, n = (c.narrowing.isSome && (o.own || c.policy.counted)) := ⟨_, rfl⟩
  have hh := head_exec c e n true m
  rw [Bool.true_and] at hh
  have ht : newType c o e = if n then e.dyn else e.stat := by rw [hn]; rfl
  rw [ht]
  unfold createNew at h
  dsimp only at h
  rw [← hn] at h
  obtain ⟨hd, hhd⟩ : ∃ hd, hd = (if n then [Prim.narrow] else []) ++ allocate c n ++
    (if c.subclassing then [.dictNull] else []) := ⟨_, rfl⟩
  rw [← hhd] at h hh
  rw [exec_append]
  -- what remains after the head
  have fin : ∀ (q : M) (x : Nat) (f : Bool), q.py = some m.world.next →
      q.refs = upd m.refs m.world.next 1 → q.type = upd m.type m.world.next (if n then e.dyn else e.stat) →
      q.dict = upd m.dict m.world.next true →
      q.world.ws = upd m.world.ws m.world.next ⟨true, some x, f, false⟩ →
      q.world.next = m.world.next + 1 → q.world.reg = m.world.reg →
      (m.world.heap e.at_ ≠ none → q.world.bad = m.world.bad) →
      GotNew c m ((Code.ofList (registerNew c v)).exec c e q) (if n then e.dyn else e.stat) x f q.world.heap e.at_ := by
    intro q x f h1 h2 h3 h4 h5 h6 h7 h8
    rw [registerNew_exec c e v q _ x h1 (by rw [h5, upd_same])]
    exact ⟨h1, h2, h3, h4, h5, h6, by dsimp only; rw [h7], rfl, h8⟩
  cases hown : o.own with
  | true =>
    rw [hown, if_pos rfl] at h
    cases h
    have hc : copies c o = false := by simp [copies, hown]
    have hb : borrows c o = false := by simp [borrows, hown]
    have htr : takesRef c o = false := by simp [takesRef, hown]
    simp only [newObj, newHeap, hc, hb, htr, Bool.false_eq_true, if_false]
    rw [exec_append, hh, tail_exec c e _ m.world.next rfl hns e.at_ false _ .spaced ⟨rfl, rfl⟩]
    refine fin _ e.at_ false rfl rfl rfl rfl ?_ rfl rfl (fun _ => rfl)
    simp [upd_upd]
  | false =>
    rw [hown, if_neg (by simp)] at h
    cases hcnt : c.policy.counted with
    | false =>
      rw [hcnt, if_pos (by rfl)] at h
      have htr : takesRef c o = false := by simp [takesRef, hcnt]
      cases href : o.refExisting with
      | true =>
        rw [href, if_pos rfl] at h
        cases h
        have hc : copies c o = false := by simp [copies, href]
        have hb : borrows c o = true := by simp [borrows, hown, hcnt, href]
        simp only [newObj, newHeap, hc, hb, htr, Bool.false_eq_true, if_false]
        rw [exec_append, hh, tail_exec c e _ m.world.next rfl hns e.at_ true _ .spaced ⟨rfl, rfl⟩]
        refine fin _ e.at_ true rfl rfl rfl rfl ?_ rfl rfl (fun _ => rfl)
        simp [upd_upd]
      | false =>
        rw [href, if_neg (by simp)] at h
        cases hman : o.manages with
        | true =>
          rw [hman, if_pos rfl] at h
          obtain ⟨mk, hmk, h⟩ := bind_ok.mp h
          cases h
          have hc : copies c o = true := by simp [copies, hown, hcnt, href, hman]
          have hb : borrows c o = false := by simp [borrows, hown, hcnt, href, hman]
          simp only [newObj, newHeap, hc, hb, if_true]
          have : mk = [.create] := by
            unfold copyValue createInstance at hmk
            split at hmk
            · cases hmk
            · split at hmk
              · cases hmk
              · split at hmk
                · cases hmk
                · cases hmk; rfl
          subst this
          have hp : (Code.ofList ([.create] ++ .flags false :: postCreation c)).exec c e
              ((Code.ofList hd).exec c e m) =
              { (Code.ofList hd).exec c e m with world :=
                { (Code.ofList hd).exec c e m |>.world with
                  ws := upd m.world.ws m.world.next ⟨true, some e.fresh, false, false⟩
                  heap := upd m.world.heap e.fresh (some ⟨1, 0, none⟩) } } := by
            rw [hh]
            unfold postCreation
            cases c.post <;>
              simp [Code.ofList, Code.exec, Prim.exec, M.withPy, hns, Lifetime.setObj, Lifetime.alloc, upd_upd]
          rw [List.append_assoc, exec_append, hp]
          refine fin _ e.fresh false ?_ ?_ ?_ ?_ rfl ?_ ?_ ?_ <;> rw [hh] <;> first | rfl | exact fun _ => rfl
        | false =>
          rw [hman, if_neg (by simp)] at h
          cases h
          have hc : copies c o = false := by simp [copies, hman]
          have hb : borrows c o = true := by simp [borrows, hown, hcnt, hman]
          simp only [newObj, newHeap, hc, hb, htr, Bool.false_eq_true, if_false]
          rw [exec_append, hh, tail_exec c e _ m.world.next rfl hns e.at_ true _ .spaced ⟨rfl, rfl⟩]
          refine fin _ e.at_ true rfl rfl rfl rfl ?_ rfl rfl (fun _ => rfl)
          simp [upd_upd]
    | true =>
      rw [hcnt, if_neg (by simp)] at h
      have hc : copies c o = false := by simp [copies, hcnt]
      cases hman : o.manages with
      | true =>
        rw [hman, if_pos rfl] at h
        cases h
        have hb : borrows c o = false := by simp [borrows, hcnt, hman]
        have htr : takesRef c o = true := by simp [takesRef, hown, hcnt, hman]
        simp only [newObj, newHeap, hc, hb, htr, Bool.false_eq_true, if_false, if_true]
        have hp : (Code.ofList [.flags false, .incref, .setObj .tight]).exec c e
            ((Code.ofList hd).exec c e m) =
            { (Code.ofList hd).exec c e m with world :=
              { (Code.ofList hd).exec c e m |>.world with
                ws := upd m.world.ws m.world.next ⟨true, some e.at_, false, false⟩
                heap := (Lifetime.incref m.world e.at_).heap
                bad := (Lifetime.incref m.world e.at_).bad } } := by
          rw [hh]
          simp only [Code.ofList, Code.exec, Prim.exec, M.withPy, hns, Lifetime.incref]
          cases m.world.heap e.at_ <;> simp [Lifetime.setObj, upd_upd]
        rw [exec_append, hp]
        refine fin _ e.at_ false ?_ ?_ ?_ ?_ rfl ?_ ?_ ?_ <;> (try rw [hh])
        intro hlive
        dsimp only
        unfold Lifetime.incref
        split
        · rename_i he; exact absurd he hlive
        · rfl
      | false =>
        rw [hman, if_neg (by simp)] at h
        cases h
        have hb : borrows c o = true := by simp [borrows, hown, hcnt, hman]
        have htr : takesRef c o = false := by simp [takesRef, hman]
        simp only [newObj, newHeap, hc, hb, htr, Bool.false_eq_true, if_false]
        rw [exec_append, hh, tail_exec c e _ m.world.next rfl hns e.at_ true _ .spaced ⟨rfl, rfl⟩]
        refine fin _ e.at_ true rfl rfl rfl rfl ?_ rfl rfl (fun _ => rfl)
        simp [upd_upd]

/-! ## The theorems -/

/-- What the generated code has to achieve. -/
def Correct (c : RCls) (o : RetOpts) (e : Env) (m m' : M) : Prop :=
  match existing c e m.world with
  | some w => GotExisting m m' w e.at_ (o.own && c.policy.counted) (viaHelper c e)
  | none => GotNew c m m' (newType c o e) (newObj c o e) (borrows c o) (newHeap c o e m.world) e.at_

theorem release_bad {s : World} {a : Nat} (h : s.heap a ≠ none) : (Lifetime.release s a).bad = s.bad := by
  unfold Lifetime.release
  split
  · rename_i he; exact absurd he h
  · split <;> rfl

theorem release_frame (s : World) (a : Nat) : (Lifetime.release s a).ws = s.ws ∧
    (Lifetime.release s a).next = s.next ∧ (Lifetime.release s a).reg = s.reg := by
  unfold Lifetime.release
  split
  · exact ⟨rfl, rfl, rfl⟩
  · split <;> exact ⟨rfl, rfl, rfl⟩

theorem release_heap_eq {s t : World} (a : Nat) (h : s.heap = t.heap) :
    (Lifetime.release s a).heap = (Lifetime.release t a).heap := by
  unfold Lifetime.release
  rw [h]
  cases t.heap a with
  | none => rfl
  | some x => dsimp only; split <;> rfl

/-- Iterator and wrapper type variable do not matter. -/
theorem gotNew_cast {c : RCls} {m q m' : M} {t x : Nat} {f : Bool} {h : Nat → Option Lifetime.Obj} {a : Nat}
    (hw : q.world = m.world) (hr : q.refs = m.refs) (ht : q.type = m.type) (hd : q.dict = m.dict)
    (g : GotNew c q m' t x f h a) : GotNew c m m' t x f h a :=
  ⟨hw ▸ g.py, hw ▸ hr ▸ g.refs, hw ▸ ht ▸ g.type, hw ▸ hd ▸ g.dict, hw ▸ g.ws, hw ▸ g.next, hw ▸ g.reg,
    g.heap, hw ▸ g.bad⟩

theorem lookupOrCreate_spec (c : RCls) (o : RetOpts) (e : Env) (v : Bool) (m : M) (code : Code)
    (hns : c.policy.isSmart = false) (h : lookupOrCreate c o v = .ok code) :
    match (if c.registry.isSome then m.world.reg e.at_ else none) with
    | some w => GotExisting m (code.exec c e m) w e.at_ (o.own && c.policy.counted) false
    | none => GotNew c m (code.exec c e m) (newType c o e) (newObj c o e) (borrows c o)
        (newHeap c o e m.world) e.at_ := by
  obtain ⟨new, hnew, h⟩ := bind_ok.mp h
  cases hr : c.registry.isSome with
  | false =>
    rw [hr, if_neg (by simp)] at h
    cases h
    exact createNew_spec c o e v m new hns hnew
  | true =>
    rw [hr, if_pos rfl] at h
    cases h
    rw [if_pos rfl]
    cases hf : m.world.reg e.at_ with
    | none =>
      have : (Code.prim .find (.prim .load (.ite .notFound (.ofList (new ++ registerNew c v))
          (.ofList (if o.own && c.policy.counted then [.decref] else [])) .done))).exec c e m =
          (Code.ofList (new ++ registerNew c v)).exec c e { m with iter := none, py := none } := by
        simp [Code.exec, Prim.exec, hf, Cond.holds]
      dsimp only
      rw [this]
      exact gotNew_cast (q := { m with iter := none, py := none }) rfl rfl rfl rfl
        (createNew_spec c o e v _ new hns hnew)
    | some w =>
      have : (Code.prim .find (.prim .load (.ite .notFound (.ofList (new ++ registerNew c v))
          (.ofList (if o.own && c.policy.counted then [.decref] else [])) .done))).exec c e m =
          (Code.ofList (if o.own && c.policy.counted then [.decref] else [])).exec c e
            { m with iter := some w, py := some w, refs := upd m.refs w (m.refs w + 1) } := by
        simp [Code.exec, Prim.exec, hf, Cond.holds]
      dsimp only
      rw [this]
      cases (o.own && c.policy.counted) with
      | false => exact ⟨rfl, rfl, rfl, rfl, rfl, rfl, rfl, rfl, fun _ => rfl⟩
      | true =>
        obtain ⟨h1, h2, h3⟩ := release_frame m.world e.at_
        exact ⟨rfl, rfl, rfl, rfl, h1, h2, h3, rfl, release_bad⟩

/-- **C94, pointers and shared references.**  For every class (except those kept by smart pointers, see
`C94_smart_partial`), every ownership annotation for which code is generated, every state and every returned object:
Python gets its existing wrapper with one more reference or a completely initialised new one, as
declared; objects, registry and other wrappers are changed only as declared. -/
theorem C94_shared_partial (c : RCls) (o : RetOpts) (e : Env) (m : M) (code : Code)
    (hns : c.policy.isSmart = false) (h : sharedReturn c o = .ok code) :
    Correct c o e m (code.exec c e m) := by
  unfold sharedReturn at h
  unfold Correct existing viaHelper
  cases hh : c.helper with
  | none =>
    rw [hh] at h
    exact lookupOrCreate_spec c o e _ m code hns h
  | some hn =>
    rw [hh] at h
    obtain ⟨other, ho, h⟩ := bind_ok.mp h
    cases h
    have := lookupOrCreate_spec c o e _ m other hns ho
    cases hsame : e.same with
    | none =>
      simp only [Code.exec, Cond.holds, hsame, Option.isSome_none, Option.isSome_some, if_true,
        Option.none_or, Bool.and_false, Bool.false_eq_true, if_false]
      exact this
    | some w =>
      simp only [Code.exec, Cond.holds, hsame, Option.isSome_some, if_true, Option.some_or, Bool.and_self]
      cases (o.own && c.policy.counted) with
      | false =>
        refine ⟨?_, ?_, ?_, ?_, ?_, ?_, ?_, ?_, ?_⟩ <;>
          simp [Code.exec, Code.ofList, Prim.exec, M.withPy, hsame, hns, Lifetime.setObj]
      | true =>
        obtain ⟨h1, h2, h3⟩ := release_frame (Lifetime.setObj m.world w (some e.at_)) e.at_
        refine ⟨?_, ?_, ?_, ?_, ?_, ?_, ?_, ?_, ?_⟩ <;>
          simp [Code.exec, Code.ofList, Prim.exec, M.withPy, hsame, hns]
        · exact h1
        · exact h2
        · exact h3
        · exact release_heap_eq _ rfl
        · intro hl; exact release_bad (s := Lifetime.setObj m.world w (some e.at_)) hl

/-- **C94, values and copied references.**  A new wrapper of the declared type with a copy of its own. -/
theorem C94_copy_partial (c : RCls) (again : Bool) (e : Env) (m : M) (code : Code)
    (hns : c.policy.isSmart = false) (h : copyReturn c again = .ok code) :
    GotNew c m (code.exec c e m) e.stat e.fresh false (upd m.world.heap e.fresh (some ⟨1, 0, none⟩)) e.at_ := by
  obtain ⟨mk, hmk, h⟩ := bind_ok.mp h
  cases h
  have : mk = [.create] := by
    unfold copyValue createInstance at hmk
    split at hmk
    · cases hmk
    · split at hmk
      · cases hmk
      · split at hmk
        · cases hmk
        · cases hmk; rfl
  subst this
  have hh := head_exec c e false again m
  simp only [Bool.false_eq_true, if_false, List.nil_append] at hh
  rw [List.append_assoc, List.append_assoc, exec_append, ← List.append_assoc, exec_append, exec_append, hh]
  have h2 : ∀ q : M, q.py = some m.world.next → (q.world.ws m.world.next).live = true →
      (q.world.ws m.world.next).viaInit = false →
      (Code.ofList (Prim.flags false :: [.create])).exec c e q =
        { q with world := { q.world with
            ws := upd q.world.ws m.world.next ⟨true, some e.fresh, false, false⟩
            heap := upd q.world.heap e.fresh (some ⟨1, 0, none⟩) } } := by
    intro q hq hl hv
    simp [Code.ofList, Code.exec, Prim.exec, M.withPy, hns, hq, Lifetime.setObj, Lifetime.alloc, upd_upd, hl, hv]
  have h3 : ∀ q : M, (Code.ofList (postCreation c)).exec c e q = q := by
    intro q
    unfold postCreation
    cases c.post <;> rfl
  rw [h3, h2 _ rfl (by simp) (by simp), registerNew_exec c e false _ m.world.next e.fresh rfl (by simp)]
  exact ⟨rfl, rfl, rfl, rfl, by simp [upd_upd], rfl, rfl, rfl, fun _ => rfl⟩

/-- **C94, all handlers but smart pointers.** -/
theorem C94_return_partial (k : Kind) (c : RCls) (e : Env) (m : M) (code : Code)
    (hns : c.policy.isSmart = false) (h : k.code c = .ok code) :
    match k with
    | .value => GotNew c m (code.exec c e m) e.stat e.fresh false
        (upd m.world.heap e.fresh (some ⟨1, 0, none⟩)) e.at_
    | .ref o => if o.refExisting || o.own || !o.manages then Correct c o e m (code.exec c e m)
        else GotNew c m (code.exec c e m) e.stat e.fresh false
          (upd m.world.heap e.fresh (some ⟨1, 0, none⟩)) e.at_
    | .ptr o => Correct c o e m (code.exec c e m)
    | .shared => Correct c sharedOpts e m (code.exec c e m) := by
  cases k with
  | value => exact C94_copy_partial c true e m code hns h
  | ref o =>
    unfold Kind.code at h
    dsimp only at h ⊢
    split
    · rename_i hc
      rw [if_pos hc] at h
      exact C94_shared_partial c o e m code hns h
    · rename_i hc
      rw [if_neg hc] at h
      exact C94_copy_partial c false e m code hns h
  | ptr o => exact C94_shared_partial c o e m code hns h
  | shared => exact C94_shared_partial c sharedOpts e m code hns h

/-- **C94, smart pointers.**  A class kept by `shared_ptr`, without helper class: Python gets the wrapper
it has for the object, or a new one holding a reference of its own; the memory of the new wrapper is
initialised before a pointer is assigned to it. -/
theorem C94_smart_partial (c : RCls) (std : Bool) (hp : c.policy = .smart std) (hh : c.helper = none)
    (e : Env) (m : M) (code : Code) (h : Kind.shared.code c = .ok code)
    (hl : m.world.heap e.at_ ≠ none) :
    match (if c.registry.isSome then m.world.reg e.at_ else none) with
    | some w => GotExisting m (code.exec c e m) w e.at_ false false
    | none => GotNew c m (code.exec c e m) (if c.narrowing.isSome then e.dyn else e.stat) e.at_ false
        (Lifetime.incref m.world e.at_).heap e.at_ := by
  have hsm : c.policy.isSmart = true := by rw [hp]; rfl
  have hct : c.policy.counted = false := by rw [hp]; rfl
  have h' : lookupOrCreate c sharedOpts (c.policy != .none) = .ok code := by
    have : sharedReturn c sharedOpts = .ok code := h
    unfold sharedReturn at this
    rw [hh] at this
    exact this
  obtain ⟨new, hnew, h'⟩ := bind_ok.mp h'
  have hnew' : new = (if c.narrowing.isSome then [Prim.narrow] else []) ++ allocate c c.narrowing.isSome ++
      (if c.subclassing then [.dictNull] else []) ++ [.setObj .spaced, .flags false] := by
    unfold createNew at hnew
    simp only [sharedOpts, Bool.true_or, Bool.and_true, if_true] at hnew
    cases hnew
    rfl
  have hh2 := fun q => head_exec c e c.narrowing.isSome true q
  simp only [Bool.true_and, hsm, if_true] at hh2
  -- the statements after the head
  have created : ∀ q : M, q.world = m.world → q.refs = m.refs → q.type = m.type → q.dict = m.dict →
      GotNew c m ((Code.ofList (new ++ registerNew c (c.policy != .none))).exec c e q)
        (if c.narrowing.isSome then e.dyn else e.stat) e.at_ false
        (Lifetime.incref m.world e.at_).heap e.at_ := by
    intro q h1 h2 h3 h4
    rw [hnew', exec_append, exec_append, hh2]
    have h5 : ∀ r : M, r.py = some m.world.next → r.world.ws m.world.next = ⟨true, none, e.junkFlag, false⟩ →
        r.world.heap = m.world.heap →
        (Code.ofList [.setObj .spaced, .flags false]).exec c e r =
          { r with world := { r.world with
              ws := upd r.world.ws m.world.next ⟨true, some e.at_, false, false⟩
              heap := (Lifetime.incref m.world e.at_).heap } } := by
      intro r hr hw hheap
      simp only [Code.ofList, Code.exec, Prim.exec, M.withPy, hr, hsm, if_true, assignSmart, hw, Lifetime.incref, hheap]
      cases hx : m.world.heap e.at_ with
      | none => exact absurd hx hl
      | some x => simp [Lifetime.setObj, upd_upd, hw]
    rw [h5 _ (by simp [h1]) (by simp [h1]) (by simp [h1]),
      registerNew_exec c e _ _ m.world.next e.at_ (by simp [h1]) (by simp)]
    refine ⟨?_, ?_, ?_, ?_, ?_, ?_, ?_, ?_, ?_⟩ <;> simp [h1, h2, h3, h4, upd_upd]
  cases hr : c.registry.isSome with
  | false =>
    rw [hr, if_neg (by simp)] at h'
    cases h'
    exact created m rfl rfl rfl rfl
  | true =>
    rw [hr, if_pos rfl] at h'
    cases h'
    rw [if_pos rfl]
    cases hf : m.world.reg e.at_ with
    | none =>
      have := created { m with iter := none, py := none } rfl rfl rfl rfl
      simpa [Code.exec, Prim.exec, hf, Cond.holds] using this
    | some w =>
      simp only [Code.exec, Prim.exec, hf, Cond.holds, hct, Bool.and_false, Bool.false_eq_true, if_false,
        Option.isNone_some, Code.ofList]
      exact ⟨rfl, rfl, rfl, rfl, rfl, rfl, rfl, rfl, fun _ => rfl⟩

/-! ## The code refines the run time model of C38, C45 and C46 -/

/-- The class as the run time model sees it. -/
def RCls.cls (c : RCls) (singleton dtorPublic : Bool) : Lifetime.Cls :=
  { policy := if c.policy.counted then .refcount else if c.policy = .none then .none else .free
    singleton, dtorPublic, hasCopy := c.hasCopy, helper := c.helper.isSome, registry := c.registry.isSome }

theorem world_ext {s t : World} (h1 : s.ws = t.ws) (h2 : s.next = t.next) (h3 : s.reg = t.reg)
    (h4 : s.heap = t.heap) (h5 : s.bad = t.bad) : s = t := by
  cases s; cases t; simp_all

/-- The history variable of C45. -/
def handOver (o : RetOpts) (s : World) (a : Nat) : World :=
  if o.own || o.freeAfterCopy then Lifetime.cppLoses s a else s

theorem cppLoses_heap (s : World) (a : Nat) (h : s.heap a ≠ none) : (Lifetime.cppLoses s a).heap a ≠ none := by
  unfold Lifetime.cppLoses
  split
  · exact h
  · simp

/-- **C94 meets C45.**  Running the generated code (and, with `free_after_copy`, the `delete` of the
cleanup) is the event `ret` of the run time model, for which C38, C45 and C46 are proved. -/
theorem C94_refines_partial (c : RCls) (sing dtor : Bool) (o : RetOpts) (e : Env) (m : M) (s : World) (code : Code)
    (hns : c.policy.isSmart = false) (h : sharedReturn c o = .ok code)
    (hl : s.heap e.at_ ≠ none) (hm : m.world = handOver o s e.at_) :
    let m' := code.exec c e m
    let r := Lifetime.retObj (c.cls sing dtor) o s e.at_ e.fresh e.same
    m'.py = some r.2 ∧ (if o.freeAfterCopy then Lifetime.release m'.world e.at_ else m'.world) = r.1 := by
  have hc := C94_shared_partial c o e m code hns h
  generalize code.exec c e m = m' at hc
  have hl' : m.world.heap e.at_ ≠ none := by
    rw [hm]
    unfold handOver
    split
    · exact cppLoses_heap s _ hl
    · exact hl
  unfold Correct existing at hc
  dsimp only
  unfold Lifetime.retObj
  dsimp only
  have hr : (c.cls sing dtor).policy = .refcount ↔ c.policy.counted = true := by
    unfold RCls.cls
    cases c.policy.counted <;> simp
    split <;> simp
  have e1 : (c.cls sing dtor).helper = c.helper.isSome := rfl
  have e2 : (c.cls sing dtor).registry = c.registry.isSome := rfl
  rw [e1]
  rw [show (if (o.own || o.freeAfterCopy) = true then Lifetime.cppLoses s e.at_ else s) = m.world from hm.symm]
  have hdrop : (o.own && decide ((c.cls sing dtor).policy = .refcount)) = (o.own && c.policy.counted) := by
    congr 1
    cases hcc : c.policy.counted with
    | true => exact decide_eq_true (hr.mpr hcc)
    | false => exact decide_eq_false (fun h => by rw [hr.mp h] at hcc; cases hcc)
  -- wrappers that existed
  have old : ∀ (w : Nat) (touch : Bool), GotExisting m m' w e.at_ (o.own && c.policy.counted) touch →
      m'.world = (if o.own && c.policy.counted then
        Lifetime.release (if touch then Lifetime.setObj m.world w (some e.at_) else m.world) e.at_
        else if touch then Lifetime.setObj m.world w (some e.at_) else m.world) := by
    intro w touch g
    obtain ⟨t, ht⟩ : ∃ t, t = (if touch then Lifetime.setObj m.world w (some e.at_) else m.world) := ⟨_, rfl⟩
    have hth : t.heap = m.world.heap := by rw [ht]; cases touch <;> rfl
    have htw : m'.world.ws = t.ws := by rw [ht, g.ws]; cases touch <;> rfl
    have htn : t.next = m.world.next := by rw [ht]; cases touch <;> rfl
    have htr : t.reg = m.world.reg := by rw [ht]; cases touch <;> rfl
    have htb : t.bad = m.world.bad := by rw [ht]; cases touch <;> rfl
    rw [← ht]
    have gh := g.heap
    cases hd : (o.own && c.policy.counted) with
    | false =>
      rw [hd] at gh
      exact world_ext htw (g.next.trans htn.symm) (g.reg.trans htr.symm) (gh.trans hth.symm)
        ((g.bad hl').trans htb.symm)
    | true =>
      rw [hd] at gh
      obtain ⟨f1, f2, f3⟩ := release_frame t e.at_
      exact world_ext (htw.trans f1.symm) (g.next.trans (htn.symm.trans f2.symm))
        (g.reg.trans (htr.symm.trans f3.symm)) (gh.trans (release_heap_eq _ hth.symm))
        ((g.bad hl').trans (htb.symm.trans (release_bad (by rw [hth]; exact hl')).symm))
  -- new wrappers
  have fresh : GotNew c m m' (newType c o e) (newObj c o e) (borrows c o) (newHeap c o e m.world) e.at_ →
      m'.world = Lifetime.createWrapper (c.cls sing dtor) o m.world e.at_ e.fresh := by
    intro g
    have fin : ∀ (s' : World) (x : Nat) (f : Bool), s'.ws = m.world.ws → s'.next = m.world.next →
        s'.reg = m.world.reg → s'.bad = m.world.bad → s'.heap = newHeap c o e m.world →
        newObj c o e = x → borrows c o = f →
        m'.world = Lifetime.register (c.cls sing dtor) (Lifetime.newWrapper s' (some x) f) x m.world.next := by
      intro s' x f h1 h2 h3 h4 h5 h6 h7
      unfold Lifetime.register
      rw [e2]
      have g1 := g.ws
      have g2 := g.reg
      rw [h6] at g1 g2
      rw [h7] at g1
      cases hreg : c.registry.isSome with
      | true =>
        rw [hreg] at g2
        refine world_ext ?_ ?_ ?_ ?_ ?_
        · rw [g1]; simp [Lifetime.newWrapper, h1, h2]
        · rw [g.next]; simp [Lifetime.newWrapper, h2]
        · rw [g2]; simp [Lifetime.newWrapper, h3]
        · rw [g.heap]; simp [Lifetime.newWrapper, h5]
        · rw [g.bad hl']; simp [Lifetime.newWrapper, h4]
      | false =>
        rw [hreg] at g2
        refine world_ext ?_ ?_ ?_ ?_ ?_
        · rw [g1]; simp [Lifetime.newWrapper, h1, h2]
        · rw [g.next]; simp [Lifetime.newWrapper, h2]
        · rw [g2]; simp [Lifetime.newWrapper, h3]
        · rw [g.heap]; simp [Lifetime.newWrapper, h5]
        · rw [g.bad hl']; simp [Lifetime.newWrapper, h4]
    unfold Lifetime.createWrapper
    dsimp only
    cases hown : o.own with
    | true =>
      rw [if_pos rfl]
      exact fin _ _ _ rfl rfl rfl rfl (by simp [newHeap, copies, takesRef, hown])
        (by simp [newObj, copies, hown]) (by simp [borrows, hown])
    | false =>
      rw [if_neg (by simp)]
      cases hcnt : c.policy.counted with
      | false =>
        have hnr : (c.cls sing dtor).policy ≠ .refcount := fun h => by rw [hr.mp h] at hcnt; cases hcnt
        rw [if_pos hnr]
        cases href : o.refExisting with
        | true =>
          rw [if_pos rfl]
          exact fin _ _ _ rfl rfl rfl rfl (by simp [newHeap, copies, takesRef, hcnt, href])
            (by simp [newObj, copies, href]) (by simp [borrows, hown, hcnt, href])
        | false =>
          rw [if_neg (by simp)]
          cases hman : o.manages with
          | true =>
            rw [if_pos rfl]
            exact fin (Lifetime.alloc m.world e.fresh none) _ _ rfl rfl rfl rfl
              (by simp [newHeap, copies, hown, hcnt, href, hman, Lifetime.alloc])
              (by simp [newObj, copies, hown, hcnt, href, hman]) (by simp [borrows, hcnt, href, hman])
          | false =>
            rw [if_neg (by simp)]
            exact fin _ _ _ rfl rfl rfl rfl (by simp [newHeap, copies, takesRef, hcnt, hman])
              (by simp [newObj, copies, hman]) (by simp [borrows, hown, hcnt, hman])
      | true =>
        rw [if_neg (not_not_intro (hr.mpr hcnt))]
        have hi : ∀ x : Lifetime.Obj, m.world.heap e.at_ = some x →
            Lifetime.incref m.world e.at_ = { m.world with heap := (Lifetime.incref m.world e.at_).heap } := by
          intro x hx
          unfold Lifetime.incref
          rw [hx]
        cases hx : m.world.heap e.at_ with
        | none => exact absurd hx hl'
        | some x =>
          cases hman : o.manages with
          | true =>
            rw [if_pos rfl, hi x hx]
            exact fin _ _ _ rfl rfl rfl rfl (by simp [newHeap, copies, takesRef, hown, hcnt, hman])
              (by simp [newObj, copies, hcnt]) (by simp [borrows, hcnt, hman])
          | false =>
            rw [if_neg (by simp)]
            exact fin _ _ _ rfl rfl rfl rfl (by simp [newHeap, copies, takesRef, hcnt, hman])
              (by simp [newObj, copies, hcnt]) (by simp [borrows, hown, hcnt, hman])
  have known : ∀ (b : Bool), b = false → (match (if c.registry.isSome then m.world.reg e.at_ else none) with
      | some w => GotExisting m m' w e.at_ (o.own && c.policy.counted) b
      | none => GotNew c m m' (newType c o e) (newObj c o e) (borrows c o) (newHeap c o e m.world) e.at_) →
      let r := (match Lifetime.lookup (c.cls sing dtor) m.world e.at_ with
        | some w => (if (o.own && decide ((c.cls sing dtor).policy = .refcount)) = true then
            Lifetime.release m.world e.at_ else m.world, w)
        | none => (Lifetime.createWrapper (c.cls sing dtor) o m.world e.at_ e.fresh, m.world.next) : World × Nat)
      m'.py = some r.2 ∧ m'.world = r.1 := by
    intro b hb hk
    subst hb
    dsimp only
    unfold Lifetime.lookup
    rw [e2, hdrop]
    cases hx : (if c.registry.isSome then m.world.reg e.at_ else none) with
    | some w =>
      rw [hx] at hk
      dsimp only at hk ⊢
      exact ⟨hk.py, old w false hk⟩
    | none =>
      rw [hx] at hk
      dsimp only at hk ⊢
      exact ⟨hk.py, fresh hk⟩
  have goal : ∀ r : World × Nat, (m'.py = some r.2 ∧ m'.world = r.1) →
      m'.py = some r.2 ∧ (if o.freeAfterCopy then Lifetime.release m'.world e.at_ else m'.world) =
        if o.freeAfterCopy then Lifetime.release r.1 e.at_ else r.1 := by
    rintro r ⟨h1, h2⟩
    exact ⟨h1, by rw [h2]⟩
  cases hh : c.helper.isSome with
  | false =>
    rw [hh, if_neg (by simp)] at hc
    exact goal _ (known _ (by simp [viaHelper, hh]) hc)
  | true =>
    rw [hh, if_pos rfl] at hc
    cases hsame : e.same with
    | none =>
      rw [hsame] at hc
      exact goal _ (known _ (by simp [viaHelper, hsame]) hc)
    | some w =>
      rw [hsame] at hc
      refine goal (_, w) ⟨hc.py, ?_⟩
      rw [old w _ hc, hdrop]
      simp [viaHelper, hh, hsame]

end Verif.Returns
