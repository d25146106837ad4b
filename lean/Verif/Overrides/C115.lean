import Verif.Overrides.Props

/-!
# C115: where it fails, and examples
-/
namespace Verif.Replies
open Verif
open Verif.Returns (RCls Pol copyValue)
open Verif.Lifetime (World Cls Ev upd upd_same Bal Owns owners referencing owning)

/-! ### Counterexamples that hold in general -/

/-- **A plain pointer to a temporary dangles.**  If the object the override returned is owned by that Python
object alone, the pointer the C++ caller got points to freed memory as soon as the Python object goes — which,
for an object the override made, is when the proxy drops the result, before the caller has the pointer. -/
theorem C115_temporary_counterexample (c : RCls) (sing dtor : Bool) (hf : Lifetime.Freeable (cls c sing dtor)) (k : Bool)
    (code : List Stmt) (fresh stat : Nat) (m : M) (w a : Nat) (o : Lifetime.Obj)
    (hc : Form.code (.ptr false k) c = .ok code) (hn : m.null = false)
    (hw : Owns m.world w a = true) (ha : m.world.heap a = some o) (ho : o.refs = 1) :
    let r := convertResult (.ptr false k) c code (fun _ => true) fresh stat m (.inst w)
    r.2 = .pointer (some a) ∧ (Lifetime.step (cls c sing dtor) r.1.world (.dealloc w)).heap a = none := by
  obtain ⟨h1, -, -, h2, -⟩ := C115_plain_partial c k code (fun _ => true) fresh stat m w hc rfl hn
  have hobj : (m.world.ws w).obj = some a := by
    simp only [Owns, Lifetime.Wrapper.owns, Bool.and_eq_true, beq_iff_eq] at hw
    exact hw.1.2
  have hno : (m.world.ws w).notOwned = false := by
    simp only [Owns, Lifetime.Wrapper.owns, Bool.and_eq_true, Bool.not_eq_true'] at hw
    exact hw.2
  refine ⟨by rw [h1, hobj], ?_⟩
  rw [h2]
  show (Lifetime.dealloc _ m.world w).heap a = none
  unfold Lifetime.dealloc Lifetime.deleteCode
  dsimp only
  rw [if_neg (by rw [hf.1]; exact Bool.false_ne_true)]
  have hrel : ∀ s : World, s.heap a = some o → (Lifetime.release s a).heap a = none := by
    intro s hs
    unfold Lifetime.release
    rw [hs]
    simp [ho]
  cases hp : (cls c sing dtor).policy with
  | none =>
    simp only [hf.2 hp, if_true, Lifetime.unregister_ws, hno, hobj, Bool.false_eq_true, if_false]
    exact hrel _ (by simp [Lifetime.setObj, ha])
  | free =>
    simp only [Lifetime.unregister_ws, hobj]
    exact hrel _ (by simp [Lifetime.setObj, ha])
  | refcount =>
    simp only [Lifetime.unregister_ws, hobj]
    exact hrel _ (by simp [Lifetime.setObj, ha])

/-- **A constant reference always dangles**: whatever object the override returns, the caller gets a reference
to a local variable of the proxy. -/
theorem C115_reference_counterexample (c : RCls) (code : List Stmt) (isa : Nat → Bool) (fresh stat : Nat) (m : M) (w : Nat)
    (hi : isa w = true) : (convertResult (.ref true) c code isa fresh stat m (.inst w)).2 = .dangling := by
  simp [convertResult, hi, Form.result]

/-- **Copies are sliced**: what the caller gets by value, or by owned pointer where objects are copied, is
never of the class of the object returned if that is not the declared class — in particular never an instance
of a Python subclass whose methods are overridden in Python. -/
theorem C115_sliced_counterexample (c : RCls) (k : Bool) (code code' : List Stmt) (isa : Nat → Bool) (fresh stat : Nat)
    (m : M) (w a : Nat) (hv : Form.code (.value false) c = .ok code) (hc : Form.code (.ptr true k) c = .ok code')
    (hp : c.policy.counted = false) (hcp : Copyable c) (hi : isa w = true) (hn : m.null = false)
    (ho : (m.world.ws w).obj = some a) (ha : m.world.heap a ≠ none) (hd : m.dyn a ≠ stat) :
    (∀ v d, (convertResult (.value false) c code isa fresh stat m (.inst w)).2 = .value v d → d ≠ m.dyn a) ∧
    let r := convertResult (.ptr true k) c code' isa fresh stat m (.inst w)
    ∀ p, r.2 = .pointer (some p) → r.1.dyn p ≠ m.dyn a := by
  obtain ⟨h1, -⟩ := C115_value_partial c code isa fresh stat m w a hv hi hn ho ha
  obtain ⟨h2, -, h3, -⟩ := C115_owned_copy_partial c k code' isa fresh stat m w a hc hp hcp hi hn ho ha
  refine ⟨?_, ?_⟩
  · intro v d h
    rw [h1] at h
    cases h
    exact fun e => hd e.symm
  · intro r p h
    rw [h2] at h
    cases h
    rw [h3]
    exact fun e => hd e.symm

/-- **No null pointers**: `None`, which is what C++ null pointers become in the other direction, is refused by
every handler. -/
theorem C115_none_counterexample (f : Form) (c : RCls) (code : List Stmt) (isa : Nat → Bool) (fresh stat : Nat) (m : M) :
    (convertResult f c code isa fresh stat m .none).2 = .refused := rfl

/-- **A Python object without C++ object crashes** the program if it is returned by value, by constant
reference or (copied or counted) by owned pointer. -/
theorem C115_no_object_counterexample (f : Form) (c : RCls) (code : List Stmt) (isa : Nat → Bool) (fresh stat : Nat)
    (m : M) (w : Nat) (hc : f.code c = .ok code)
    (hf : f = .value false ∨ f = .ref true ∨ ∃ k, f = .ptr true k ∧ (c.policy.counted = true ∨ Copyable c))
    (hi : isa w = true) (hn : m.null = false) (ho : (m.world.ws w).obj = none) :
    (convertResult f c code isa fresh stat m (.inst w)).1.null = true := by
  have key : ∀ (s : Stmt) (ss : List Stmt), s = .copyLocal ∨ s = .create ∨ s = .incref →
      (execAll c ⟨w, fresh, stat⟩ { m with ptr := none, loc := none } (s :: ss)).null = true := by
    intro s ss hs
    have h1 : (s.exec c ⟨w, fresh, stat⟩ { m with ptr := none, loc := none }).null = true := by
      rcases hs with rfl | rfl | rfl <;> simp [Stmt.exec, M.deref, ho]
    have h2 : ∀ (m' : M) (ss : List Stmt), m'.null = true → execAll c ⟨w, fresh, stat⟩ m' ss = m' := by
      intro m' ss h
      cases ss with
      | nil => rfl
      | cons s ss => exact if_pos h
    unfold execAll
    rw [if_neg (by simp [hn]), h2 _ _ h1]
    exact h1
  have hh : ∀ m' : M, m'.null = true → (f.hand m').null = true := by
    intro m' h
    unfold Form.hand
    split
    · split <;> exact h
    · exact h
  simp only [convertResult, hi, if_true]
  apply hh
  rcases hf with rfl | rfl | ⟨k, rfl, h⟩
  · cases hc; exact key _ _ (.inl rfl)
  · cases hc; exact key _ _ (.inl rfl)
  · cases hp : c.policy.counted with
    | true =>
      simp only [Form.code, hp, Bool.not_true, Bool.false_eq_true, if_false, if_true] at hc
      cases hc; exact key _ _ (.inr (.inr rfl))
    | false =>
      obtain ⟨l, hl⟩ := copyValue_ok (h.resolve_left (by simp [hp]))
      simp only [Form.code, hp, hl, Bool.not_false, if_true] at hc
      cases hc; exact key _ _ (.inr (.inl rfl))

/-! ### Samples -/

/-- A class without memory policy. -/
def kcls : RCls :=
  { name := "K".toList, fullName := "K".toList, pystruct := "PyK".toList, pytype := "PyK_Type".toList,
    registry := some "K_wrapper_registry".toList }
/-- One that cannot be copied. -/
def kfixed : RCls := { kcls with hasCopy := false }
/-- One with reference counts. -/
def kcount : RCls := { kcls with policy := .methods "Ref".toList "Unref".toList }
/-- One held by smart pointers. -/
def kshared : RCls := { kcls with policy := .smart true }

/-- An event that leaves the contents alone. -/
def at0 (e : Ev) : Act := .ev e (fun a => a) (fun _ => 0)

/-- **A taken object stays registered**: no copy can be made, the override returns an object that Python owns,
C++ gets it; when C++ later hands out a reference to it, Python gets the old Python object, which has no C++
object any more. -/
theorem C115_stale_counterexample :
    let m := run kfixed false true start [at0 (.cppNew 1), at0 (.ret owning 1 9 none), .over (.ptr true false) 0 8 0]
    m.ptr = some 1 ∧ (m.world.heap 1).map (·.cpp) = some 1 ∧ m.world.bad = false ∧
    Lifetime.Ok (cls kfixed false true) m.world (.ret referencing 1 9 none) ∧
    Lifetime.GoodMem (cls kfixed false true) m.world (.ret referencing 1 9 none) ∧
    let r := Lifetime.retObj (cls kfixed false true) referencing m.world 1 9 none
    r.2 = 0 ∧ (r.1.ws 0).live = true ∧ (r.1.ws 0).obj = none := by
  refine ⟨rfl, rfl, rfl, ⟨rfl, ⟨⟨1, 1, none⟩, rfl, .inl rfl, by simp [referencing]⟩, rfl⟩,
    ⟨by simp [referencing], (by intro w h; cases h), fun _ => rfl, by simp [referencing]⟩, rfl, rfl, rfl⟩

/-- **An object that Python does not own is given away all the same**: C++ holds it and lends it to Python,
the override returns it, the caller is told it owns it; C++ gives up its two references, and the second time
the object is gone. -/
theorem C115_not_owned_counterexample :
    let m := run kfixed false true start [at0 (.cppNew 1), at0 (.ret referencing 1 9 none), .over (.ptr true false) 0 8 0]
    m.ptr = some 1 ∧ m.world.heap 1 = some ⟨1, 2, none⟩ ∧ m.world.bad = false ∧
    Lifetime.Ok (cls kfixed false true) m.world (.cppRelease 1) ∧
    (Lifetime.run (cls kfixed false true) m.world [.cppRelease 1, .cppRelease 1]).bad = true := by
  exact ⟨rfl, rfl, rfl, ⟨_, rfl, by decide⟩, rfl⟩

theorem good_sample (c : RCls) (f : Form) (b : Nat) (hf : f.gives = true) (hs : f = .shared ↔ c.policy.isSmart = true)
    (hc : ∃ code, f.code c = .ok code)
    (h1 : (run c false true start [at0 .pyNew, at0 (.pyInit 0 1 false)]).world.heap 8 = none)
    (h2 : ((run c false true start [at0 .pyNew, at0 (.pyInit 0 1 false), .over f 0 8 0]).world.ws 0).live = true)
    (h3 : ∀ a o, (run c false true start [at0 .pyNew, at0 (.pyInit 0 1 false), .over f 0 8 0]).world.heap a = some o →
      o.pyself ≠ some 0)
    (h4 : ∃ o, (run c false true start [at0 .pyNew, at0 (.pyInit 0 1 false), .over f 0 8 0,
      at0 (.dealloc 0)]).world.heap b = some o ∧ 0 < o.cpp) :
    GoodAll c false true start [at0 .pyNew, at0 (.pyInit 0 1 false), .over f 0 8 0, at0 (.dealloc 0), at0 (.cppRelease b)] := by
  refine ⟨⟨trivial, trivial⟩, ⟨⟨rfl, rfl, by simp⟩, rfl⟩, ⟨hc, ⟨rfl, 1, rfl, by simp [step, at0, start, Lifetime.step, Lifetime.pyInit, Lifetime.alloc]⟩, h1, hs, fun _ _ _ _ => rfl⟩,
    ⟨⟨h2, h3⟩, trivial⟩, ⟨h4, trivial⟩, trivial⟩


/-- Non-vacuity: Python makes an object, an override returns it with ownership, the Python object dies and C++
gives up what it got: a copy, a counted reference, the object itself, a smart pointer. -/
example : GoodAll kcls false true start [at0 .pyNew, at0 (.pyInit 0 1 false), .over (.ptr true false) 0 8 0,
    at0 (.dealloc 0), at0 (.cppRelease 8)] := by
  refine good_sample kcls _ 8 rfl (by simp [kcls, Pol.isSmart]) ⟨_, rfl⟩ rfl rfl ?_ ⟨_, rfl, by decide⟩
  intro a o h
  have : a = 1 ∨ a = 8 := by
    by_contra hc
    have hn : (run kcls false true start [at0 .pyNew, at0 (.pyInit 0 1 false), .over (.ptr true false) 0 8 0]).world.heap a
        = none := by
      simp only [not_or] at hc
      show upd (upd (upd (fun _ => none) 1 _) 8 _) 8 _ a = none
      rw [Lifetime.upd_ne _ _ hc.2, Lifetime.upd_ne _ _ hc.2, Lifetime.upd_ne _ _ hc.1]
    rw [hn] at h; cases h
  rcases this with rfl | rfl
  · cases h; simp
  · cases h; simp

example : GoodAll kcount false true start [at0 .pyNew, at0 (.pyInit 0 1 false), .over (.ptr true true) 0 8 0,
    at0 (.dealloc 0), at0 (.cppRelease 1)] := by
  refine good_sample kcount _ 1 rfl (by simp [kcount, kcls, Pol.isSmart]) ⟨_, rfl⟩ rfl rfl ?_ ⟨_, rfl, by decide⟩
  intro a o h
  by_cases h1 : a = 1
  · subst h1; cases h; simp
  · have hn : (run kcount false true start [at0 .pyNew, at0 (.pyInit 0 1 false), .over (.ptr true true) 0 8 0]).world.heap a
        = none := by
      show upd (upd (upd (fun _ => none) 1 _) 1 _) 1 _ a = none
      rw [Lifetime.upd_ne _ _ h1, Lifetime.upd_ne _ _ h1, Lifetime.upd_ne _ _ h1]
    rw [hn] at h; cases h

example : GoodAll kfixed false true start [at0 .pyNew, at0 (.pyInit 0 1 false), .over (.ptr true false) 0 8 0,
    at0 (.dealloc 0), at0 (.cppRelease 1)] := by
  refine good_sample kfixed _ 1 rfl (by simp [kfixed, kcls, Pol.isSmart]) ⟨_, rfl⟩ rfl rfl ?_ ⟨_, rfl, by decide⟩
  intro a o h
  by_cases h1 : a = 1
  · subst h1; cases h; simp
  · have hn : (run kfixed false true start [at0 .pyNew, at0 (.pyInit 0 1 false), .over (.ptr true false) 0 8 0]).world.heap a
        = none := by
      show upd (upd (fun _ => none) 1 _) 1 _ a = none
      rw [Lifetime.upd_ne _ _ h1, Lifetime.upd_ne _ _ h1]
    rw [hn] at h; cases h

example : GoodAll kshared false true start [at0 .pyNew, at0 (.pyInit 0 1 false), .over .shared 0 8 0,
    at0 (.dealloc 0), at0 (.cppRelease 1)] := by
  refine good_sample kshared _ 1 rfl (by simp [kshared, Pol.isSmart]) ⟨_, rfl⟩ rfl rfl ?_ ⟨_, rfl, by decide⟩
  intro a o h
  by_cases h1 : a = 1
  · subst h1; cases h; simp
  · have hn : (run kshared false true start [at0 .pyNew, at0 (.pyInit 0 1 false), .over .shared 0 8 0]).world.heap a
        = none := by
      show upd (upd (upd (fun _ => none) 1 _) 1 _) 1 _ a = none
      rw [Lifetime.upd_ne _ _ h1, Lifetime.upd_ne _ _ h1, Lifetime.upd_ne _ _ h1]
    rw [hn] at h; cases h

/-- The texts: `K *C::make()` with `caller_owns_return`, copied, taken, counted. -/
example : ((Form.ptr true false).code kcls).toOption.map (·.map (Stmt.text kcls "tmp_K".toList)) =
    some ["retval = new K(*tmp_K->obj);".toList] := by decide +kernel
example : ((Form.ptr true false).code kfixed).toOption.map (·.map (Stmt.text kfixed "tmp_K".toList)) =
    some ["retval = tmp_K->obj;".toList, "tmp_K->obj = NULL;".toList] := by decide +kernel
example : ((Form.ptr true true).code kcount).toOption.map (·.map (Stmt.text kcount "tmp_K".toList)) =
    some ["tmp_K->obj->Ref();".toList, "retval = const_cast< K* >(tmp_K->obj);".toList] := by decide +kernel

end Verif.Replies
