import Verif.Handlers.Result
import Verif.Wrapper.ReverseExec
import Verif.Wrapper.Proxy

/-!
# C95: objects returned by Python overrides
-/
namespace Verif.Overrides
open Verif Verif.Lifetime Verif.Handlers
open Verif.Wrap (Gen1 W)
open Verif.Returns (RCls)

/-! ## Specification -/

/-- The Python method returned the live wrapper `p` of the live object `o` at `a`; the result itself
is one of the references to the wrapper. -/
structure Returned (s : S) (p : Wid) (a : Addr) (o : Obj) : Prop where
  fault : s.m.fault = false
  live : (s.m.w.ws p).live = true
  obj : (s.m.w.ws p).obj = some a
  heap : s.m.w.heap a = some o
  refs : 0 < s.m.rc p

/-- What merely dropping the result does. -/
def dropped (c : Cls) (s : S) (p : Wid) : M := s.m.decrefPy c p

/-- C++ received the pointer `r`: nothing went wrong, the object is there, has the content of the
object the override returned and C++ holds a reference to it. -/
structure Owned (s s' : S) (a r : Addr) : Prop where
  fault : s'.m.fault = false
  bad : s'.m.w.bad = s.m.w.bad
  held : ∃ o, s'.m.w.heap r = some o ∧ 0 < o.cpp
  content : s'.val r = s.val a

/-! ## Proofs -/

theorem exec_one (e : REnv) (p : Wid) (j : J) (js : List J) (s : S) (h : s.m.fault = false) :
    execAll e p (j :: js) s = execAll e p js (j.exec e p s) := by
  simp [execAll, h]

theorem onObj_ok {s : S} {p : Wid} {a : Addr} {o : Obj} (h : Returned s p a o) (f : Addr → S) :
    s.onObj p f = f a := by
  simp [S.onObj, h.obj, h.heap]

/-- **C95, by value.**  C++ gets a copy of the object, and everything else is as if the result had
merely been dropped. -/
theorem C95_value (c : RCls) (l : List J) (hl : (RKind.value false).code c = .ok l) (e : REnv) (s : S)
    (p : Wid) (a : Addr) (o : Obj) (h : Returned s p a o) :
    runResult (.value false) l e (some p) s =
      ({ s with m := dropped e.c s p, out := .object (s.val a) }, .object (s.val a)) := by
  cases hl
  simp [runResult, execAll, J.exec, onObj_ok h, RKind.result, h.fault, dropped]

/-- Dropping a reference when others remain changes a count and nothing else. -/
theorem decref_others (c : Cls) (m : M) (p : Wid) (hl : (m.w.ws p).live = true) (h : 1 < m.rc p) :
    m.decrefPy c p = { m with rc := upd m.rc p (m.rc p - 1) } := by
  have : ¬ m.rc p ≤ 1 := by omega
  simp [M.decrefPy, hl, this]

theorem decref_dies (c : Cls) (m : M) (p : Wid) (hl : (m.w.ws p).live = true) (h : m.rc p ≤ 1) :
    m.decrefPy c p = { m with rc := upd m.rc p 0, w := dealloc c m.w p } := by
  simp [M.decrefPy, hl, h]

/-- The death of a wrapper does not touch objects other than its own. -/
theorem dealloc_other (c : Cls) (s : World) (p : Wid) (a x : Addr) (h : (s.ws p).obj = some a) (hx : x ≠ a) :
    (dealloc c s p).heap x = s.heap x := by
  rw [C45_dealloc, h]
  dsimp only
  split
  · unfold release
    split
    · rfl
    · split <;> exact upd_ne _ _ hx
  · rfl

theorem dealloc_ok (c : Cls) (s : World) (p : Wid) (a : Addr) (h : (s.ws p).obj = some a)
    (ha : s.heap a ≠ none) : (dealloc c s p).bad = s.bad := by
  rw [dealloc_bad, h]
  dsimp only
  split
  · exact Returns.release_bad ha
  · rfl

/-- Allocating elsewhere commutes with the death of a wrapper. -/
theorem dealloc_frame (c : Cls) (s : World) (p : Wid) (b : Addr) (o : Obj) (a : Addr)
    (h : (s.ws p).obj = some a) (hb : b ≠ a) :
    (dealloc c { s with heap := upd s.heap b (some o) } p).heap = upd (dealloc c s p).heap b (some o) ∧
    (dealloc c { s with heap := upd s.heap b (some o) } p).ws = (dealloc c s p).ws ∧
    (dealloc c { s with heap := upd s.heap b (some o) } p).reg = (dealloc c s p).reg := by
  refine ⟨?_, ?_, ?_⟩
  · rw [C45_dealloc, C45_dealloc]
    dsimp only
    rw [h]
    dsimp only
    split
    · unfold release
      dsimp only
      rw [upd_ne _ _ (Ne.symm hb)]
      cases s.heap a with
      | none => rfl
      | some x =>
        dsimp only
        split <;> (funext z; simp only [upd_apply]; by_cases h1 : z = a <;> by_cases h2 : z = b <;> simp [h1, h2] <;> intro h3 <;> simp_all)
    · rfl
  all_goals
    have hrel : ∀ (t : World) (a : Addr), (release t a).ws = t.ws ∧ (release t a).reg = t.reg := by
      intro t a
      unfold release
      split
      · exact ⟨rfl, rfl⟩
      · split <;> exact ⟨rfl, rfl⟩
    cases hr : c.registry <;> cases hs : c.singleton <;> cases hp : c.policy <;> cases hd : c.dtorPublic <;>
      cases hn : (s.ws p).notOwned <;>
      simp [dealloc, deleteCode, unregister, h, hr, hs, hp, hd, hn, hrel, setObj]

/-- **C95, pointers the caller owns, classes that can be copied.**  C++ gets a new copy; everything
else is as if the result had merely been dropped. -/
theorem C95_pointer_copy (c : RCls) (const : Bool) (hcnt : c.policy.counted = false)
    (hcopy : Returns.copyValue c = .ok [.create]) (l : List J) (hl : (RKind.ptr true const).code c = .ok l)
    (e : REnv) (s : S) (p : Wid) (a : Addr) (o : Obj) (h : Returned s p a o) (hb : s.m.w.heap e.b = none) :
    let r := runResult (.ptr true const) l e (some p) s
    r.2 = .pointer (some e.b) ∧ Owned s r.1 a e.b ∧
      r.1.m.w.heap = upd (dropped e.c s p).w.heap e.b (some ⟨1, 1, none⟩) ∧
      r.1.m.w.ws = (dropped e.c s p).w.ws ∧ r.1.m.w.reg = (dropped e.c s p).w.reg ∧
      r.1.m.rc = (dropped e.c s p).rc ∧ (∀ x, x ≠ e.b → r.1.val x = s.val x) := by
  have hba : e.b ≠ a := fun hh => by rw [hh, h.heap] at hb; cases hb
  have hex : execAll e p l s =
      { m := { s.m with w := { s.m.w with heap := upd s.m.w.heap e.b (some ⟨1, 1, none⟩) } }
        val := upd s.val e.b (s.val a), out := .pointer (some e.b) } := by
    unfold RKind.code at hl
    dsimp only at hl
    rw [if_pos rfl, hcnt, if_pos (show (!false) = true from rfl), hcopy] at hl
    cases hl
    rw [exec_one e p _ _ s h.fault]
    have : J.exec e p s .newCopy =
      { m := { s.m with w := { s.m.w with heap := upd s.m.w.heap e.b (some ⟨1, 1, none⟩) } }
        val := upd s.val e.b (s.val a), out := .pointer (some e.b) } := by
      simp [J.exec, onObj_ok h, cppGains, alloc, upd_upd]
    rw [this]
    cases c.post <;> simp [execAll, J.exec, h.fault]
  have hl' := h.live
  intro r
  have hr : r = ({ m := M.decrefPy e.c { s.m with w := { s.m.w with heap := upd s.m.w.heap e.b (some ⟨1, 1, none⟩) } } p
                   val := upd s.val e.b (s.val a), out := .pointer (some e.b) }, .pointer (some e.b)) := by
    simp only [r, runResult, hex, h.fault, RKind.result]
    rfl
  rw [hr]
  dsimp only
  by_cases h1 : 1 < s.m.rc p
  · rw [decref_others e.c { s.m with w := { s.m.w with heap := upd s.m.w.heap e.b (some ⟨1, 1, none⟩) } } p hl' h1]
    unfold dropped
    rw [decref_others e.c s.m p hl' h1]
    exact ⟨rfl, ⟨h.fault, rfl, ⟨_, upd_same .., Nat.one_pos⟩, upd_same ..⟩, rfl, rfl, rfl, rfl,
      fun x hx => upd_ne _ _ hx⟩
  · rw [decref_dies e.c { s.m with w := { s.m.w with heap := upd s.m.w.heap e.b (some ⟨1, 1, none⟩) } } p hl'
      (show s.m.rc p ≤ 1 by omega)]
    unfold dropped
    rw [decref_dies e.c s.m p hl' (by omega)]
    obtain ⟨f1, f2, f3⟩ := dealloc_frame e.c s.m.w p e.b ⟨1, 1, none⟩ a h.obj hba
    refine ⟨rfl, ⟨h.fault, ?_, ⟨⟨1, 1, none⟩, ?_, Nat.one_pos⟩, upd_same ..⟩, f1, f2, f3, rfl,
      fun x hx => upd_ne _ _ hx⟩
    · exact dealloc_ok _ _ _ a h.obj (by dsimp only; rw [upd_ne _ _ (Ne.symm hba), h.heap]; nofun)
    · dsimp only; rw [f1, upd_same]

/-- The heap after the wrapper `p` (of the object at `a`, which has `o'`) is dropped. -/
theorem dropped_heap {e : Cls} (hf : Freeable e) (m : M) (p : Wid) (a : Addr) (o : Obj)
    (hl : (m.w.ws p).live = true) (ho : (m.w.ws p).obj = some a) (hh : m.w.heap a = some o)
    (hn : (m.w.ws p).notOwned = false) (h2 : 2 ≤ o.refs) :
    (m.decrefPy e p).w.heap = upd m.w.heap a (some { o with refs := if m.rc p ≤ 1 then o.refs - 1 else o.refs }) ∧
      (m.decrefPy e p).w.bad = m.w.bad ∧ (m.decrefPy e p).fault = m.fault := by
  by_cases h1 : 1 < m.rc p
  · rw [decref_others _ _ _ hl h1, if_neg (by omega)]
    refine ⟨?_, rfl, rfl⟩
    funext x
    simp only [upd_apply]
    split
    · rename_i hx; rw [hx, hh]
    · rfl
  · rw [decref_dies _ _ _ hl (by omega), if_pos (by omega)]
    obtain ⟨d1, d2⟩ := dealloc_shared (c := e) hf ho hn hh h2
    exact ⟨d1, d2, rfl⟩

/-- **C95, pointers to reference counted objects the caller owns.**  C++ gets the object itself with
one more reference; the wrapper, if this was its last use, gives up its own. -/
theorem C95_pointer_counted (c : RCls) (const : Bool) (hcnt : c.policy.counted = true) (l : List J)
    (hl : (RKind.ptr true const).code c = .ok l) (e : REnv) (hs : e.smart = false) (hf : Freeable e.c)
    (s : S) (p : Wid) (a : Addr) (o : Obj) (h : Returned s p a o) (hn : (s.m.w.ws p).notOwned = false)
    (hr : 0 < o.refs) :
    let r := runResult (.ptr true const) l e (some p) s
    r.2 = .pointer (some a) ∧ Owned s r.1 a a ∧
      r.1.m.w.heap = upd s.m.w.heap a (some { o with
        refs := if s.m.rc p ≤ 1 then o.refs else o.refs + 1, cpp := o.cpp + 1 }) ∧
      r.1.val = s.val := by
  have hex : execAll e p l s =
      { m := { s.m with w := { s.m.w with heap := upd s.m.w.heap a (some { o with refs := o.refs + 1, cpp := o.cpp + 1 }) } }
        val := s.val, out := .pointer (some a) } := by
    unfold RKind.code at hl
    dsimp only at hl
    rw [if_pos rfl, hcnt, if_neg (by simp)] at hl
    cases hl
    rw [exec_one e p _ _ s h.fault]
    have h1 : J.exec e p s .increfObj =
        { s with m := { s.m with w := { s.m.w with heap := upd s.m.w.heap a (some { o with refs := o.refs + 1, cpp := o.cpp + 1 }) } } } := by
      simp [J.exec, onObj_ok h, cppGains, incref, h.heap, upd_upd]
    rw [h1]
    cases const <;> simp [execAll, J.exec, S.take, hs, h.obj, h.fault]
  obtain ⟨d1, d2, d3⟩ := dropped_heap hf
    { s.m with w := { s.m.w with heap := upd s.m.w.heap a (some { o with refs := o.refs + 1, cpp := o.cpp + 1 }) } }
    p a _ h.live h.obj (upd_same ..) hn (by dsimp only; omega)
  intro r
  have hrr : r = ({ m := M.decrefPy e.c { s.m with w := { s.m.w with heap := upd s.m.w.heap a (some { o with refs := o.refs + 1, cpp := o.cpp + 1 }) } } p
                    val := s.val, out := .pointer (some a) }, .pointer (some a)) := by
    simp only [r, runResult, hex, h.fault, RKind.result]
    rfl
  rw [hrr]
  dsimp only at d1 d2 d3 ⊢
  rw [upd_upd] at d1
  refine ⟨rfl, ⟨by rw [d3, h.fault], d2, ⟨{ o with refs := if s.m.rc p ≤ 1 then o.refs else o.refs + 1, cpp := o.cpp + 1 }, ?_, Nat.succ_pos _⟩, rfl⟩, ?_, rfl⟩
  · rw [d1, upd_same, Nat.add_sub_cancel]
  · rw [d1, Nat.add_sub_cancel]

/-- **C95, shared pointers.**  C++ gets a share of the object. -/
theorem C95_shared (c : RCls) (l : List J) (hl : RKind.shared.code c = .ok l) (e : REnv) (hs : e.smart = true)
    (hf : Freeable e.c) (s : S) (p : Wid) (a : Addr) (o : Obj) (h : Returned s p a o)
    (hn : (s.m.w.ws p).notOwned = false) (hr : 0 < o.refs) :
    let r := runResult .shared l e (some p) s
    r.2 = .pointer (some a) ∧ Owned s r.1 a a ∧
      r.1.m.w.heap = upd s.m.w.heap a (some { o with
        refs := if s.m.rc p ≤ 1 then o.refs else o.refs + 1, cpp := o.cpp + 1 }) ∧
      r.1.val = s.val := by
  cases hl
  have hex : execAll e p [.assign] s =
      { m := { s.m with w := { s.m.w with heap := upd s.m.w.heap a (some { o with refs := o.refs + 1, cpp := o.cpp + 1 }) } }
        val := s.val, out := .pointer (some a) } := by
    simp [execAll, h.fault, J.exec, S.take, hs, h.obj, cppGains, incref, h.heap, upd_upd]
  obtain ⟨d1, d2, d3⟩ := dropped_heap hf
    { s.m with w := { s.m.w with heap := upd s.m.w.heap a (some { o with refs := o.refs + 1, cpp := o.cpp + 1 }) } }
    p a _ h.live h.obj (upd_same ..) hn (by dsimp only; omega)
  intro r
  have hrr : r = ({ m := M.decrefPy e.c { s.m with w := { s.m.w with heap := upd s.m.w.heap a (some { o with refs := o.refs + 1, cpp := o.cpp + 1 }) } } p
                    val := s.val, out := .pointer (some a) }, .pointer (some a)) := by
    simp only [r, runResult, hex, h.fault, RKind.result]
    rfl
  rw [hrr]
  dsimp only at d1 d2 d3 ⊢
  rw [upd_upd] at d1
  refine ⟨rfl, ⟨by rw [d3, h.fault], d2, ⟨{ o with refs := if s.m.rc p ≤ 1 then o.refs else o.refs + 1, cpp := o.cpp + 1 }, ?_, Nat.succ_pos _⟩, rfl⟩, ?_, rfl⟩
  · rw [d1, upd_same, Nat.add_sub_cancel]
  · rw [d1, Nat.add_sub_cancel]

/-- **C95, pointers the caller owns, classes that cannot be copied.**  C++ takes over the object; the
wrapper no longer has one.  What is missing: objects the wrapper does not own
(`C95_borrowed_object_counterexample`) and the wrapper registry (`C95_registry_counterexample`). -/
theorem C95_pointer_steal_partial (c : RCls) (const : Bool) (hcnt : c.policy.counted = false)
    (hcopy : Returns.copyValue c = .error .codeGenerationError) (l : List J)
    (hl : (RKind.ptr true const).code c = .ok l) (e : REnv) (hs : e.smart = false)
    (s : S) (p : Wid) (a : Addr) (o : Obj) (h : Returned s p a o) (hn : (s.m.w.ws p).notOwned = false) :
    let r := runResult (.ptr true const) l e (some p) s
    r.2 = .pointer (some a) ∧ Owned s r.1 a a ∧
      r.1.m.w.heap = upd s.m.w.heap a (some { o with cpp := o.cpp + 1 }) ∧
      (r.1.m.w.ws p).obj = none ∧ (∀ q, q ≠ p → r.1.m.w.ws q = s.m.w.ws q) ∧ r.1.val = s.val := by
  have hl' := h.live
  have hex : execAll e p l s =
      { m := { s.m with w := { setObj s.m.w p none with heap := upd s.m.w.heap a (some { o with cpp := o.cpp + 1 }) } }
        val := s.val, out := .pointer (some a) } := by
    unfold RKind.code at hl
    dsimp only at hl
    rw [if_pos rfl, hcnt, if_pos (show (!false) = true from rfl), hcopy] at hl
    cases hl
    simp [execAll, h.fault, J.exec, S.take, hs, h.obj, hn, cppGains, setObj, h.heap]
  intro r
  have hrr : r = ({ m := M.decrefPy e.c { s.m with w := { setObj s.m.w p none with heap := upd s.m.w.heap a (some { o with cpp := o.cpp + 1 }) } } p
                    val := s.val, out := .pointer (some a) }, .pointer (some a)) := by
    simp only [r, runResult, hex, h.fault, RKind.result]
    rfl
  rw [hrr]
  dsimp only
  have hlv : ((setObj s.m.w p none).ws p).live = true := by simp [setObj, hl']
  by_cases h1 : 1 < s.m.rc p
  · rw [decref_others e.c { s.m with w := { setObj s.m.w p none with heap := upd s.m.w.heap a (some { o with cpp := o.cpp + 1 }) } } p hlv h1]
    refine ⟨rfl, ⟨h.fault, rfl, ⟨_, upd_same .., Nat.succ_pos _⟩, rfl⟩, rfl, ?_, fun q hq => ?_, rfl⟩
    · simp [setObj]
    · exact upd_ne _ _ hq
  · rw [decref_dies e.c { s.m with w := { setObj s.m.w p none with heap := upd s.m.w.heap a (some { o with cpp := o.cpp + 1 }) } } p hlv
      (show s.m.rc p ≤ 1 by omega)]
    have ho : (({ setObj s.m.w p none with heap := upd s.m.w.heap a (some { o with cpp := o.cpp + 1 }) } : World).ws p).obj = none := by
      simp [setObj]
    obtain ⟨d1, d2⟩ := dealloc_null (c := e.c) ho
    have d3 := dealloc_rest e.c ({ setObj s.m.w p none with heap := upd s.m.w.heap a (some { o with cpp := o.cpp + 1 }) } : World) p
    refine ⟨rfl, ⟨h.fault, d2, ⟨{ o with cpp := o.cpp + 1 }, by rw [d1]; exact upd_same .., Nat.succ_pos _⟩, rfl⟩,
      d1, ?_, fun q hq => ?_, rfl⟩
    · have hrel : ∀ (t : World) (x : Addr), (release t x).ws = t.ws := by
        intro t x; unfold release; split
        · rfl
        · split <;> rfl
      simp only [dealloc, deleteCode]
      cases e.c.singleton <;> cases e.c.policy <;> cases e.c.dtorPublic <;>
        simp [unregister, setObj] <;> (split <;> simp [unregister, setObj])
    · dsimp only
      rw [d3.1 q hq]
      exact upd_ne _ _ hq

/-- **C95, pointers the caller does not own.**  If the program keeps the wrapper alive, C++ gets its
object, and only the count of the wrapper changes.  What is missing: results nobody else holds
(`C95_dangerous_counterexample`). -/
theorem C95_pointer_borrowed_partial (c : RCls) (const : Bool) (l : List J)
    (hl : (RKind.ptr false const).code c = .ok l) (e : REnv) (hs : e.smart = false) (s : S) (p : Wid) (a : Addr)
    (o : Obj) (h : Returned s p a o) (h2 : 1 < s.m.rc p) :
    runResult (.ptr false const) l e (some p) s =
      ({ s with m := { s.m with rc := upd s.m.rc p (s.m.rc p - 1) }, out := .pointer (some a) },
        .pointer (some a)) := by
  cases hl
  simp [runResult, execAll, J.exec, S.take, hs, h.obj, RKind.result, h.fault, decref_others _ _ _ h.live h2]

/-- **C95, other objects are refused.**  Nothing is converted, and the error value (or the parent's
method) is what C++ gets. -/
theorem C95_refused (k : RKind) (l : List J) (e : REnv) (s : S) :
    runResult k l e none s = (s, .refused) := rfl

/-! ## The text -/

/-- **C95, the generated code.**  The handler declares a variable for the wrapper, asks for an instance
of the class (`O!`) in it, and writes its statements to the block that runs after parsing. -/
theorem C95_written (k : RKind) (c : RCls) (w w' : W) (h : k.convert c w = .ok w') :
    ∃ l tmp, k.code c = .ok l ∧ w'.ops = w.ops ++ l.map (fun j => Flow.Op.write 1 (j.text c tmp)) ∧
      w'.parse = w.parse ++ [⟨"O!".toList, ['&' :: c.pytype, '&' :: tmp], none, false⟩] ∧
      w'.build = w.build := by
  unfold RKind.convert at h
  obtain ⟨l, hl, h⟩ := Wrap.bind_ok.mp h
  obtain ⟨⟨w1, tmp⟩, h1, h⟩ := Wrap.bind_ok.mp h
  cases h
  refine ⟨l, tmp, hl, ?_, ?_, ?_⟩
  · dsimp only [Wrap.W.addParse]
    rw [Wrap.declare_ops h1]
  · dsimp only [Wrap.W.addParse]
    rw [Wrap.declare_parse h1]
    rfl
  · dsimp only [Wrap.W.addParse]
    rw [Wrap.declare_build h1]

/-- So C43 covers methods returning objects. -/
theorem opsIn_class (R : Str → Prop) (k : RKind) (c : RCls) : Wrap.OpsIn (Flow.Tidy R) (k.convert c) := by
  intro w w' h
  obtain ⟨l, tmp, _, ho, _, _⟩ := C95_written k c w w' h
  exact ⟨_, ho, by simp [Flow.Tidy]⟩

/-- **C95, the GIL.**  A proxy of a method returning an object takes the GIL first and releases it last. -/
theorem C95_gil (p : Wrap.Proxy) (hs : p.Safe) (retDecl : Option Str) (params : List Gen1) (k : RKind) (c : RCls)
    (hparams : ∀ q ∈ params, Wrap.OpsIn (Flow.Tidy Wrap.IsReturn) q)
    (her : Wrap.IsReturn p.errorReturn) (w0 w : W) (h0 : w0.ops = [])
    (h : Wrap.reverseGenerate (p.config retDecl params (k.convert c)) w0 = .ok w) :
    ∃ v, ∀ t, Flow.Path (((Flow.Gen.fresh (fun _ => p.errorReturn)).run w.ops).body 2) t →
      ∃ mid r, t = .did (.code (Wrap.ensureText v)) :: .took 0 1 (Wrap.releaseText v) ::
        (mid ++ [.did (.clean 0 1 (Wrap.releaseText v)), .did (.ret r)]) ∧ Flow.Busy mid ∧ Wrap.IsReturn r :=
  Wrap.C43_proxy_partial p hs retDecl params _ hparams (opsIn_class _ k c) her w0 w h0 h

/-- **C95, what is refused when the code is generated.**  References that are not constant; nothing
else. -/
theorem C95_supported (k : RKind) (c : RCls) :
    (∃ l, k.code c = .ok l) ↔ k ≠ .value true ∧ k ≠ .ref true false := by
  cases k with
  | value r => cases r <;> simp [RKind.code]
  | ref r t => cases r <;> cases t <;> simp [RKind.code]
  | shared => simp [RKind.code]
  | ptr own const =>
    simp only [RKind.code]
    cases own
    · simp
    · cases c.policy.counted
      · rcases hc : Returns.copyValue c with x | x
        · have : x = .codeGenerationError := by
            unfold Returns.copyValue Returns.createInstance at hc
            split at hc
            · cases hc; rfl
            · split at hc
              · cases hc; rfl
              · split at hc
                · cases hc; rfl
                · cases hc
          subst this
          simp
        · simp
      · simp

/-- **C95, C++ accepts the code** except for plain pointers to classes kept in smart pointers. -/
theorem C95_compiles_partial (k : RKind) (c : RCls) (l : List J) (h : k.code c = .ok l)
    (hs : (∃ o t, k = .ptr o t) → c.policy.isSmart = false) (hp : k = .shared → c.policy.isSmart = true) :
    ∀ j ∈ l, j.typed c k = true := by
  cases k with
  | value r =>
    simp only [RKind.code] at h
    split at h
    · cases h
    · cases h; simp [J.typed]
  | ref r t =>
    simp only [RKind.code] at h
    split at h
    · cases h
    · cases h; simp [J.typed]
  | shared => cases h; simp [J.typed, hp rfl]
  | ptr own const =>
    have hs' := hs ⟨_, _, rfl⟩
    intro j hj
    have : j.typed c (.ptr own const) = true := by
      cases j <;> simp [J.typed, hs']
    exact this

/-! ## Where the claim is false -/

/-- A class of the examples. -/
def resCls : Cls := { policy := .none, singleton := false, dtorPublic := true, hasCopy := false, helper := false, registry := true }

/-- Wrapper 0 owns the object at 7, is registered, and the result of the override is its only
reference. -/
def resState : S :=
  { m := { w := { ws := upd (fun _ => ⟨false, none, false, false⟩) 0 ⟨true, some 7, false, false⟩, next := 1
                  reg := upd (fun _ => none) 7 (some 0), heap := upd (fun _ => none) 7 (some ⟨1, 0, none⟩), bad := false }
           rc := upd (fun _ => 0) 0 1 }
    val := fun x => x + 100 }

example : Returned resState 0 7 ⟨1, 0, none⟩ := ⟨rfl, rfl, rfl, rfl, by decide⟩

def resRCls : RCls :=
  { name := "K".toList, fullName := "ns::K".toList, pystruct := "PyNsK".toList, pytype := "PyNsK_Type".toList, hasCopy := false }

/-- A method declared to return a constant reference returns a reference to its own variable. -/
theorem C95_reference_counterexample (c : RCls) (const : Bool) (l : List J) (hl : (RKind.ref true const).code c = .ok l)
    (e : REnv) (s : S) (p : Wid) (a : Addr) (o : Obj) (h : Returned s p a o) :
    (runResult (.ref true const) l e (some p) s).2 = .dangling := by
  have : l = [.copyLocal] := by
    simp only [RKind.code] at hl
    split at hl
    · cases hl
    · cases hl; rfl
  subst this
  simp [runResult, execAll, J.exec, onObj_ok h, RKind.result, h.fault]

/-- A pointer the caller does not own dangles when the override returned an object nobody else
holds: the object is destroyed before the method returns. -/
theorem C95_dangerous_counterexample :
    let r := runResult (.ptr false false) [.dangerous] ⟨resCls, false, 8⟩ (some 0) resState
    (RKind.ptr false false).code resRCls = .ok [.dangerous] ∧
    r.2 = .pointer (some 7) ∧ r.1.m.w.heap 7 = none := by decide +kernel

/-- An object that cannot be copied is taken from its wrapper, but the registry keeps the wrapper,
which is freed: the next time C++ returns the object, Python gets freed memory. -/
theorem C95_registry_counterexample :
    let r := runResult (.ptr true false) [.assign, .clearObj] ⟨resCls, false, 8⟩ (some 0) resState
    (RKind.ptr true false).code resRCls = .ok [.assign, .clearObj] ∧
    r.2 = .pointer (some 7) ∧ (r.1.m.w.heap 7).isSome = true ∧
    Lifetime.lookup resCls r.1.m.w 7 = some 0 ∧ (r.1.m.w.ws 0).live = false := by decide +kernel

/-- An object its wrapper only borrows, from C++ code that owns it, is given to a second owner. -/
theorem C95_borrowed_object_counterexample :
    let s : S := { resState with m := { resState.m with w := { resState.m.w with
      ws := upd (fun _ => ⟨false, none, false, false⟩) 0 ⟨true, some 7, true, false⟩
      heap := upd (fun _ => none) 7 (some ⟨1, 1, none⟩) } } }
    let r := runResult (.ptr true false) [.assign, .clearObj] ⟨resCls, false, 8⟩ (some 0) s
    Returned s 0 7 ⟨1, 1, none⟩ ∧ r.2 = .pointer (some 7) ∧
      -- no reference was added for the new owner
      r.1.m.w.heap 7 = some ⟨1, 1, none⟩ := by
  refine ⟨⟨rfl, rfl, rfl, rfl, by decide⟩, by decide +kernel, by decide +kernel⟩

/-- A wrapper without object (`__init__` was not called, or the object was given away) crashes the
process when it is returned by value or as a copy. -/
theorem C95_empty_counterexample :
    let s : S := { resState with m := { resState.m with w := Lifetime.setObj resState.m.w 0 none } }
    (runResult (.value false) [.copyLocal] ⟨resCls, false, 8⟩ (some 0) s).1.m.fault = true ∧
    (runResult (.ptr true false) [.newCopy] ⟨resCls, false, 8⟩ (some 0) s).1.m.fault = true := by
  decide +kernel

/-- For classes kept in smart pointers, a method returning a plain pointer does not compile. -/
theorem C95_smart_pointer_counterexample (c : RCls) (hs : c.policy.isSmart = true) (own const : Bool) (l : List J)
    (hl : (RKind.ptr own const).code c = .ok l) : ∃ j ∈ l, j.typed c (.ptr own const) = false := by
  have hc : c.policy.counted = false := by
    cases hp : c.policy <;> simp [hp, Returns.Pol.isSmart] at hs <;> rfl
  simp only [RKind.code] at hl
  cases own with
  | false =>
    rw [if_neg (by simp)] at hl
    cases hl
    exact ⟨_, List.mem_cons_self, by simp [J.typed, hs]⟩
  | true =>
    rw [if_pos rfl, hc, if_pos (show (!false) = true from rfl)] at hl
    split at hl
    · cases hl; exact ⟨_, List.mem_cons_self, by simp [J.typed, hs]⟩
    · cases hl; exact ⟨_, List.mem_cons_self, by simp [J.typed, hs]⟩
    · cases hl

/-- Non-vacuity of the theorems above, on a class that can be copied and one that is counted. -/
example : (RKind.ptr true false).code { resRCls with hasCopy := true } = .ok [.newCopy] ∧
    (RKind.ptr true true).code { resRCls with policy := .methods "Ref".toList "Unref".toList } =
      .ok [.increfObj, .castAssign] ∧
    (runResult (.ptr true false) [.newCopy] ⟨resCls, false, 8⟩ (some 0) resState).2 = .pointer (some 8) ∧
    (runResult (.ptr true false) [.newCopy] ⟨resCls, false, 8⟩ (some 0) resState).1.val 8 = 107 ∧
    (runResult (.value false) [.copyLocal] ⟨resCls, false, 8⟩ (some 0) resState).2 = .object 107 := by
  decide +kernel

example : (Wrap.reverseGenerate (Wrap.proxyExample.config none [] ((RKind.value false).convert resRCls)) {}).toOption.map
    (fun w => w.ops.reverse.take 3) = some [.ret 1 "return retval;".toList, .cleanup 1,
      .check 0 "!PyArg_ParseTuple(py_retval, (char *) \"O!\", &PyNsK_Type, &tmp_K)".toList (some "PyErr_Print();".toList)] := by
  decide +kernel

end Verif.Overrides
