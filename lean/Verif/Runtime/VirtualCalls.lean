import Verif.ClassIter.Owner

/-!
# C108: virtual calls into Python and the lifetime of objects

While the Python override of a virtual method runs, the proxy has set `obj` of the Python object to the C++
object the call was made on; afterwards it puts back what was there (cppmethod.py:1110-1122, the order on
every path being that of `C108_release_every_path_partial`).  Overrides may do anything Python can do,
including calls that end in further virtual calls on the same or other objects.
-/
namespace Verif.VirtualCalls
open Verif.Lifetime
open Verif.ClassIter (Spares owns_step owns_heap owns_obj owns_live)

/-- What can happen: the events of `Runtime/Lifetime.lean`, and virtual calls on the helper object at `a`,
whose Python object is `w`, dispatched to a Python override which does what `body` says. -/
inductive Act where
  | ev (e : Ev)
  | call (w a : Nat) (body : List Act)

/-- `self_obj_before = m_pyself->obj; m_pyself->obj = this;` (cppmethod.py:1110-1120). -/
def enter (s : World) (w a : Nat) : World := setObj s w (some a)

/-- The cleanup `m_pyself->obj = self_obj_before;` (cppmethod.py:1121-1122).  `m_pyself` is a member of the
object at `a`: if that is gone, or the Python object is, freed memory is used. -/
def leave (before s : World) (w a : Nat) : World :=
  if (s.heap a).isSome = true ∧ (s.ws w).live = true then setObj s w (before.ws w).obj
  else { setObj s w (before.ws w).obj with bad := true }

mutual
/-- One thing that happens. -/
def exec (c : Cls) (s : World) : Act → World
  | .ev e => step c s e
  | .call w a body => leave s (execs c (enter s w a) body) w a
/-- A history. -/
def execs (c : Cls) (s : World) : List Act → World
  | [] => s
  | x :: xs => execs c (exec c s x) xs
end

mutual
/-- The same without the virtual calls themselves: what the overrides do is done directly. -/
def flat1 : Act → List Ev
  | .ev e => [e]
  | .call _ _ body => flat body
def flat : List Act → List Ev
  | [] => []
  | x :: xs => flat1 x ++ flat xs
end

mutual
/-- What C++ and the interpreter may do, and what the generated code gets right (`Ok` and `GoodMem` of
`Runtime/Lifetime.lean`); virtual calls are made on objects that are owned by their Python object, and the
override does not destroy it or give it away. -/
def Good1 (c : Cls) (s : World) : Act → Prop
  | .ev e => Ok c s e ∧ GoodMem c s e
  | .call w a body => Owns s w a = true ∧ (∃ o, s.heap a = some o ∧ o.pyself = some w) ∧
      (∀ e ∈ flat body, Spares c w e) ∧ GoodAll c (enter s w a) body
def GoodAll (c : Cls) (s : World) : List Act → Prop
  | [] => True
  | x :: xs => Good1 c s x ∧ GoodAll c (exec c s x) xs
end

theorem leave_ws (s t : World) (w a : Nat) :
    (leave s t w a).ws = upd t.ws w { t.ws w with obj := (s.ws w).obj } := by
  unfold leave
  split <;> rfl

theorem enter_owner {s : World} {w a : Nat} (h : (s.ws w).obj = some a) : enter s w a = s := setObj_same h

theorem leave_owner {s t : World} {w a : Nat} (hs : (s.ws w).obj = some a) (ht : (t.ws w).obj = some a)
    (hh : t.heap a ≠ none) (hl : (t.ws w).live = true) : leave s t w a = t := by
  unfold leave
  rw [if_pos ⟨Option.isSome_iff_ne_none.mpr hh, hl⟩, hs]
  exact setObj_same ht

theorem run_append (c : Cls) : ∀ (es fs : List Ev) (s : World), run c s (es ++ fs) = run c (run c s es) fs
  | [], _, _ => rfl
  | e :: es, fs, s => run_append c es fs (step c s e)

theorem handled_append {G : Cls → World → Ev → Prop} (c : Cls) : ∀ (es fs : List Ev) (s : World),
    Handled G c s es → Handled G c (run c s es) fs → Handled G c s (es ++ fs)
  | [], _, _, _, h => h
  | e :: es, fs, s, h1, h2 => ⟨h1.1, h1.2.1, handled_append c es fs (step c s e) h1.2.2 h2⟩

theorem owns_run {c : Cls} (hf : Freeable c) {w a : Nat} : ∀ (es : List Ev) (s : World), Bal c s none →
    Handled GoodMem c s es → Owns s w a = true → (∀ e ∈ es, Spares c w e) → Owns (run c s es) w a = true
  | [], _, _, _, ho, _ => ho
  | e :: es, s, hb, hh, ho, hq =>
    owns_run hf es _ (Bal.step hf hb hh.1 hh.2.1) hh.2.2 (owns_step hf hb hh.2.1 ho (hq e List.mem_cons_self))
      (fun e' h' => hq e' (List.mem_cons_of_mem _ h'))

mutual
theorem exec_flat {c : Cls} (hf : Freeable c) : ∀ (x : Act) (s : World), Bal c s none → Good1 c s x →
    exec c s x = run c s (flat1 x) ∧ Handled GoodMem c s (flat1 x)
  | .ev e, s, _, h => ⟨rfl, h.1, h.2, trivial⟩
  | .call w a body, s, hb, h => by
    obtain ⟨ho, -, hq, hg⟩ := h
    rw [enter_owner (owns_obj ho)] at hg
    obtain ⟨h1, h2⟩ := execs_flat hf body s hb hg
    refine ⟨?_, h2⟩
    have h3 := owns_run hf (flat body) s hb h2 ho hq
    have h4 := Bal.run hf hb h2
    show leave s (execs c (enter s w a) body) w a = run c s (flat body)
    rw [enter_owner (owns_obj ho), h1]
    exact leave_owner (owns_obj ho) (owns_obj h3) (owns_heap h4 h3) (owns_live h3)
theorem execs_flat {c : Cls} (hf : Freeable c) : ∀ (xs : List Act) (s : World), Bal c s none → GoodAll c s xs →
    execs c s xs = run c s (flat xs) ∧ Handled GoodMem c s (flat xs)
  | [], _, _, _ => ⟨rfl, trivial⟩
  | x :: xs, s, hb, h => by
    obtain ⟨h1, h2⟩ := exec_flat hf x s hb h.1
    have h3 := h.2
    rw [h1] at h3
    obtain ⟨h4, h5⟩ := execs_flat hf xs _ (Bal.run hf hb h2) h3
    refine ⟨?_, handled_append c _ _ s h2 h5⟩
    show execs c (exec c s x) xs = run c s (flat1 x ++ flat xs)
    rw [h1, run_append]
    exact h4
end

/-- **C108, virtual calls leave no trace.**  In every history with virtual calls, nested to any depth, on
objects that their Python object owns and that the overrides leave to it, the state is at every moment the
one that the things done by the overrides alone would have led to. -/
theorem C108_neutral_partial (c : Cls) (hf : Freeable c) (xs : List Act) (h : GoodAll c init xs) :
    execs c init xs = run c init (flat xs) ∧ Handled GoodMem c init (flat xs) :=
  execs_flat hf xs init (Bal.init c) h

/-- So no object is freed twice or used after being freed, and none is leaked: the accounting of C45 holds
after every such history. -/
theorem C108_accounting_partial (c : Cls) (hf : Freeable c) (xs : List Act) (h : GoodAll c init xs) :
    let s := execs c init xs
    s.bad = false ∧
    (∀ a o, s.heap a = some o → o.cpp = 0 → ∃ w, Owns s w a = true) ∧
    (∀ a o, s.heap a = some o → o.refs = o.cpp + owners s a) ∧
    (∀ w a, Owns s w a = true → s.heap a ≠ none) := by
  obtain ⟨h1, h2⟩ := C108_neutral_partial c hf xs h
  show (execs c init xs).bad = false ∧ _
  rw [h1]
  exact ⟨C45_no_double_free_partial c hf _ h2, C45_accounting_partial c hf _ h2⟩

/-- **C108, what the override sees.**  The override starts with its `self` designating the C++ object the
call was made on, whatever it designated before — also for an object that was given away to C++ — and all
else as it was; and when the call returns, `self` designates what it did before the call, whatever the
override did. -/
theorem C108_seen_and_restored (c : Cls) (s : World) (w a : Nat) (body : List Act) :
    ∃ s' : World, (s'.ws w).obj = some a ∧ (s'.ws w).live = (s.ws w).live ∧ (s'.ws w).notOwned = (s.ws w).notOwned ∧
      (∀ v, v ≠ w → s'.ws v = s.ws v) ∧ s'.heap = s.heap ∧ s'.reg = s.reg ∧ s'.bad = s.bad ∧ s'.next = s.next ∧
      let t := execs c s' body
      let r := exec c s (.call w a body)
      (r.ws w).obj = (s.ws w).obj ∧ (r.ws w).live = (t.ws w).live ∧ (r.ws w).notOwned = (t.ws w).notOwned ∧
      (∀ v, v ≠ w → r.ws v = t.ws v) ∧ r.heap = t.heap ∧ r.reg = t.reg ∧ r.next = t.next ∧
      (r.bad = true ↔ t.bad = true ∨ t.heap a = none ∨ (t.ws w).live = false) := by
  refine ⟨enter s w a, ?_, ?_, ?_, fun v hv => ?_, rfl, rfl, rfl, rfl, ?_⟩
  · show (upd s.ws w _ w).obj = _
    rw [upd_same]
  · show (upd s.ws w _ w).live = _
    rw [upd_same]
  · show (upd s.ws w _ w).notOwned = _
    rw [upd_same]
  · show upd s.ws w _ v = _
    rw [upd_ne _ _ hv]
  · intro t r
    have hr : r = leave s t w a := rfl
    have hws : r.ws = upd t.ws w { t.ws w with obj := (s.ws w).obj } := by rw [hr, leave_ws]
    refine ⟨by rw [hws, upd_same], by rw [hws, upd_same], by rw [hws, upd_same],
      fun v hv => by rw [hws, upd_ne _ _ hv], ?_, ?_, ?_, ?_⟩
    · rw [hr]; unfold leave; split <;> rfl
    · rw [hr]; unfold leave; split <;> rfl
    · rw [hr]; unfold leave; split <;> rfl
    · rw [hr]
      unfold leave
      split
      · rename_i h
        show t.bad = true ↔ _
        constructor
        · exact .inl
        · rintro (h' | h' | h')
          · exact h'
          · rw [h'] at h; cases h.1
          · rw [h'] at h; cases h.2
      · rename_i h
        refine ⟨fun _ => ?_, fun _ => rfl⟩
        cases hh : t.heap a with
        | none => exact .inr (.inl rfl)
        | some o =>
          cases hl : (t.ws w).live with
          | false => exact .inr (.inr rfl)
          | true => exact absurd ⟨by rw [hh]; rfl, hl⟩ h

/-- Non-vacuity: the override of an instance of a Python subclass makes an object in C++, makes a virtual
call on itself and from there one on another instance, and frees that object. -/
def nested : List Act :=
  [.ev .pyNew, .ev (.pyInit 0 1 true), .ev .pyNew, .ev (.pyInit 1 2 true),
   .call 0 1 [.ev (.cppNew 4), .call 0 1 [.call 1 2 [.ev (.cppRelease 4)], .ev (.transfer 1)]]]

example : flat nested = [.pyNew, .pyInit 0 1 true, .pyNew, .pyInit 1 2 true, .cppNew 4, .cppRelease 4,
    .transfer 1] := rfl

example : GoodAll virt init nested := by
  have sp : ∀ (w : Nat) (es : List Ev), (es.all (fun e => match e with
      | .dealloc v | .clear v | .transfer v => v != w | _ => true)) = true → ∀ e ∈ es, Spares virt w e := by
    intro w es h e he
    have := List.all_eq_true.mp h e he
    refine ⟨?_, ?_, ?_⟩ <;> (rintro rfl; simp at this)
  refine ⟨⟨trivial, trivial⟩, ⟨⟨rfl, rfl, fun _ => rfl⟩, rfl⟩, ⟨trivial, trivial⟩, ⟨⟨rfl, rfl, fun _ => rfl⟩, rfl⟩,
    ⟨rfl, ⟨_, rfl, rfl⟩, sp _ _ rfl, ⟨rfl, trivial⟩, ⟨rfl, ⟨_, rfl, rfl⟩, sp _ _ rfl,
      ⟨rfl, ⟨_, rfl, rfl⟩, sp _ _ rfl, ⟨⟨_, rfl, by decide⟩, trivial⟩, trivial⟩,
      ⟨⟨rfl, 2, rfl, nofun⟩, trivial⟩, trivial⟩, trivial⟩, trivial⟩

/-- **C108 is false when the override gives its own object away**: passing `self` to a function that takes
ownership clears `obj`; the proxy puts it back when the override returns, so that the wrapper deletes an
object that C++ holds.  Without the virtual call around it the same step is harmless. -/
theorem C108_given_away_counterexample :
    let before : List Act := [.ev .pyNew, .ev (.pyInit 0 1 true)]
    (execs virt init (before ++ [.call 0 1 [.ev (.transfer 0)]])).heap 1 = some ⟨1, 1, some 0⟩ ∧
    (execs virt init (before ++ [.call 0 1 [.ev (.transfer 0)], .ev (.clear 0)])).heap 1 = none ∧
    (execs virt init (before ++ [.call 0 1 [.ev (.transfer 0)], .ev (.clear 0), .ev (.cppRelease 1)])).bad = true ∧
    (execs virt init (before ++ [.call 0 1 [], .ev (.transfer 0), .ev (.clear 0)])).heap 1 = some ⟨1, 1, some 0⟩ :=
  ⟨rfl, rfl, rfl, rfl⟩

/-- **C108 is false when the object is destroyed while the override runs**, say by C++ code the override
calls, after it was given to C++: the proxy then uses the memory of the object to restore the wrapper. -/
theorem C108_destroyed_counterexample :
    (execs virt init [.ev .pyNew, .ev (.pyInit 0 1 true), .ev (.transfer 0),
      .call 0 1 [.ev (.cppRelease 1)]]).bad = true ∧
    (run virt init (flat [.ev .pyNew, .ev (.pyInit 0 1 true), .ev (.transfer 0),
      .call 0 1 [.ev (.cppRelease 1)]])).bad = false :=
  ⟨rfl, rfl⟩

end Verif.VirtualCalls
