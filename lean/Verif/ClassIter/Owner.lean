import Verif.ClassIter.C107

/-!
# C107: iterators of wrappers that own their object

The condition of `C107_iteration_partial`, that the object stays alive and the wrapper keeps referring to it,
holds by itself for wrappers that own their object: the iterator keeps the wrapper, and the wrapper the object.
-/
namespace Verif.ClassIter
open Verif Verif.Wrap Verif.Params
open Verif.Flow (Op)
open _root_.Verif.Lifetime (upd upd_same upd_ne Owns Bal Freeable GoodMem)

variable {Val Py : Type}

/-- An event that leaves alone a wrapper which owns its object. -/
def Spares (c : Lifetime.Cls) (w : Nat) (e : Lifetime.Ev) : Prop :=
  e ≠ .dealloc w ∧ e ≠ .clear w ∧ (e = .transfer w → c.policy = .refcount)

theorem ws_step {c : Lifetime.Cls} {s : Lifetime.World} {e : Lifetime.Ev} {w a : Nat} (hf : Freeable c) (hb : Bal c s none)
    (hg : GoodMem c s e) (ho : Owns s w a = true) (hq : Spares c w e) : (Lifetime.step c s e).ws w = s.ws w := by
  have hl : (s.ws w).live = true := by
    unfold Lifetime.Owns Lifetime.Wrapper.owns at ho
    simp only [Bool.and_eq_true] at ho
    exact ho.1.1
  have hobj : (s.ws w).obj = some a := by
    unfold Lifetime.Owns Lifetime.Wrapper.owns at ho
    simp only [Bool.and_eq_true, beq_iff_eq] at ho
    exact ho.1.2
  have hlt := hb.lt hl
  have hnew : ∀ (u : Lifetime.World) (p : Option Nat) (b : Bool), u.next = s.next → u.ws = s.ws →
      (Lifetime.newWrapper u p b).ws w = s.ws w := by
    intro u p b h1 h2
    unfold Lifetime.newWrapper
    simp only [h1]
    rw [upd_ne _ _ (Nat.ne_of_lt hlt), h2]
  have hset : ∀ (u : Lifetime.World) (v : Nat) (p : Option Nat), u.ws = s.ws → (v = w → p = some a) →
      (Lifetime.setObj u v p).ws w = s.ws w := by
    intro u v p h1 h2
    unfold Lifetime.setObj
    by_cases h : w = v
    · subst h
      simp only [upd_same, h1, h2 rfl, ← hobj]
    · simp only [upd_ne _ _ h, h1]
  have hcreate : ∀ (o : Lifetime.RetOpts) (u : Lifetime.World) (a b : Nat), u.next = s.next → u.ws = s.ws →
      (Lifetime.createWrapper c o u a b).ws w = s.ws w := by
    intro o u a b h1 h2
    unfold Lifetime.createWrapper
    dsimp only
    split
    · rw [Lifetime.register_ws]; exact hnew _ _ _ h1 h2
    · split
      · split
        · rw [Lifetime.register_ws]; exact hnew _ _ _ h1 h2
        · split
          · rw [Lifetime.register_ws]; exact hnew _ _ _ h1 h2
          · rw [Lifetime.register_ws]; exact hnew _ _ _ h1 h2
      · split
        · rw [Lifetime.register_ws]
          exact hnew _ _ _ (by rw [Lifetime.incref_next]; exact h1) (by rw [Lifetime.incref_ws]; exact h2)
        · rw [Lifetime.register_ws]; exact hnew _ _ _ h1 h2
  have hdel : ∀ (u : Lifetime.World) (v : Nat), v ≠ w → u.ws = s.ws → (Lifetime.deleteCode c u v).ws w = s.ws w := by
    intro u v hv hu
    rw [(Lifetime.deleteCode_ws hf u v).1, upd_ne _ _ (Ne.symm hv), hu]
  cases e with
  | cppNew a => rfl
  | cppIncref a => simp only [Lifetime.step, Lifetime.cppGains_ws, Lifetime.incref_ws]
  | cppRelease a => simp only [Lifetime.step, Lifetime.release_ws, Lifetime.cppLoses_ws]
  | ret o a' b same =>
    have hrel : ∀ (b : Prop) [Decidable b] (u : Lifetime.World), u.ws w = s.ws w →
        (if b then Lifetime.release u a' else u).ws w = s.ws w := by
      intro b _ u hu; split
      · rw [Lifetime.release_ws]; exact hu
      · exact hu
    have h0 : (if o.own || o.freeAfterCopy then Lifetime.cppLoses s a' else s).ws = s.ws := by
      split
      · rw [Lifetime.cppLoses_ws]
      · rfl
    have h1 : (if o.own || o.freeAfterCopy then Lifetime.cppLoses s a' else s).next = s.next := by
      split
      · rw [Lifetime.cppLoses_next]
      · rfl
    simp only [Lifetime.step, Lifetime.retObj]
    generalize (if o.own || o.freeAfterCopy then Lifetime.cppLoses s a' else s) = u at h0 h1
    apply hrel
    split
    · rename_i v hv
      refine hrel _ _ (hset _ _ _ h0 ?_)
      rintro rfl
      split at hv
      · rename_i hh
        have := hg.2.1 _ hv hh
        rw [hobj] at this
        exact this.symm
      · cases hv
    · split
      · exact hrel _ _ (by rw [h0])
      · exact hcreate _ _ _ _ h1 h0
  | pyNew => exact hnew _ _ _ rfl rfl
  | pyInit v a' b =>
    have hv : w ≠ v := by
      rintro rfl
      have : (s.ws w).obj = none := hg
      rw [hobj] at this
      cases this
    simp only [Lifetime.step, Lifetime.pyInit, Lifetime.alloc]
    rw [upd_ne _ _ hv]
  | pyCopy v b =>
    simp only [Lifetime.step, Lifetime.pyCopy, Lifetime.register_ws]
    exact hnew _ _ _ rfl rfl
  | transfer v =>
    simp only [Lifetime.step, Lifetime.transfer]
    split
    · rfl
    · split
      · rename_i hp
        have hv : v ≠ w := by rintro rfl; exact hp (hq.2.2 rfl)
        split
        · exact hset _ _ _ (Lifetime.unregister_ws _ _ _) (fun h => absurd h hv)
        · rw [Lifetime.cppGains_ws]; exact hset _ _ _ (Lifetime.unregister_ws _ _ _) (fun h => absurd h hv)
      · rw [Lifetime.cppGains_ws, Lifetime.incref_ws]
  | clear v => exact hdel _ _ (by rintro rfl; exact hq.2.1 rfl) rfl
  | dealloc v =>
    have hv : v ≠ w := by rintro rfl; exact hq.1 rfl
    simp only [Lifetime.step, Lifetime.dealloc]
    rw [upd_ne _ _ (Ne.symm hv)]
    exact hdel _ _ hv (Lifetime.unregister_ws _ _ _)

theorem owns_obj {s : Lifetime.World} {w a : Nat} (ho : Owns s w a = true) : (s.ws w).obj = some a := by
  unfold Lifetime.Owns Lifetime.Wrapper.owns at ho
  simp only [Bool.and_eq_true, beq_iff_eq] at ho
  exact ho.1.2

theorem owns_live {s : Lifetime.World} {w a : Nat} (ho : Owns s w a = true) : (s.ws w).live = true := by
  unfold Lifetime.Owns Lifetime.Wrapper.owns at ho
  simp only [Bool.and_eq_true] at ho
  exact ho.1.1

theorem owns_heap {c : Lifetime.Cls} {s : Lifetime.World} {w a : Nat} (hb : Bal c s none) (ho : Owns s w a = true) :
    s.heap a ≠ none := by
  intro h
  have h1 := hb.gone a h
  have h2 := Lifetime.owners_pos (hb.lt (owns_live ho)) ho
  omega

theorem owns_step {c : Lifetime.Cls} {s : Lifetime.World} {e : Lifetime.Ev} {w a : Nat} (hf : Freeable c) (hb : Bal c s none)
    (hg : GoodMem c s e) (ho : Owns s w a = true) (hq : Spares c w e) : Owns (Lifetime.step c s e) w a = true := by
  unfold Lifetime.Owns
  rw [ws_step hf hb hg ho hq]
  exact ho

/-- Events whose memory accounting is right (`GoodMem`, see C45). -/
def Good (c : Lifetime.Cls) (s : World Val) : Ev Val → Prop
  | .life e _ => GoodMem c s.base e
  | _ => True

/-- The program does not touch an object it iterates: it neither changes the elements of `a` nor gives the object
of `w` away. -/
def Quiet (c : Lifetime.Cls) (w a : Nat) : Ev Val → Prop
  | .life e _ => e = .transfer w → c.policy = .refcount
  | .change b _ => b ≠ a
  | _ => True

theorem bal_step {c : Lifetime.Cls} {t : Traits} {S : Sem' Val Py} {s s' : World Val} {e : Ev Val} {o : Out Py}
    (hf : Freeable c) (hb : Bal c s.base none) (hok : Ok c s e) (hg : Good c s e)
    (hs : step c t S (loopOps t) s e = .ok (s', o)) : Bal c s'.base none := by
  cases e with
  | life e fill => cases hs; exact hb.step hf hok.1 hg
  | change a l => cases hs; exact hb
  | newIter => cases hs; exact hb
  | iter w =>
    rw [step_iter] at hs
    split at hs
    · cases hs
    · split at hs
      · cases hs
      · cases hs; exact hb
  | next i =>
    rw [step_next] at hs
    split at hs
    · cases hs
    · split at hs
      · cases hs
      · cases hs; exact hb
      · split at hs
        · cases hs
        · cases hs; exact hb
  | drop i => rw [step_drop] at hs; cases hs; exact hb

theorem bal_run {c : Lifetime.Cls} {t : Traits} {S : Sem' Val Py} {s s' : World Val} {h : List (Ev Val × Out Py)}
    (hf : Freeable c) (hr : Run c t S (loopOps t) (Good c) s h s') : Bal c s.base none → Bal c s'.base none := by
  induction hr with
  | nil => exact id
  | cons hok hq hs _ ih => exact fun hb => ih (bal_step hf hb hok hq hs)

/-- What is kept while the iterator lives. -/
structure Keeps (c : Lifetime.Cls) (s : World Val) (i w a v : Nat) (l : List (Elem Val)) : Prop where
  inv : Inv s
  bal : Bal c s.base none
  owns : (s.its i).live = true → Owns s.base w a = true ∧ s.objs a = (v, l)

theorem Keeps.still {c : Lifetime.Cls} {s : World Val} {i w a v : Nat} {l : List (Elem Val)} (h : Keeps c s i w a v l)
    (hl : (s.its i).live = true) : Still w a v l s :=
  ⟨owns_obj (h.owns hl).1, owns_heap h.bal (h.owns hl).1, (h.owns hl).2⟩

theorem Keeps.step {c : Lifetime.Cls} {t : Traits} {S : Sem' Val Py} {s s' : World Val} {i w a v n : Nat} {l : List (Elem Val)}
    {e : Ev Val} {o : Out Py} (hf : Freeable c) (h : Keeps c s i w a v l) (ha : At s i w a v n) (hok : Ok c s e)
    (hg : Good c s e) (hq : (s.its i).live = true → Quiet c w a e) (hs : step c t S (loopOps t) s e = .ok (s', o)) :
    Keeps c s' i w a v l := by
  refine ⟨h.inv.step hok hs, bal_step hf h.bal hok hg hs, ?_⟩
  have hdead : (s'.its i).live = true → (s.its i).live = true := by
    intro hl'
    cases hl : (s.its i).live with
    | true => rfl
    | false =>
      have hne : e ≠ .next i := by
        rintro rfl
        have : (s.its i).live = true := hok
        rw [hl] at this
        cases this
      rw [(at_other ha hne hs).2 hl] at hl'
      cases hl'
  intro hl'
  have hl := hdead hl'
  obtain ⟨h1, h2⟩ := h.owns hl
  have hq := hq hl
  cases e with
  | life e fill =>
    cases hs
    have hr := refs_pos h.inv (ha.con hl)
    have hsp : Spares c w e := by
      refine ⟨?_, ?_, hq⟩
      · intro he; have := hok.2 w (.inl he); omega
      · intro he; have := hok.2 w (.inr he); omega
    have h3 := owns_step hf h.bal hg h1 hsp
    refine ⟨h3, ?_⟩
    show refill _ _ _ _ a = _
    unfold refill
    rw [if_pos ⟨owns_heap h.bal h1, owns_heap (h.bal.step hf hok.1 hg) h3⟩]
    exact h2
  | change b l' =>
    cases hs
    refine ⟨h1, ?_⟩
    show upd _ _ _ a = _
    rw [upd_ne _ _ (Ne.symm hq)]
    exact h2
  | newIter => cases hs; exact ⟨h1, h2⟩
  | iter u =>
    rw [step_iter] at hs
    split at hs
    · cases hs
    · split at hs
      · cases hs
      · cases hs; exact ⟨h1, h2⟩
  | next j =>
    rw [step_next] at hs
    split at hs
    · cases hs
    · split at hs
      · cases hs
      · cases hs; exact ⟨h1, h2⟩
      · split at hs
        · cases hs
        · cases hs; exact ⟨h1, h2⟩
  | drop j => rw [step_drop] at hs; cases hs; exact ⟨h1, h2⟩

theorem Keeps.run {c : Lifetime.Cls} {t : Traits} {S : Sem' Val Py} {s s' : World Val} {i w a v : Nat} {l : List (Elem Val)}
    {h : List (Ev Val × Out Py)} (hf : Freeable c) (hF : Fine t S l)
    (hr : Run c t S (loopOps t) (fun s e => Good c s e ∧ ((s.its i).live = true → Quiet c w a e)) s h s') :
    ∀ {n : Nat}, At s i w a v (min n l.length) → Keeps c s i w a v l →
      Run c t S (loopOps t) (fun s _ => (s.its i).live = true → Still w a v l s) s h s' ∧ Keeps c s' i w a v l := by
  induction hr with
  | nil => exact fun _ h => ⟨.nil _, h⟩
  | @cons s1 s2 s3 e o h hok hq hs _ ih =>
    intro n ha hk
    have hk' := hk.step hf ha hok hq.1 hq.2 hs
    by_cases he : e = .next i
    · subst he
      have hl : (s1.its i).live = true := hok
      obtain ⟨u, h1, h2⟩ := at_next (c := c) (t := t) hF ha hl (hk.still hl) (Nat.min_le_right _ _)
      rw [hs] at h1
      obtain ⟨rfl, rfl⟩ := Prod.mk.inj (Res.ok.inj h1)
      have hmin : min (min n l.length + 1) l.length = min (n + 1) l.length := by omega
      rw [hmin] at h2
      obtain ⟨h3, h4⟩ := ih h2 hk'
      exact ⟨.cons hok hk.still hs h3, h4⟩
    · obtain ⟨h1, -⟩ := at_other ha he hs
      obtain ⟨h3, h4⟩ := ih h1 hk'
      exact ⟨.cons hok hk.still hs h3, h4⟩

/-- C107 (owners): a wrapper that owns its object (or a reference to it) can be iterated without further care:
if the program does not change the object, or give it away, while the iterator exists, then `iter` succeeds,
the calls of `next` give exactly the elements in order and then `StopIteration` for good, and no call crashes
- even if Python has dropped its last reference to the wrapper. -/
theorem C107_owner_partial {c : Lifetime.Cls} (hf : Freeable c) {t : Traits} {S : Sem' Val Py} {g : W} (hg : iternext t = .ok g)
    {before : List (Ev Val × Out Py)} {s0 : World Val} {w a : Nat}
    (hr : Run c t S (onBlock 1 g.ops) (Good c) (World.init Val) before s0) (ho : Owns s0.base w a = true)
    (hF : Fine t S (s0.objs a).2) :
    ∃ s1 i, step c t S (onBlock 1 g.ops) s0 (.iter w) = .ok (s1, .iter i) ∧
      ∀ after s2, Run c t S (onBlock 1 g.ops) (fun s e => Good c s e ∧ ((s.its i).live = true → Quiet c w a e)) s1 after s2 →
        nexts i after = (List.range (nexts i after).length).map (expected t S (s0.objs a).2) ∧
        ((s2.its i).live = true →
          ∃ s3, step c t S (onBlock 1 g.ops) s2 (.next i) = .ok (s3, expected t S (s0.objs a).2 (nexts i after).length)) := by
  rw [code_eq hg] at hr ⊢
  have hinv : Inv s0 := inv_init.run hr
  have hbal : Bal c s0.base none := bal_run hf hr (Bal.init c)
  have hst : Still w a (s0.objs a).1 (s0.objs a).2 s0 := ⟨owns_obj ho, owns_heap hbal ho, rfl⟩
  obtain ⟨h1, h2, h3⟩ := hst
  cases hh : s0.base.heap a with
  | none => exact absurd hh h2
  | some x =>
    have e : step c t S (loopOps t) s0 (.iter w) = .ok (afterIter s0 w a, .iter s0.next) := by
      rw [step_iter]; simp only [h1, hh]
    obtain ⟨ha, -, -⟩ := at_iter ⟨h1, h2, h3⟩ e
    have hk : Keeps c (afterIter s0 w a) s0.next w a (s0.objs a).1 (s0.objs a).2 :=
      ⟨hinv.step (show Ok c s0 (.iter w) from owns_live ho) e, hbal, fun _ => ⟨ho, rfl⟩⟩
    refine ⟨_, _, e, ?_⟩
    intro after s2 hr2
    have ha0 : At (afterIter s0 w a) s0.next w a (s0.objs a).1 (min 0 (s0.objs a).2.length) := by rw [Nat.zero_min]; exact ha
    obtain ⟨h4, h5⟩ := Keeps.run hf hF hr2 ha0 hk
    obtain ⟨h6, h7⟩ := nexts_at hF h4 ha0
    refine ⟨by simpa using h6, fun hl => ?_⟩
    obtain ⟨s3, h8, -⟩ := at_next (c := c) hF h7 hl (h5.still hl) (Nat.min_le_right _ _)
    refine ⟨s3, ?_⟩
    rw [h8, Nat.zero_add, expected_min]

/-- C107 (references): in every history the generated code holds exactly one reference to a wrapper for each
live iterator made from it, so the wrapper stays alive until its last iterator is gone, and none is left behind
afterwards. -/
theorem C107_keeps_alive {c : Lifetime.Cls} {t : Traits} {S : Sem' Val Py} {g : W} (hg : iternext t = .ok g)
    {h : List (Ev Val × Out Py)} {s : World Val} (hr : Run c t S (onBlock 1 g.ops) (fun _ _ => True) (World.init Val) h s) (w : Nat) :
    s.refs w = (List.range s.next).countP (fun i => (s.its i).live && (s.its i).container = some w) ∧
    ∀ i, (s.its i).live = true → (s.its i).container = some w → (s.base.ws w).live = true := by
  rw [code_eq hg] at hr
  have hi := inv_init.run hr
  refine ⟨?_, fun i _ hc => hi.keeps i w hc⟩
  rw [hi.refs w]
  unfold iterators
  apply List.countP_congr
  intro i _
  simp only [Bool.and_eq_true, decide_eq_true_eq]
  refine ⟨fun hc => ⟨?_, hc⟩, fun hc => hc.2⟩
  cases hl : (s.its i).live with
  | true => rfl
  | false => rw [hi.dead i hl] at hc; cases hc

end Verif.ClassIter
