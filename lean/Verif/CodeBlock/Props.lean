import Verif.CodeBlock.Spec
import Verif.CodeSink.Props
import Mathlib.Data.List.Basic
import Mathlib.Data.List.TakeWhile
import Mathlib.Data.List.Induction
import Mathlib.Tactic.Set

/-!
# C03, C04, C05: cleanup actions
-/
namespace Verif.CodeBlock
open Verif

/-! ## Helper lemmas -/

theorem Chain.run_append (c : Chain) (a b : List Op) :
    c.run (a ++ b) = (c.run a).bind (fun c' => c'.run b) := by
  induction a generalizing c with
  | nil => rfl
  | cons o os ih =>
    simp only [List.cons_append, Chain.run]
    cases c.step o with
    | error e => rfl
    | ok m' => exact ih m'

theorem Chain.run_snoc_ok {c c' : Chain} {h : List Op} {o : Op}
    (hr : c.run (h ++ [o]) = .ok c') : ∃ c1, c.run h = .ok c1 ∧ c1.step o = .ok c' := by
  rw [Chain.run_append] at hr
  cases hc : c.run h with
  | error e => simp [hc, Except.bind] at hr
  | ok c1 =>
    refine ⟨c1, rfl, ?_⟩
    simp only [hc, Except.bind, Chain.run, bind, pure] at hr
    cases hs : c1.step o with
    | error e => simp [hs] at hr
    | ok c2 => simpa [hs] using hr

theorem recent_snoc (i : Nat) (h : List Op) (o : Op) :
    recent i (h ++ [o]) = if o = .clear i then [] else recent i h ++ [o] := by
  unfold recent
  by_cases ho : o = .clear i <;> simp [ho]

theorem added_snoc (i : Nat) (h : List Op) (o : Op) :
    added i (h ++ [o]) = added i h ++ (match o with
      | .add j code => if j = i then [code] else []
      | _ => []) := by
  unfold added
  rw [List.filterMap_append]
  congr 1
  cases o <;> simp
  next j code => by_cases hj : j = i <;> simp [hj]

/-- The dict a block has after a history. -/
def liveDict (i : Nat) (r : List Op) : Dict :=
  ((added i r).zipIdx 1).filterMap
    (fun p => if r.contains (.cancel i p.2) then none else some (p.2, p.1))

theorem liveDict_key {i : Nat} {r : List Op} {k : Nat} {v : Str} (h : (k, v) ∈ liveDict i r) :
    1 ≤ k ∧ k ≤ (added i r).length ∧ .cancel i k ∉ r := by
  unfold liveDict at h
  rw [List.mem_filterMap] at h
  obtain ⟨p, hp, hif⟩ := h
  split at hif
  · cases hif
  · next hc =>
    cases hif
    obtain ⟨h1, h2, _⟩ := List.mem_zipIdx hp
    refine ⟨h1, by omega, by simpa using hc⟩

theorem liveDict_sorted (i : Nat) (r : List Op) :
    (liveDict i r).Pairwise (fun a b => a.1 < b.1) := by
  unfold liveDict
  apply List.Pairwise.filterMap (R := fun a b : Str × Nat => a.2 < b.2)
  · intro a b hab a' ha b' hb
    split at ha
    · cases ha
    · split at hb
      · cases hb
      · cases ha; cases hb; exact hab
  · generalize added i r = l
    generalize 1 = n
    induction l generalizing n with
    | nil => simp
    | cons x xs ih =>
      rw [List.zipIdx_cons, List.pairwise_cons]
      refine ⟨?_, ih (n + 1)⟩
      intro a ha
      obtain ⟨h1, _⟩ := List.mem_zipIdx ha
      show n < a.2
      omega

structure Inv (er : Nat → Str) (h : List Op) (c : Chain) : Prop where
  last : ∀ i, (c i).lastPos = (added i (recent i h)).length
  dict : ∀ i, (c i).cleanup = liveDict i (recent i h)
  canc : ∀ i k, .cancel i k ∈ recent i h → k ≤ (added i (recent i h)).length
  err : ∀ i, (c i).errorReturn = er i

theorem upd_same (c : Chain) (i : Nat) (b : Block) : c.upd i b i = b := by simp [Chain.upd]
theorem upd_ne (c : Chain) {i j : Nat} (b : Block) (h : j ≠ i) : c.upd i b j = c j := by
  simp [Chain.upd, h]

theorem liveDict_snoc_other (i : Nat) (r : List Op) (o : Op)
    (h1 : ∀ code, o ≠ .add i code) (h2 : ∀ k, o ≠ .cancel i k) :
    liveDict i (r ++ [o]) = liveDict i r := by
  have ha : added i (r ++ [o]) = added i r := by
    rw [added_snoc]
    cases o with
    | add j code =>
      by_cases hj : j = i
      · subst hj; exact absurd rfl (h1 code)
      · simp [hj]
    | _ => simp
  unfold liveDict
  rw [ha]
  congr 1
  funext p
  have : (r ++ [o]).contains (.cancel i p.2) = r.contains (.cancel i p.2) := by
    simp only [List.contains_eq_mem, List.mem_append, List.mem_singleton]
    have := h2 p.2
    simp [Ne.symm this]
  rw [this]

theorem liveDict_snoc_add (i : Nat) (r : List Op) (code : Str)
    (hc : ∀ k, .cancel i k ∈ r → k ≤ (added i r).length) :
    liveDict i (r ++ [.add i code]) = liveDict i r ++ [((added i r).length + 1, code)] := by
  unfold liveDict
  rw [added_snoc]
  simp only [if_true, List.zipIdx_append, List.filterMap_append]
  have hcon : ∀ k, (r ++ [Op.add i code]).contains (.cancel i k) = r.contains (.cancel i k) := by
    intro k; simp
  simp only [hcon]
  congr 1
  have : Op.cancel i (1 + (added i r).length) ∉ r := fun hm => by
    have := hc _ hm; omega
  simp [List.zipIdx_cons, this, Nat.add_comm]

theorem liveDict_snoc_cancel (i k : Nat) (r : List Op) :
    liveDict i (r ++ [.cancel i k]) = (liveDict i r).filter (·.1 != k) := by
  unfold liveDict
  rw [added_snoc]
  simp only [List.append_nil]
  generalize (added i r).zipIdx 1 = z
  induction z with
  | nil => rfl
  | cons p ps ih =>
    simp only [List.filterMap_cons]
    by_cases hm : Op.cancel i p.2 ∈ r
    · simp only [List.contains_eq_mem, List.mem_append, hm] at ih ⊢
      simpa using ih
    · by_cases hk : p.2 = k
      · subst hk
        simp only [List.contains_eq_mem, List.mem_append, hm] at ih ⊢
        simpa using ih
      · simp only [List.contains_eq_mem, List.mem_append, hm] at ih ⊢
        simp [hk] at ih ⊢
        exact ih

/-- Calls that leave all cleanup bookkeeping of every block alone. -/
theorem Inv.keep {er : Nat → Str} {h : List Op} {c c' : Chain} {o : Op} (hi : Inv er h c)
    (h1 : ∀ i code, o ≠ .add i code) (h2 : ∀ i k, o ≠ .cancel i k) (h3 : ∀ i, o ≠ .clear i)
    (hc : ∀ i, (c' i).lastPos = (c i).lastPos ∧ (c' i).cleanup = (c i).cleanup ∧
      (c' i).errorReturn = (c i).errorReturn) : Inv er (h ++ [o]) c' := by
  have hadd : ∀ i, added i (recent i h ++ [o]) = added i (recent i h) := by
    intro i
    rw [added_snoc]
    cases o with
    | add j code => exact absurd rfl (h1 j code)
    | _ => simp
  constructor
  · intro i; rw [(hc i).1, hi.last i, recent_snoc, if_neg (h3 i), hadd]
  · intro i
    rw [(hc i).2.1, hi.dict i, recent_snoc, if_neg (h3 i),
      liveDict_snoc_other i _ o (h1 i) (h2 i)]
  · intro i k hk
    rw [recent_snoc, if_neg (h3 i)] at hk ⊢
    rw [hadd]
    rcases List.mem_append.1 hk with hk | hk
    · exact hi.canc i k hk
    · exact absurd (List.mem_singleton.1 hk).symm (h2 i k)
  · intro i; rw [(hc i).2.2, hi.err i]

theorem Inv.init (er : Nat → Str) : Inv er [] (Chain.fresh er) := by
  constructor <;> intro i
  · rfl
  · rfl
  · intro k hk; simp [recent] at hk
  · rfl

theorem Inv.step {er : Nat → Str} {h : List Op} {c c' : Chain} {o : Op} (hi : Inv er h c)
    (hs : c.step o = .ok c') : Inv er (h ++ [o]) c' := by
  cases o with
  | add j code =>
    cases hs
    have hset : (c j).cleanup.set ((c j).lastPos + 1) code =
        (c j).cleanup ++ [((c j).lastPos + 1, code)] := by
      unfold Dict.set
      rw [if_neg]
      intro hany
      obtain ⟨⟨k, v⟩, hp, hk⟩ := List.any_eq_true.1 hany
      rw [hi.dict j] at hp
      have := (liveDict_key hp).2.1
      simp only [beq_iff_eq] at hk
      rw [hi.last j] at hk
      omega
    constructor
    · intro i
      rw [recent_snoc, if_neg (by simp), added_snoc]
      by_cases hij : i = j
      · subst hij; rw [upd_same]; simp [Block.addCleanup, hi.last i]
      · rw [upd_ne _ _ hij]; simp [Ne.symm hij, hi.last i]
    · intro i
      rw [recent_snoc, if_neg (by simp)]
      by_cases hij : i = j
      · subst hij
        rw [upd_same, liveDict_snoc_add _ _ _ (hi.canc i)]
        show (c i).cleanup.set ((c i).lastPos + 1) code = _
        rw [hset, hi.dict i, hi.last i]
      · rw [upd_ne _ _ hij, liveDict_snoc_other, hi.dict i]
        · intro _ h; injection h with h _; exact hij h.symm
        · intro _ h; cases h
    · intro i k hk
      rw [recent_snoc, if_neg (by simp)] at hk ⊢
      rw [added_snoc]
      have := hi.canc i k (by simpa using hk)
      simp; omega
    · intro i
      by_cases hij : i = j
      · subst hij; rw [upd_same]; exact hi.err i
      · rw [upd_ne _ _ hij]; exact hi.err i
  | cancel j pos =>
    simp only [Chain.step, Block.removeCleanup, Dict.del] at hs
    split at hs
    · next hany =>
      cases hs
      obtain ⟨⟨k, v⟩, hp, hk⟩ := List.any_eq_true.1 hany
      simp only [beq_iff_eq] at hk
      subst hk
      rw [hi.dict j] at hp
      have hle := (liveDict_key hp).2.1
      constructor
      · intro i
        rw [recent_snoc, if_neg (by simp), added_snoc]
        by_cases hij : i = j
        · subst hij; rw [upd_same]; simp [hi.last i]
        · rw [upd_ne _ _ hij]; simp [hi.last i]
      · intro i
        rw [recent_snoc, if_neg (by simp)]
        by_cases hij : i = j
        · subst hij
          rw [upd_same, liveDict_snoc_cancel, ← hi.dict i]
        · rw [upd_ne _ _ hij, liveDict_snoc_other, hi.dict i]
          · intro _ h; cases h
          · intro _ h; injection h with h _; exact hij h.symm
      · intro i k' hk'
        rw [recent_snoc, if_neg (by simp)] at hk' ⊢
        rw [added_snoc]
        simp only [List.append_nil]
        rcases List.mem_append.1 hk' with hk' | hk'
        · exact hi.canc i k' hk'
        · have := List.mem_singleton.1 hk'
          injection this with h1 h2
          subst h1 h2; exact hle
      · intro i
        by_cases hij : i = j
        · subst hij; rw [upd_same]; exact hi.err i
        · rw [upd_ne _ _ hij]; exact hi.err i
    · simp [Except.map, bind, Except.bind] at hs
  | clear j =>
    cases hs
    constructor
    · intro i
      rw [recent_snoc]
      by_cases hij : i = j
      · subst hij; rw [upd_same]; simp [Block.clear, added]
      · rw [upd_ne _ _ hij, if_neg (by intro h; injection h with h; exact hij h.symm), added_snoc]
        simp [hi.last i]
    · intro i
      rw [recent_snoc]
      by_cases hij : i = j
      · subst hij; rw [upd_same]; simp [Block.clear, liveDict, added]
      · rw [upd_ne _ _ hij, if_neg (by intro h; injection h with h; exact hij h.symm),
          liveDict_snoc_other, hi.dict i] <;> intro _ h <;> cases h
    · intro i k hk
      rw [recent_snoc] at hk ⊢
      by_cases hij : i = j
      · subst hij; simp at hk
      · rw [if_neg (by intro h; injection h with h; exact hij h.symm)] at hk ⊢
        rw [added_snoc]
        have := hi.canc i k (by simpa using hk)
        simpa using this
    · intro i
      by_cases hij : i = j
      · subst hij; rw [upd_same]; exact hi.err i
      · rw [upd_ne _ _ hij]; exact hi.err i
  | writeCode j s =>
    cases hs
    refine hi.keep (by simp) (by simp) (by simp) fun i => ?_
    by_cases hij : i = j
    · subst hij; simp [upd_same]
    · simp [upd_ne _ _ hij]
  | indent j n =>
    cases hs
    refine hi.keep (by simp) (by simp) (by simp) fun i => ?_
    by_cases hij : i = j
    · subst hij; simp [upd_same]
    · simp [upd_ne _ _ hij]
  | unindent j =>
    simp only [Chain.step, bind, Except.bind] at hs
    split at hs
    · cases hs
    · cases hs
      refine hi.keep (by simp) (by simp) (by simp) fun i => ?_
      by_cases hij : i = j
      · subst hij; simp [upd_same]
      · simp [upd_ne _ _ hij]
  | writeCleanup j =>
    cases hs
    refine hi.keep (by simp) (by simp) (by simp) fun i => ?_
    by_cases hij : i = j
    · subst hij; simp [upd_same]
    · simp [upd_ne _ _ hij]
  | errorReturn j =>
    cases hs
    refine hi.keep (by simp) (by simp) (by simp) fun i => ?_
    by_cases hij : i = j
    · subst hij; simp [upd_same]
    · simp [upd_ne _ _ hij]
  | errorCheck j e x =>
    simp only [Chain.step, bind, Except.bind] at hs
    split at hs
    · cases hs
    · cases hs
      refine hi.keep (by simp) (by simp) (by simp) fun i => ?_
      by_cases hij : i = j
      · subst hij; simp [upd_same]
      · simp [upd_ne _ _ hij]

theorem inv_run {er : Nat → Str} {h : List Op} {c : Chain}
    (hr : (Chain.fresh er).run h = .ok c) : Inv er h c := by
  induction h using List.reverseRecOn generalizing c with
  | nil => cases hr; exact Inv.init er
  | append_singleton h o ih =>
    obtain ⟨c1, h1, h2⟩ := Chain.run_snoc_ok hr
    exact (ih h1).step h2

theorem ownCleanup_eq {er : Nat → Str} {h : List Op} {c : Chain} (hi : Inv er h c) (i : Nat) :
    (c i).ownCleanup = due i h := by
  unfold Block.ownCleanup due
  rw [hi.dict i, List.mergeSort_of_pairwise]
  · unfold liveDict
    rw [List.map_filterMap]
    congr 2
    funext p
    split <;> simp_all
  · exact (liveDict_sorted i _).imp (fun h => by simpa using Nat.le_of_lt h)

/-! ## C03 -/

/-- C03: after any successful history of calls on a chain of new code blocks,
`get_cleanup_code()` of block `i` is exactly what is due by the history: additions since the last
`clear`, without the cancelled ones, newest first, then the same for its predecessors. -/
theorem C03_cleanup_lifo {er : Nat → Str} {h : List Op} {c : Chain}
    (hr : (Chain.fresh er).run h = .ok c) (i : Nat) :
    c.getCleanup i = dueChain h i := by
  have hi := inv_run hr
  induction i with
  | zero => exact ownCleanup_eq hi 0
  | succ i ih => simp only [Chain.getCleanup, dueChain, ownCleanup_eq hi, ih]

/-- C03 (cancel): cancelling succeeds exactly for handles issued since the last `clear` and not
cancelled since; otherwise it raises `KeyError`. -/
theorem C03_cancel_ok_iff {er : Nat → Str} {h : List Op} {c : Chain}
    (hr : (Chain.fresh er).run h = .ok c) (i k : Nat) :
    ((∃ c', c.step (.cancel i k) = .ok c') ↔
      (1 ≤ k ∧ k ≤ (added i (recent i h)).length ∧ .cancel i k ∉ recent i h)) ∧
    ((¬ ∃ c', c.step (.cancel i k) = .ok c') → c.step (.cancel i k) = .error .keyError) := by
  have hi := inv_run hr
  have hstep : c.step (.cancel i k) = if (c i).cleanup.any (·.1 == k)
      then .ok (c.upd i { c i with cleanup := (c i).cleanup.filter (·.1 != k) })
      else .error .keyError := by
    simp only [Chain.step, Block.removeCleanup, Dict.del]
    split <;> rfl
  have hany : (c i).cleanup.any (·.1 == k) = true ↔
      (1 ≤ k ∧ k ≤ (added i (recent i h)).length ∧ .cancel i k ∉ recent i h) := by
    rw [hi.dict i, List.any_eq_true]
    constructor
    · rintro ⟨⟨k', v⟩, hp, hk⟩
      simp only [beq_iff_eq] at hk
      subst hk
      exact liveDict_key hp
    · rintro ⟨h1, h2, h3⟩
      refine ⟨(k, (added i (recent i h))[k - 1]'(by omega)), ?_, by simp⟩
      unfold liveDict
      rw [List.mem_filterMap]
      refine ⟨((added i (recent i h))[k - 1]'(by omega), k), ?_, by simp [h3]⟩
      rw [List.mk_mem_zipIdx_iff_le_and_getElem?_sub]
      exact ⟨h1, by simp⟩
  constructor
  · rw [← hany, hstep]
    split <;> simp_all
  · intro hn
    rw [hstep] at hn ⊢
    split <;> simp_all

/-- C03 (twice): cancelling the same handle twice in a row raises `KeyError`. -/
theorem C03_cancel_twice {er : Nat → Str} {h : List Op} {c c' : Chain}
    (hr : (Chain.fresh er).run h = .ok c) {i k : Nat} (hc : c.step (.cancel i k) = .ok c') :
    c'.step (.cancel i k) = .error .keyError := by
  have hr' : (Chain.fresh er).run (h ++ [.cancel i k]) = .ok c' := by
    rw [Chain.run_append, hr]; simp [Except.bind, Chain.run, hc, bind, pure]
  obtain ⟨h1, h2⟩ := C03_cancel_ok_iff hr' i k
  apply h2
  rw [h1]
  rintro ⟨_, _, h3⟩
  apply h3
  rw [recent_snoc]; simp

/-- Non-vacuity: three additions in two blocks, one cancelled. -/
example : ∃ c, (Chain.fresh (fun _ => "return NULL;".toList)).run
      [.add 0 "free(a);".toList, .add 1 "free(b);".toList, .add 1 "free(c);".toList,
       .cancel 1 1, .add 1 "free(d);".toList] = .ok c ∧
    c.getCleanup 1 = ["free(d);".toList, "free(c);".toList, "free(a);".toList] :=
  ⟨_, rfl, by
    rw [C03_cleanup_lifo (er := fun _ => "return NULL;".toList)
      (h := [.add 0 "free(a);".toList, .add 1 "free(b);".toList, .add 1 "free(c);".toList,
       .cancel 1 1, .add 1 "free(d);".toList]) rfl]
    decide⟩

/-! ## C04 -/

/-- C04 (finding): a handle does *not* identify one cleanup for ever.  After `clear()` the
positions restart, so a stale handle cancels a chunk it was not returned for: the history
add "a" (handle 1), clear, add "b" (handle 1 again), cancel the *first* handle leaves nothing to
clean up, although "b" was never cancelled. -/
theorem C04_stale_handle_counterexample :
    ∃ (c₀ c₁ c₂ : Chain) (h₁ h₂ : Nat),
      -- add "a" to a new block, get handle h₁, then clear
      h₁ = ((Chain.fresh (fun _ => [])) 0 |>.addCleanup ['a']).2 ∧
      (Chain.fresh (fun _ => [])).run [.add 0 ['a'], .clear 0] = .ok c₀ ∧
      -- add "b", get handle h₂
      h₂ = ((c₀ 0).addCleanup ['b']).2 ∧ c₀.step (.add 0 ['b']) = .ok c₁ ∧
      c₁.getCleanup 0 = [['b']] ∧
      -- cancel h₁: "b" is gone
      c₁.step (.cancel 0 h₁) = .ok c₂ ∧ c₂.getCleanup 0 = [] := by
  refine ⟨_, _, _, 1, 1, rfl, rfl, rfl, rfl, ?_, rfl, ?_⟩ <;>
    simp [Chain.getCleanup, Block.ownCleanup, Chain.upd, Block.addCleanup, Block.clear, Dict.set,
      Chain.fresh]

/-- C04 (partial): on blocks that are not cleared, cancelling the handle of an addition removes
that addition and no other.  `code` was added at the point `h₁ | h₂` of the history; what is left
after cancelling is what is due for the other additions: the chunks before it and after it, less
their own cancellations.  (Missing from the full claim: histories with `clear()`, for which the
claim is false, see `C04_stale_handle_counterexample`.) -/
theorem C04_cancel_removes_own_partial {er : Nat → Str} {h₁ h₂ : List Op} {code : Str}
    {i : Nat} {c₁ c c' : Chain} (hnc : .clear i ∉ h₁ ++ .add i code :: h₂)
    (hr₁ : (Chain.fresh er).run h₁ = .ok c₁)
    (hr : (Chain.fresh er).run (h₁ ++ .add i code :: h₂) = .ok c)
    (hc : c.step (.cancel i ((c₁ i).addCleanup code).2) = .ok c') :
    ∃ newer older : List Str, (c i).ownCleanup = newer ++ code :: older ∧
      (c' i).ownCleanup = newer ++ older ∧ newer.length ≤ (added i h₂).length ∧
      older.length ≤ (added i h₁).length := by
  have hrec : ∀ h : List Op, .clear i ∉ h → recent i h = h := by
    intro h hn
    unfold recent
    rw [List.takeWhile_eq_self_iff.2, List.reverse_reverse]
    intro x hx
    simp only [ne_eq, decide_not, Bool.not_eq_eq_eq_not, Bool.not_true, decide_eq_false_iff_not]
    rintro rfl
    exact hn (by simpa using hx)
  have hi := inv_run hr
  have hpos : ((c₁ i).addCleanup code).2 = (added i h₁).length + 1 := by
    show (c₁ i).lastPos + 1 = _
    rw [(inv_run hr₁).last i, hrec h₁ (fun h => hnc (by simp [h]))]
  rw [hpos] at hc
  have hr' : (Chain.fresh er).run ((h₁ ++ .add i code :: h₂) ++ [.cancel i ((added i h₁).length + 1)])
      = .ok c' := by
    rw [Chain.run_append, hr]; simp [Except.bind, Chain.run, hc, bind, pure]
  have hi' := inv_run hr'
  have hok := (C03_cancel_ok_iff hr i ((added i h₁).length + 1)).1.1 ⟨c', hc⟩
  rw [hrec _ hnc] at hok
  have hadd : added i (h₁ ++ .add i code :: h₂) = added i h₁ ++ code :: added i h₂ := by
    unfold added; rw [List.filterMap_append]; simp
  rw [ownCleanup_eq hi, ownCleanup_eq hi']
  unfold due
  rw [recent_snoc, if_neg (by simp), hrec _ hnc, added_snoc]
  simp only [List.append_nil, hadd, List.zipIdx_append, List.zipIdx_cons, List.filterMap_append,
    List.filterMap_cons]
  generalize hR : h₁ ++ Op.add i code :: h₂ = R at *
  set n := (added i h₁).length with hn
  have e1 : (if R.contains (Op.cancel i (1 + n)) = true then none else some code) = some code := by
    rw [if_neg]; rw [Nat.add_comm]; simpa using hok.2.2
  have e2 : (if (R ++ [Op.cancel i (n + 1)]).contains (Op.cancel i (1 + n)) = true
      then (none : Option Str) else some code) = none := by
    rw [if_pos]; simp [Nat.add_comm]
  rw [e1, e2]
  have f1 : ∀ p ∈ (added i h₁).zipIdx 1,
      (R ++ [Op.cancel i (n + 1)]).contains (.cancel i p.2) = R.contains (.cancel i p.2) := by
    intro p hp
    obtain ⟨_, h2, _⟩ := List.mem_zipIdx hp
    have : p.2 ≠ n + 1 := by omega
    simp [this]
  have f2 : ∀ p ∈ (added i h₂).zipIdx (1 + n + 1),
      (R ++ [Op.cancel i (n + 1)]).contains (.cancel i p.2) = R.contains (.cancel i p.2) := by
    intro p hp
    obtain ⟨h1, _, _⟩ := List.mem_zipIdx hp
    have : p.2 ≠ n + 1 := by omega
    simp [this]
  have g1 := List.filterMap_congr (l := (added i h₁).zipIdx 1)
    (f := fun p => if (R ++ [Op.cancel i (n + 1)]).contains (.cancel i p.2) then none else some p.1)
    (g := fun p => if R.contains (.cancel i p.2) then none else some p.1)
    (fun p hp => by rw [f1 p hp])
  have g2 := List.filterMap_congr (l := (added i h₂).zipIdx (1 + n + 1))
    (f := fun p => if (R ++ [Op.cancel i (n + 1)]).contains (.cancel i p.2) then none else some p.1)
    (g := fun p => if R.contains (.cancel i p.2) then none else some p.1)
    (fun p hp => by rw [f2 p hp])
  rw [g1, g2]
  refine ⟨(((added i h₂).zipIdx (1 + n + 1)).filterMap
      (fun p => if R.contains (.cancel i p.2) then none else some p.1)).reverse,
    (((added i h₁).zipIdx 1).filterMap
      (fun p => if R.contains (.cancel i p.2) then none else some p.1)).reverse, ?_, ?_, ?_, ?_⟩
  · simp only [List.reverse_append, List.reverse_cons, List.append_assoc, List.singleton_append]
  · simp only [List.reverse_append]
  · rw [List.length_reverse]
    exact (List.length_filterMap_le _ _).trans (by simp)
  · rw [List.length_reverse]
    exact (List.length_filterMap_le _ _).trans (by simp [hn])

/-- Non-vacuity: the middle one of three chunks is cancelled. -/
example : ∃ c₁ c c', (Chain.fresh (fun _ => [])).run [.add 0 ['a']] = .ok c₁ ∧
    (Chain.fresh (fun _ => [])).run ([.add 0 ['a']] ++ .add 0 ['b'] :: [.add 0 ['c']]) = .ok c ∧
    c.step (.cancel 0 ((c₁ 0).addCleanup ['b']).2) = .ok c' ∧
    .clear 0 ∉ [Op.add 0 ['a']] ++ .add 0 ['b'] :: [.add 0 ['c']] :=
  ⟨_, _, _, rfl, rfl, rfl, by decide⟩

/-! ## C05 -/

theorem writeAll_spec (m : CodeSink.Mem) (chunks : List Str) :
    writeAll m chunks = { m with lines := m.lines ++
      (chunks.map (CodeSink.indented m.core.level)).flatten } := by
  unfold writeAll
  induction chunks generalizing m with
  | nil => simp
  | cons s ss ih =>
    rw [List.foldl_cons, ih]
    simp [CodeSink.Mem.writeln, CodeSink.Core.format, CodeSink.indented]

theorem errorCheckTo_spec (c : Chain) (i : Nat) (expr : Str) (extra : Option Str)
    (m : CodeSink.Mem) : ∃ m', c.writeErrorCheckTo i expr extra m = .ok m' ∧
      m'.lines = m.lines ++
        CodeSink.indented m.core.level ("if (".toList ++ expr ++ ") {".toList) ++
        ((extra.toList ++ c.getCleanup i ++ [(c i).errorReturn]).map
          (CodeSink.indented (m.core.level + 4))).flatten ++
        CodeSink.indented m.core.level "}".toList ∧ m'.core = m.core := by
  cases extra with
  | none =>
    refine ⟨{ m with lines := _ }, ?_, rfl, rfl⟩
    simp [Chain.writeErrorCheckTo, Chain.writeErrorReturnTo, Chain.writeCleanupTo, writeAll_spec,
        CodeSink.Mem.writeln, CodeSink.Core.format, CodeSink.indented, CodeSink.Core.indent,
        CodeSink.Core.unindent, pure, Except.pure, bind, Except.bind]
  | some x =>
    refine ⟨{ m with lines := _ }, ?_, rfl, rfl⟩
    simp [Chain.writeErrorCheckTo, Chain.writeErrorReturnTo, Chain.writeCleanupTo, writeAll_spec,
        CodeSink.Mem.writeln, CodeSink.Core.format, CodeSink.indented, CodeSink.Core.indent,
        CodeSink.Core.unindent, pure, Except.pure, bind, Except.bind]

/-- C05 (content): in any state reached by any history `h`, `write_error_check(expr, extra)`
appends to the block's sink the `if (expr) {` line, and one level (4 blanks) deeper the extra
cleanup, all cleanup due by the history newest first, the error return, and then `}` — and nothing
else changes: no cleanup is consumed, other blocks and the indentation are untouched. -/
theorem C05_error_check_text {er : Nat → Str} {h : List Op} {c : Chain}
    (hr : (Chain.fresh er).run h = .ok c) (i : Nat) (expr : Str) (extra : Option Str) :
    ∃ c', c.step (.errorCheck i expr extra) = .ok c' ∧
      (c' i).sink.lines = (c i).sink.lines ++
        CodeSink.indented (c i).sink.core.level ("if (".toList ++ expr ++ ") {".toList) ++
        ((extra.toList ++ dueChain h i ++ [er i]).map
          (CodeSink.indented ((c i).sink.core.level + 4))).flatten ++
        CodeSink.indented (c i).sink.core.level "}".toList ∧
      (c' i).sink.core = (c i).sink.core ∧
      (∀ j, c'.getCleanup j = c.getCleanup j) ∧
      (∀ j, j ≠ i → c' j = c j) := by
  have hd := C03_cleanup_lifo hr i
  have her := (inv_run hr).err i
  obtain ⟨m, h1, h2, h3⟩ := errorCheckTo_spec c i expr extra (c i).sink
  rw [hd, her] at h2
  have hs : c.step (.errorCheck i expr extra) = .ok (c.upd i { c i with sink := m }) := by
    simp [Chain.step, h1, bind, Except.bind, pure, Except.pure]
  refine ⟨_, hs, ?_, ?_, ?_, ?_⟩
  · rw [upd_same]; exact h2
  · rw [upd_same]; exact h3
  · intro j
    have : ∀ j, ((c.upd i { c i with sink := m }) j).ownCleanup = (c j).ownCleanup := by
      intro j
      by_cases hj : j = i
      · subst hj; rw [upd_same]; rfl
      · rw [upd_ne _ _ hj]
    induction j with
    | zero => exact this 0
    | succ j ih => simp only [Chain.getCleanup, this, ih]
  · intro j hj; exact upd_ne _ _ hj

/-- C05 (stability): what a block's sink already holds stays, unaltered, as initial part of it
through every later history that does not clear the block — so later additions or cancellations
do not alter error checks already emitted. -/
theorem C05_emitted_text_stable {c c' : Chain} {h : List Op} {i : Nat}
    (hn : .clear i ∉ h) (hr : c.run h = .ok c') :
    (c i).sink.lines <+: (c' i).sink.lines := by
  have wl : ∀ (m : CodeSink.Mem) (s : Str), m.lines <+: (m.writeln s).lines :=
    fun m s => List.prefix_append _ _
  have wa : ∀ (m : CodeSink.Mem) (s : List Str), m.lines <+: (writeAll m s).lines := by
    intro m s; rw [writeAll_spec]; exact List.prefix_append _ _
  induction h generalizing c with
  | nil => cases hr; exact List.prefix_refl _
  | cons o os ih =>
    simp only [Chain.run, bind, Except.bind] at hr
    cases hs : c.step o with
    | error e => simp [hs] at hr
    | ok c1 =>
      rw [hs] at hr
      refine List.IsPrefix.trans ?_ (ih (fun h => hn (List.mem_cons_of_mem _ h)) hr)
      have hn0 : o ≠ .clear i := fun h => hn (by simp [h])
      have tri : ∀ (j : Nat) (b : Block), c1 = c.upd j b →
          (c j).sink.lines <+: b.sink.lines → (c i).sink.lines <+: (c1 i).sink.lines := by
        intro j b hb hp
        subst hb
        by_cases hij : i = j
        · subst hij; rw [upd_same]; exact hp
        · rw [upd_ne _ _ hij]; exact List.prefix_refl _
      cases o with
      | add j code => cases hs; exact tri j _ rfl (List.prefix_refl _)
      | cancel j pos =>
        simp only [Chain.step, Block.removeCleanup, Dict.del] at hs
        split at hs
        · cases hs; exact tri j _ rfl (List.prefix_refl _)
        · simp [Except.map, bind, Except.bind] at hs
      | clear j =>
        cases hs
        have hij : i ≠ j := fun h => hn0 (by rw [h])
        rw [upd_ne _ _ hij]; exact List.prefix_refl _
      | writeCode j s => cases hs; exact tri j _ rfl (wl _ _)
      | indent j n => cases hs; exact tri j _ rfl (List.prefix_refl _)
      | unindent j =>
        simp only [Chain.step, bind, Except.bind] at hs
        split at hs
        · cases hs
        · cases hs; exact tri j _ rfl (List.prefix_refl _)
      | writeCleanup j => cases hs; exact tri j _ rfl (wa _ _)
      | errorReturn j => cases hs; exact tri j _ rfl ((wa _ _).trans (wl _ _))
      | errorCheck j e x =>
        simp only [Chain.step, bind, Except.bind] at hs
        split at hs
        · cases hs
        · next m hm =>
          cases hs
          refine tri j _ rfl ?_
          show _ <+: m.lines
          obtain ⟨m', h1, h2, _⟩ := errorCheckTo_spec c j e x (c j).sink
          rw [hm] at h1; cases h1
          rw [h2, List.append_assoc, List.append_assoc]
          exact List.prefix_append _ _

/-- Non-vacuity: the doctest in base.py:119-138. -/
example : ∃ c c' : Chain, (Chain.fresh (fun _ => "return NULL;".toList)).run
      [.writeCode 0 "foo();".toList, .add 0 "clean1();".toList, .add 0 "clean2();".toList,
       .add 0 "clean3();".toList, .cancel 0 2] = .ok c ∧
    c.step (.errorCheck 0 "error()".toList (some "error_clean()".toList)) = .ok c' ∧
    (c' 0).sink.lines = ["foo();".toList, "if (error()) {".toList, "    error_clean()".toList,
      "    clean3();".toList, "    clean1();".toList, "    return NULL;".toList, "}".toList] := by
  have hr : ∃ c, (Chain.fresh (fun _ => "return NULL;".toList)).run
      [.writeCode 0 "foo();".toList, .add 0 "clean1();".toList, .add 0 "clean2();".toList,
       .add 0 "clean3();".toList, .cancel 0 2] = .ok c ∧ (c 0).sink = { lines := ["foo();".toList] } :=
    ⟨_, rfl, rfl⟩
  obtain ⟨c, hr, hs⟩ := hr
  obtain ⟨c', h1, h2, _⟩ := C05_error_check_text hr 0 "error()".toList (some "error_clean()".toList)
  refine ⟨c, c', hr, h1, ?_⟩
  rw [hs] at h2
  rw [h2]
  decide

end Verif.CodeBlock
