import Verif.Runtime.Str

/-!
# C124: `str()` of wrapped objects
-/
namespace Verif.Str
open Verif Verif.CppClass Verif.Wrap

/-! ## Specification -/

/-- No class in the ancestry of `c` has several bases. -/
inductive Linear (h : Hier) : Nat → Prop where
  | root {c} : h.bases c = [] → Linear h c
  | up {c b} : h.bases c = [b] → Linear h b → Linear h c

/-- `k` is the nearest class, going up from `c`, for which an output stream operator was registered. -/
inductive Nearest (h : Hier) (r : Reg) : Nat → Nat → Prop where
  | here {c} : r.stream c = true → Nearest h r c c
  | up {c b k} : r.stream c = false → h.bases c = [b] → Nearest h r b k → Nearest h r c k

/-! ## Proof -/

/-- The slot of the `tp_base`. -/
def baseSlot {h : Hier} (m : PyMro h) (r : Reg) (b : Nat) : Slot :=
  match (h.bases b).head? with
  | none => .object
  | some p => slot m r p

/-- `SLOTDEFINED`. -/
def defined {h : Hier} (m : PyMro h) (r : Reg) (b : Nat) : Option Slot :=
  if slot m r b = baseSlot m r b then none else some (slot m r b)

theorem attach_findSome {α β : Type} (f : α → Option β) : ∀ l : List α,
    l.attach.findSome? (fun b => f b.1) = l.findSome? f := by
  intro l
  conv_rhs => rw [← List.attach_map_subtype_val l]
  rw [List.findSome?_map]
  rfl

theorem slot_eq {h : Hier} (m : PyMro h) (r : Reg) (c : Nat) :
    slot m r c = (r.own c).getD ((((m.mro c).tail).findSome? (defined m r)).getD .object) := by
  rw [slot]
  cases hown : r.own c with
  | some s => rfl
  | none =>
    have hf : (m.mro c).filter (· < c) = (m.mro c).tail := by
      obtain ⟨l, hl, hk⟩ := m.head c
      rw [hl, List.filter_cons, if_neg (by simp), List.tail_cons, List.filter_eq_self]
      intro k hm
      simpa using hk k hm
    show _ = ((m.mro c).tail.findSome? (defined m r)).getD .object
    rw [← hf, ← attach_findSome (defined m r)]
    simp only
    congr 2
    funext b
    unfold defined baseSlot
    split <;> rename_i hh <;> simp only [hh]

theorem defined_some {h : Hier} {m : PyMro h} {r : Reg} {b : Nat} {s : Slot} (hd : defined m r b = some s) :
    s = slot m r b ∧ slot m r b ≠ baseSlot m r b := by
  unfold defined at hd
  split at hd
  · cases hd
  · rename_i hne; cases hd; exact ⟨rfl, hne⟩

theorem mem_tail {h : Hier} (m : PyMro h) {c b : Nat} (hb : b ∈ (m.mro c).tail) : b < c ∧ Ancestor h b c := by
  obtain ⟨l, hl, hk⟩ := m.head c
  rw [hl, List.tail_cons] at hb
  exact ⟨hk b hb, m.sound c b (by rw [hl]; exact List.mem_cons_of_mem _ hb)⟩

theorem ancestor_refl (h : Hier) (c : Nat) : Ancestor h c c := ⟨0, .refl c⟩

theorem path_trans {h : Hier} {n m a b c : Nat} (h1 : Path h n a b) (h2 : Path h m b c) : ∃ k, Path h k a c := by
  induction h2 with
  | refl => exact ⟨_, h1⟩
  | step _ hb ih => obtain ⟨k, hk⟩ := ih h1; exact ⟨k + 1, .step hk hb⟩

theorem ancestor_trans {h : Hier} {a b c : Nat} (h1 : Ancestor h a b) (h2 : Ancestor h b c) : Ancestor h a c := by
  obtain ⟨n, h1⟩ := h1
  obtain ⟨m, h2⟩ := h2
  exact path_trans h2 h1

theorem ancestor_base {h : Hier} {b c : Nat} (hb : b ∈ h.bases c) : Ancestor h b c := ⟨1, .step (.refl c) hb⟩

/-- Whatever is in a slot was put there for some ancestor. -/
theorem slot_source {h : Hier} (m : PyMro h) (r : Reg) (c : Nat) :
    slot m r c = .object ∨ ∃ k, Ancestor h k c ∧ r.own k = some (slot m r c) := by
  induction c using Nat.strongRecOn with
  | _ c ih =>
    have hc := slot_eq m r c
    cases hown : r.own c with
    | some s =>
      rw [hown] at hc
      exact .inr ⟨c, ancestor_refl h c, by rw [hown, hc]; rfl⟩
    | none =>
      rw [hown] at hc
      cases hf : ((m.mro c).tail).findSome? (defined m r) with
      | none => rw [hf] at hc; exact .inl hc
      | some s =>
        rw [hf] at hc
        obtain ⟨b, hb, hd⟩ := List.exists_of_findSome?_eq_some hf
        obtain ⟨hlt, ha⟩ := mem_tail m hb
        have hs := (defined_some hd).1
        have hcs : slot m r c = slot m r b := by rw [hc, ← hs]; rfl
        rcases ih b hlt with h0 | ⟨k, hk, hok⟩
        · exact .inl (by rw [hcs, h0])
        · exact .inr ⟨k, ancestor_trans hk ha, by rw [hcs, hok]⟩

theorem own_ne_object {r : Reg} {c : Nat} {s : Slot} (h : r.own c = some s) : s ≠ .object := by
  unfold Reg.own at h
  split at h
  · cases h; exact fun h => by cases h
  · split at h
    · cases h; exact fun h => by cases h
    · cases h

/-- A slot is `object`'s exactly if no ancestor has one of its own. -/
theorem slot_object_iff {h : Hier} (m : PyMro h) (r : Reg) (c : Nat) :
    slot m r c = .object ↔ ∀ k, Ancestor h k c → r.own k = none := by
  constructor
  · induction c using Nat.strongRecOn with
    | _ c ih =>
      intro hc k hk
      by_contra hne
      -- some class on the way has a slot different from its `tp_base`
      have step : ∀ x, slot m r x ≠ .object → ∃ y, Ancestor h y x ∧ defined m r y = some (slot m r x) := by
        intro x
        induction x using Nat.strongRecOn with
        | _ x ihx =>
          intro hx
          by_cases he : slot m r x = baseSlot m r x
          · cases hb : (h.bases x).head? with
            | none => exact absurd (by rw [he]; unfold baseSlot; rw [hb]) hx
            | some p =>
              have hp : slot m r x = slot m r p := by rw [he]; unfold baseSlot; rw [hb]
              have hm := List.mem_of_mem_head? hb
              obtain ⟨y, hy, hd⟩ := ihx p (h.acyclic x p hm) (by rw [← hp]; exact hx)
              exact ⟨y, ancestor_trans hy (ancestor_base hm), by rw [hp]; exact hd⟩
          · exact ⟨x, ancestor_refl h x, by unfold defined; rw [if_neg he]⟩
      have hcown : r.own c = none := by
        cases ho : r.own c with
        | none => rfl
        | some s =>
          have := slot_eq m r c
          rw [ho, hc] at this
          exact absurd this.symm (own_ne_object ho)
      have hkc : k ≠ c := by rintro rfl; exact hne hcown
      have hks : slot m r k ≠ .object := by
        obtain ⟨s, hs⟩ := Option.ne_none_iff_exists'.mp hne
        rw [slot_eq, hs]
        exact own_ne_object hs
      obtain ⟨y, hy, hd⟩ := step k hks
      have hyc := m.complete c y (ancestor_trans hy hk)
      have hyk : y ≠ c := by
        rintro rfl
        have h1 := mem_tail m (c := k) (b := y)
        have hy2 := m.complete k y hy
        have hk2 := m.complete y k hk
        obtain ⟨l, hl, hlt⟩ := m.head k
        obtain ⟨l', hl', hlt'⟩ := m.head y
        rw [hl] at hy2
        rw [hl'] at hk2
        rcases List.mem_cons.mp hy2 with h | h
        · exact hkc h.symm
        · rcases List.mem_cons.mp hk2 with h' | h'
          · exact hkc h'
          · have := hlt y h; have := hlt' k h'; omega
      have hyt : y ∈ (m.mro c).tail := by
        obtain ⟨l, hl, _⟩ := m.head c
        rw [hl] at hyc ⊢
        rcases List.mem_cons.mp hyc with h | h
        · exact absurd h hyk
        · exact h
      cases hf : ((m.mro c).tail).findSome? (defined m r) with
      | none =>
        rw [List.findSome?_eq_none_iff] at hf
        rw [hf y hyt] at hd
        cases hd
      | some s =>
        obtain ⟨b, hb, hbd⟩ := List.exists_of_findSome?_eq_some hf
        obtain ⟨hs, hnb⟩ := defined_some hbd
        have hcs := slot_eq m r c
        rw [hcown, hf, hc] at hcs
        have hb0 : slot m r b = .object := by rw [← hs]; exact hcs.symm
        obtain ⟨hlt, _⟩ := mem_tail m hb
        have hall := ih b hlt hb0
        apply hnb
        rw [hb0]
        unfold baseSlot
        cases hbh : (h.bases b).head? with
        | none => rfl
        | some p =>
          have hp := ancestor_base (List.mem_of_mem_head? hbh)
          rcases slot_source m r p with h0 | ⟨k', hk', ho⟩
          · exact h0.symm
          · rw [hall k' (ancestor_trans hk' hp)] at ho
            cases ho
  · intro hall
    rcases slot_source m r c with h0 | ⟨k, hk, ho⟩
    · exact h0
    · rw [hall k hk] at ho; cases ho

theorem linear_mro {h : Hier} (m : PyMro h) (r : Reg) {x : Nat} (hl : Linear h x) :
    ((m.mro x).findSome? (defined m r)).getD .object = slot m r x := by
  induction hl with
  | @root c hb =>
    rw [m.root c hb]
    have hbase : baseSlot m r c = .object := by unfold baseSlot; rw [hb]; rfl
    simp only [List.findSome?_cons, List.findSome?_nil]
    unfold defined
    rw [hbase]
    split
    · rename_i he
      split at he
      · cases he
      · cases he; rfl
    · rename_i he
      split at he
      · rename_i h0; exact h0.symm
      · cases he
  | @up c b hb _ ih =>
    rw [m.one c b hb]
    have hbase : baseSlot m r c = slot m r b := by unfold baseSlot; rw [hb]; rfl
    rw [List.findSome?_cons]
    by_cases he : slot m r c = slot m r b
    · have : defined m r c = none := by unfold defined; rw [hbase, if_pos he]
      rw [this]
      exact ih.trans he.symm
    · have : defined m r c = some (slot m r c) := by unfold defined; rw [hbase, if_neg he]
      rw [this]
      rfl

theorem linear_slot {h : Hier} (m : PyMro h) (r : Reg) {c b : Nat} (hb : h.bases c = [b]) (hl : Linear h b)
    (ho : r.own c = none) : slot m r c = slot m r b := by
  rw [slot_eq, ho, m.one c b hb]
  exact linear_mro m r hl

theorem linear_base {h : Hier} {c b : Nat} (hl : Linear h c) (hb : h.bases c = [b]) : Linear h b := by
  cases hl with
  | root h0 => rw [h0] at hb; cases hb
  | up h1 h2 => rw [h1] at hb; cases hb; exact h2

theorem nearest_slot {h : Hier} (m : PyMro h) (r : Reg) (hu : ∀ c, r.slots c = none) {c k : Nat} (hn : Nearest h r c k)
    (hl : Linear h c) : slot m r c = .generated k ∧ AtStart h c k := by
  induction hn with
  | @here c hs =>
    refine ⟨?_, .refl _⟩
    rw [slot_eq]
    unfold Reg.own
    rw [hu, hs]
    rfl
  | @up c b k hs hb _ ih =>
    obtain ⟨h1, h2⟩ := ih (linear_base hl hb)
    refine ⟨?_, .first (by rw [hb]; rfl) h2⟩
    rw [linear_slot m r hb (linear_base hl hb) (by unfold Reg.own; rw [hu, hs]; rfl), h1]

theorem takeWhile_all {b : Bytes} (h : 0 ∉ b) : b.takeWhile (· ≠ 0) = b := by
  induction b with
  | nil => rfl
  | cons x b ih =>
    have hx : x ≠ 0 := by rintro rfl; exact h List.mem_cons_self
    rw [List.takeWhile_cons_of_pos (by simpa using hx), ih (fun hm => h (List.mem_cons_of_mem _ hm))]

/-! ## C124 -/

/-- **C124** (classes with single inheritance): `str` of an initialised object returns the text that the output stream
operator of the nearest class that has one writes for it, all of it, provided the operator does not throw and what it
writes is valid UTF-8 without zero bytes. -/
theorem C124_text_partial {T : Type} {h : Hier} (u : Codec T) (m : PyMro h) (r : Reg) (hu : ∀ c, r.slots c = none)
    (c k : Nat) (hl : Linear h c) (hn : Nearest h r c k) (o : Obj) (b : Bytes) (s : T) (hw : o k = some b)
    (h0 : 0 ∉ b) (hs : u.enc s = some b) : str u m r c (some o) = .text s := by
  obtain ⟨h1, h2⟩ := nearest_slot m r hu hn hl
  unfold str
  rw [h1]
  simp only
  rw [if_pos h2, hw]
  simp only
  unfold fromString
  rw [takeWhile_all h0, (u.law b s).2 hs]

/-- **C124** (no operator): in every hierarchy, `str` falls back to `repr` exactly if neither the class nor any of its
ancestors has an output stream operator or a function of the user's. -/
theorem C124_repr_iff {T : Type} {h : Hier} (u : Codec T) (m : PyMro h) (r : Reg) (c : Nat) (obj : Option Obj) :
    str u m r c obj = .repr ↔ ∀ k, Ancestor h k c → r.stream k = false ∧ r.slots k = none := by
  have : str u m r c obj = .repr ↔ slot m r c = .object := by
    unfold str
    constructor
    · intro hs
      split at hs
      · assumption
      · cases hs
      · split at hs
        · cases hs
        · split at hs
          · split at hs
            · cases hs
            · unfold fromString at hs
              split at hs <;> cases hs
          · cases hs
    · intro hs
      rw [hs]
  rw [this, slot_object_iff]
  have hown : ∀ k, r.own k = none ↔ r.stream k = false ∧ r.slots k = none := by
    intro k
    unfold Reg.own
    cases r.slots k <;> cases r.stream k <;> simp
  simp only [hown]

/-- **C124** (the operator used belongs to the object): in every hierarchy the text comes from the operator of the class
or of one of its ancestors. -/
theorem C124_source {T : Type} {h : Hier} (u : Codec T) (m : PyMro h) (r : Reg) (c : Nat) (obj : Option Obj) (s : T)
    (hs : str u m r c obj = .text s) : ∃ k o b, Ancestor h k c ∧ r.stream k = true ∧ obj = some o ∧ o k = some b ∧
      u.enc s = some (b.takeWhile (· ≠ 0)) := by
  unfold str at hs
  split at hs
  · cases hs
  · cases hs
  · rename_i k hk
    split at hs
    · cases hs
    · rename_i o
      split at hs
      · split at hs
        · cases hs
        · rename_i b hb
          unfold fromString at hs
          split at hs
          · rename_i s' hs'
            cases hs
            rcases slot_source m r c with h0 | ⟨k', hk', ho⟩
            · rw [h0] at hk; cases hk
            · rw [hk] at ho
              unfold Reg.own at ho
              split at ho
              · cases ho
              · split at ho
                · cases ho
                  exact ⟨k, o, b, hk', by assumption, rfl, hb, (u.law _ _).1 hs'⟩
                · cases ho
          · cases hs
      · cases hs

/-- **C124** (several bases): a class with several bases, the first of which has an operator of its own, is written by
that one. -/
theorem C124_first_base {T : Type} {h : Hier} (u : Codec T) (m : PyMro h) (r : Reg) (hu : ∀ c, r.slots c = none)
    (c b : Nat) (l : List Nat) (hb : h.bases c = b :: l) (hc : r.stream c = false) (hs : r.stream b = true) (o : Obj)
    (t : Bytes) (s : T) (hw : o b = some t) (h0 : 0 ∉ t) (he : u.enc s = some t) : str u m r c (some o) = .text s := by
  have hob : r.own b = some (.generated b) := by unfold Reg.own; rw [hu, hs]; rfl
  have hsb : slot m r b = .generated b := by rw [slot_eq, hob]; rfl
  have hne : slot m r b ≠ baseSlot m r b := by
    rw [hsb]
    unfold baseSlot
    cases hh : (h.bases b).head? with
    | none => exact fun h => by cases h
    | some p =>
      simp only
      intro hp
      rcases slot_source m r p with h0 | ⟨k, hk, ho⟩
      · rw [h0] at hp; cases hp
      · rw [← hp] at ho
        have hkb : k = b := by
          unfold Reg.own at ho
          rw [hu] at ho
          simp only at ho
          split at ho
          · cases ho; rfl
          · cases ho
        subst hkb
        have hlt := h.acyclic k p (List.mem_of_mem_head? hh)
        obtain ⟨l', hl', hlt'⟩ := m.head p
        have := m.complete p k hk
        rw [hl'] at this
        rcases List.mem_cons.mp this with h | h
        · omega
        · have := hlt' k h; omega
  have hslot : slot m r c = .generated b := by
    obtain ⟨t, ht⟩ := m.first c b l hb
    rw [slot_eq, show r.own c = none by unfold Reg.own; rw [hu, hc]; rfl, ht, List.tail_cons, List.findSome?_cons,
      show defined m r b = some (slot m r b) by unfold defined; rw [if_neg hne], hsb]
    rfl
  unfold str
  rw [hslot]
  simp only
  rw [if_pos (.first (by rw [hb]; rfl) (.refl b)), hw]
  simp only
  unfold fromString
  rw [takeWhile_all h0, (u.law t s).2 he]


/-! ### Counterexamples -/

/-- A method resolution order for `side` (`C(X, B)`, `B(A)`: 3 has the bases 0 and 2, and 2 the base 1), as CPython
computes it. -/
def sideOrder : Nat → List Nat
  | 2 => [2, 1]
  | 3 => [3, 0, 2, 1]
  | n => [n]

theorem side_bases (c : Nat) : side.bases c = if c = 2 then [1] else if c = 3 then [0, 2] else [] := by
  match c with
  | 0 => rfl
  | 1 => rfl
  | 2 => rfl
  | 3 => rfl
  | n + 4 => rw [if_neg (by omega), if_neg (by omega)]; rfl

theorem sideOrder_eq (c : Nat) : sideOrder c = if c = 2 then [2, 1] else if c = 3 then [3, 0, 2, 1] else [c] := by
  match c with
  | 0 => rfl
  | 1 => rfl
  | 2 => rfl
  | 3 => rfl
  | n + 4 => rw [if_neg (by omega), if_neg (by omega)]; rfl

theorem side_mem (c k : Nat) : Ancestor side k c → k ∈ sideOrder c := by
  rintro ⟨n, hp⟩
  induction hp with
  | refl =>
    rw [sideOrder_eq]
    split
    · rename_i h; subst h; simp
    · split
      · rename_i h; subst h; simp
      · simp
  | @step _ x y z _ hb ih =>
    rw [side_bases] at hb
    rw [sideOrder_eq] at ih ⊢
    split at hb
    · rename_i hx; subst hx
      simp only [List.mem_singleton] at hb
      subst hb
      split
      · simp
      · split
        · simp
        · rename_i h2 h3
          rw [if_neg h2, if_neg h3] at ih
          simp only [List.mem_singleton] at ih
          omega
    · split at hb
      · rename_i hx; subst hx
        split
        · rename_i h2; rw [if_pos h2] at ih; simp at ih
        · rename_i h2
          rw [if_neg h2] at ih
          split
          · simp only [List.mem_cons, List.not_mem_nil, or_false] at hb ⊢
            omega
          · rename_i h3
            rw [if_neg h3] at ih
            simp only [List.mem_singleton] at ih
            omega
      · cases hb

theorem side_sound (c : Nat) : ∀ k ∈ sideOrder c, Ancestor side k c := by
  have h12 : Ancestor side 1 2 := ancestor_base (by simp [side_bases])
  have h23 : Ancestor side 2 3 := ancestor_base (by simp [side_bases])
  have h03 : Ancestor side 0 3 := ancestor_base (by simp [side_bases])
  intro k hk
  rw [sideOrder_eq] at hk
  split at hk
  · rename_i h; subst h
    simp only [List.mem_cons, List.not_mem_nil, or_false] at hk
    rcases hk with rfl | rfl
    · exact ancestor_refl _ _
    · exact h12
  · split at hk
    · rename_i h; subst h
      simp only [List.mem_cons, List.not_mem_nil, or_false] at hk
      rcases hk with rfl | rfl | rfl | rfl
      · exact ancestor_refl _ _
      · exact h03
      · exact h23
      · exact ancestor_trans h12 h23
    · rw [List.mem_singleton] at hk; subst hk; exact ancestor_refl _ _

def sideMro : PyMro side where
  mro := sideOrder
  head c := by
    rw [sideOrder_eq]
    split
    · rename_i h; subst h; exact ⟨_, rfl, by simp⟩
    · split
      · rename_i h; subst h; exact ⟨_, rfl, by simp⟩
      · exact ⟨_, rfl, by simp⟩
  sound := side_sound
  complete := side_mem
  root c hb := by
    rw [side_bases] at hb
    rw [sideOrder_eq]
    split
    · rename_i h; rw [if_pos h] at hb; cases hb
    · split
      · rename_i h2 h; rw [if_neg h2, if_pos h] at hb; cases hb
      · rfl
  one c b hb := by
    rw [side_bases] at hb
    split at hb
    · rename_i h; subst h; cases hb; rfl
    · split at hb <;> cases hb
  first c b l hb := by
    rw [side_bases] at hb
    split at hb
    · rename_i h; subst h; cases hb; exact ⟨_, rfl⟩
    · split at hb
      · rename_i h; subst h; cases hb; exact ⟨_, rfl⟩
      · cases hb

/-- Only the class `n` has an output stream operator. -/
def only (n : Nat) : Reg := ⟨fun c => c == n, fun _ => none⟩

/-- **C124** fails for a second base: `C(X, B)` where `B` has an output stream operator and neither `C` nor `X` has.
Python's `str` uses the function made for `B`, which takes the pointer to the whole object, which begins with `X`, for a
pointer to a `B`. -/
theorem C124_second_base_counterexample {T : Type} (u : Codec T) (o : Obj) :
    str u sideMro (only 2) 3 (some o) = .undefined := by
  have h2 : slot sideMro (only 2) 2 = .generated 2 := by rw [slot_eq]; rfl
  have h1 : slot sideMro (only 2) 1 = .object := by rw [slot_eq]; rfl
  have h0 : slot sideMro (only 2) 0 = .object := by rw [slot_eq]; rfl
  have h3 : slot sideMro (only 2) 3 = .generated 2 := by
    rw [slot_eq]
    show (([0, 2, 1] : List Nat).findSome? (defined sideMro (only 2))).getD .object = _
    have d0 : defined sideMro (only 2) 0 = none := by
      unfold defined
      rw [h0]
      rfl
    have d2 : defined sideMro (only 2) 2 = some (.generated 2) := by
      have hb : baseSlot sideMro (only 2) 2 = .object := h1
      unfold defined
      rw [h2, hb]
      rfl
    rw [List.findSome?_cons, d0, List.findSome?_cons, d2]
    rfl
  unfold str
  rw [h3]
  simp only
  rw [if_neg not_atStart_side]

/-- A linear order for classes without bases. -/
def flat : Hier := ⟨fun _ => [], fun _ _ h => by cases h⟩

theorem flat_ancestor {k c : Nat} (h : Ancestor flat k c) : k = c := by
  obtain ⟨n, hp⟩ := h
  cases hp with
  | refl => rfl
  | step _ hb => cases hb

def flatMro : PyMro flat where
  mro c := [c]
  head c := ⟨[], rfl, by simp⟩
  sound c k hk := by rw [List.mem_singleton] at hk; subst hk; exact ancestor_refl _ _
  complete c k hk := by rw [flat_ancestor hk]; simp
  root c _ := rfl
  one c b hb := by cases hb
  first c b l hb := by cases hb

theorem str_flat {T : Type} (u : Codec T) (o : Obj) (b : Bytes) (hw : o 0 = some b) :
    str u flatMro (only 0) 0 (some o) = fromString u b := by
  have h0 : slot flatMro (only 0) 0 = .generated 0 := by rw [slot_eq]; rfl
  unfold str
  rw [h0]
  simp only
  rw [if_pos (.refl 0), hw]

/-- **C124** fails for texts with a zero byte: the rest is cut off. -/
theorem C124_zero_counterexample {T : Type} (u : Codec T) (o : Obj) (b b' : Bytes) (s : T) (h0 : 0 ∉ b)
    (hs : u.enc s = some b) (hw : o 0 = some (b ++ 0 :: b')) : str u flatMro (only 0) 0 (some o) = .text s := by
  rw [str_flat u o _ hw]
  have : (b ++ 0 :: b').takeWhile (· ≠ 0) = b := by
    rw [List.takeWhile_append_of_pos (by
      intro x hx
      simp only [ne_eq, decide_eq_true_eq]
      rintro rfl
      exact h0 hx), List.takeWhile_cons_of_neg (by simp), List.append_nil]
  unfold fromString
  rw [this, (u.law b s).2 hs]

/-- **C124** fails for texts that are not UTF-8, such as those of a program that writes Latin-1: `str` raises
`UnicodeDecodeError`. -/
theorem C124_encoding_counterexample {T : Type} (u : Codec T) (o : Obj) (b : Bytes) (h0 : 0 ∉ b) (hd : u.dec b = none)
    (hw : o 0 = some b) : str u flatMro (only 0) 0 (some o) = .decodeError := by
  rw [str_flat u o _ hw]
  unfold fromString
  rw [takeWhile_all h0, hd]

/-- **C124** fails for objects whose `__init__` was not called (a subclass that forgot to, or `C.__new__(C)`), in every
class that has an operator: the null pointer is dereferenced. -/
theorem C124_uninitialised_counterexample {T : Type} {h : Hier} (u : Codec T) (m : PyMro h) (r : Reg)
    (hu : ∀ c, r.slots c = none) (c k : Nat) (hl : Linear h c) (hn : Nearest h r c k) : str u m r c none = .dies := by
  obtain ⟨h1, _⟩ := nearest_slot m r hu hn hl
  unfold str
  rw [h1]

/-- **C124**: the headers the generated function needs are included, once each, and no other is. -/
theorem C124_includes (l : List Str) : ∃ new, addIncludes l = l ++ new ∧
    (∀ x, x ∈ addIncludes l ↔ x ∈ l ∨ x = "<ostream>".toList ∨ x = "<sstream>".toList) ∧
    (l.Nodup → (addIncludes l).Nodup) := by
  unfold addIncludes
  generalize ho : "<ostream>".toList = a
  generalize hs : "<sstream>".toList = b
  have hab : a ≠ b := by rw [← ho, ← hs]; decide
  by_cases h1 : a ∈ l <;> by_cases h2 : b ∈ l
  · refine ⟨[], by simp [h1, h2], ?_, ?_⟩
    · intro x; simp only [h1, h2, if_true]; constructor
      · exact .inl
      · rintro (h | rfl | rfl) <;> assumption
    · simp [h1, h2]
  · refine ⟨[b], by simp [h1, h2], ?_, ?_⟩
    · intro x
      simp only [h1, h2, if_true, if_false, List.mem_append, List.mem_singleton]
      constructor
      · rintro (h | h)
        · exact .inl h
        · exact .inr (.inr h)
      · rintro (h | rfl | h)
        · exact .inl h
        · exact .inl h1
        · exact .inr h
    · intro hn
      simp only [h1, h2, if_true, if_false]
      rw [List.nodup_append]
      exact ⟨hn, by simp, by intro x hx y hy; rw [List.mem_singleton] at hy; subst hy; rintro rfl; exact h2 hx⟩
  · refine ⟨[a], by simp [h1, h2], ?_, ?_⟩
    · intro x
      simp only [h1, h2, if_false, List.mem_append, if_true, true_or, List.mem_singleton]
      constructor
      · rintro (h | h)
        · exact .inl h
        · exact .inr (.inl h)
      · rintro (h | h | rfl)
        · exact .inl h
        · exact .inr h
        · exact .inl h2
    · intro hn
      simp only [h1, h2, if_false, List.mem_append, if_true, true_or]
      rw [List.nodup_append]
      exact ⟨hn, by simp, by intro x hx y hy; rw [List.mem_singleton] at hy; subst hy; rintro rfl; exact h1 hx⟩
  · have hb : b ∉ l ++ [a] := by simp [h2, Ne.symm hab]
    refine ⟨[a, b], by simp [h1, hb], ?_, ?_⟩
    · intro x
      simp only [h1, hb, if_false, List.mem_append, List.mem_singleton]
      constructor
      · rintro ((h | h) | h)
        · exact .inl h
        · exact .inr (.inl h)
        · exact .inr (.inr h)
      · rintro (h | h | h)
        · exact .inl (.inl h)
        · exact .inl (.inr h)
        · exact .inr h
    · intro hn
      simp only [h1, hb, if_false]
      rw [List.nodup_append, List.nodup_append]
      exact ⟨⟨hn, by simp, by intro x hx y hy; rw [List.mem_singleton] at hy; subst hy; rintro rfl; exact h1 hx⟩, by simp,
        by intro x hx y hy; rw [List.mem_singleton] at hy; subst hy; rintro rfl; exact hb hx⟩

/-! ### Examples -/

/-- `B(A)` inherits the operator of `A`. -/
example : Linear side 2 ∧ Nearest side (only 1) 2 1 :=
  ⟨.up rfl (.root rfl), .up rfl rfl (.here rfl)⟩

/-- With the operator on the first base, `C(X, B)` is written by it. -/
example : side.bases 3 = 0 :: [2] ∧ (only 0).stream 3 = false ∧ (only 0).stream 0 = true := ⟨rfl, rfl, rfl⟩

end Verif.Str
