import Verif.Register.Model
import Mathlib.Data.List.Induction

/-!
# C101: every spelling of a wrapped type finds its own handler
-/
namespace Verif.Register
open Verif Verif.CType Verif.Matcher

/-! ## Spec vocabulary -/

/-- A C++ name: an identifier, or identifiers joined by `::`, as the tokenizer reads names, with
no leading digit; not the word `const` or `volatile`. -/
def CName (a : Str) : Prop :=
  scanName a = (a, []) ∧ (∃ c cs, a = c :: cs ∧ isDig c = false) ∧
    (stripColons ⟨.name, a⟩).name ≠ [] ∧ (stripColons ⟨.name, a⟩).name ∉ kModifiers

/-- The name without a leading `::`. -/
def key (a : Str) : Str := (stripColons ⟨.name, a⟩).name

/-- The items of the type `a`, `a &` or `a *`. -/
def typeItems (a : Str) : Role → List Item
  | .ref => [.tok ⟨.name, key a⟩, .tok ⟨.syntax_, ['&']⟩]
  | .ptr => [.tok ⟨.name, key a⟩, .tok ⟨.syntax_, ['*']⟩]
  | _ => [.tok ⟨.name, key a⟩]

/-- `s` is a way to write the type `a` (or `a &`, `a *`), with any spacing, a leading `::` or not,
and any `const`/`volatile` anywhere. -/
def Writes (s a : Str) (k : Role) : Prop := ∃ l, Denotes s l ∧ Same (unqualified l) (typeItems a k)

/-- How the type `a` in a role is normally written. -/
def spelled (a : Str) : Role → Str
  | .ref => a ++ ['&']
  | .ptr => a ++ ['*']
  | _ => a

/-- The registrations an event tries to make. -/
def Ev.claims : Ev → List (Side × Str × Hd)
  | .other s (.register n h) => [(s, n, h)]
  | .other _ _ => []
  | e => e.blks.flatMap (fun b => b.regs.map (fun x => (b.side, x.1, x.2)))

/-- Nobody but handler `h` was ever given the type that `s` names, on this side. -/
def OnlyFor (es : List Ev) (sd : Side) (n : Str) (h : Hd) : Prop :=
  ∀ e ∈ es, ∀ c ∈ e.claims, c.1 = sd → normalize c.2.1 = .ok n → c.2.2 = h

/-! ## Names -/

theorem scanName_chars (s : Str) : ∀ c ∈ (scanName s).1, isIdent c = true ∨ c = ':' := by
  induction s using scanName.induct with
  | case1 cs ih =>
    intro c hc
    simp only [scanName, List.mem_cons] at hc
    rcases hc with hc | hc | hc
    · exact .inr hc
    · exact .inr hc
    · exact ih c hc
  | case2 c cs h1 h2 ih =>
    rw [scanName.eq_2 _ _ h1, if_pos h2]
    intro d hd
    simp at hd
    rcases hd with rfl | hd
    · exact .inl h2
    · exact ih d hd
  | case3 c cs h1 h2 =>
    rw [scanName.eq_2 _ _ h1, if_neg h2]
    intro d hd; simp at hd
  | case4 => intro c hc; simp [scanName] at hc

theorem CName.chars {a : Str} (h : CName a) : ∀ c ∈ key a, isIdent c = true ∨ c = ':' := by
  have h1 := scanName_chars a
  rw [h.1] at h1
  intro c hc
  apply h1
  unfold key stripColons at hc
  simp only at hc
  split at hc
  · exact List.mem_cons_of_mem _ (List.mem_cons_of_mem _ hc)
  · exact hc

theorem CName.token {a : Str} (h : CName a) : IsToken ⟨.name, a⟩ := by
  refine ⟨a ++ ['\n'], ['\n'], ?_⟩
  have hs : scanName (a ++ ['\n']) = (a, ['\n']) := by
    have := @scanName_again a '\n' [] (by decide) (by decide)
    rw [h.1] at this
    simpa using this
  obtain ⟨c, cs, rfl, hd⟩ := h.2.1
  have hc : ((isIdent c && !isDig c) || (c == ':' && (cs ++ ['\n']).head? == some ':')) = true := by
    have h1 := h.1
    rw [hd]
    by_cases hi : isIdent c = true
    · simp [hi]
    · match c, cs, h1 with
      | ':', ':' :: cs', _ => simp
      | c, cs, h1 =>
        unfold scanName at h1
        split at h1
        · rename_i heq; cases heq; simp
        · rename_i heq; cases heq; rw [if_neg hi] at h1; cases h1
        · rename_i heq; cases heq
  show step1 (c :: (cs ++ ['\n'])) = _
  unfold step1
  simp only
  rw [if_pos hc]
  unfold nameStep
  rw [List.cons_append] at hs
  rw [hs]
  rfl

theorem starTok : IsToken ⟨.syntax_, ['*']⟩ := ⟨"* ".toList, [' '], by decide⟩
theorem ampTok : IsToken ⟨.syntax_, ['&']⟩ := ⟨"& ".toList, [' '], by decide⟩

theorem prep1_name (a : Str) : prep1 ⟨.name, a⟩ = [⟨.name, key a⟩] := by
  have hk : (stripColons ⟨.name, a⟩) = ⟨.name, key a⟩ := by
    unfold key stripColons; simp only; split <;> rfl
  unfold prep1
  simp only [hk]
  rw [if_neg (by simp)]

/-- A name, alone or with `*` or `&` after it, denotes what one expects. -/
theorem denotes_name {a : Str} (h : CName a) (k : Role) (w : Str) (hw : w = [] ∨ w = [' ']) :
    (k = .value → Denotes a (typeItems a k)) ∧
    (k = .ref → Denotes (a ++ w ++ ['&']) (typeItems a k)) ∧
    (k = .ptr → Denotes (a ++ w ++ ['*']) (typeItems a k)) := by
  have hpl : ∀ x, Plain ⟨.name, x⟩ := fun x hx => by cases hx.1
  refine ⟨?_, ?_, ?_⟩
  · rintro rfl
    refine ⟨[⟨.name, a⟩], ?_, ?_⟩
    · have := C14_tokens_independent_of_spacing [] [(⟨.name, a⟩, ['\n'])] (by simp)
        ⟨by simp; decide, h.token, ⟨'\n', [], rfl, fuses_space (by decide)⟩, trivial⟩
      simpa [Spells, layout] using this
    · rw [prep_cons, prep1_name]
      exact .plain (hpl _) .nil
  · rintro rfl
    refine ⟨[⟨.name, a⟩, ⟨.syntax_, ['&']⟩], ?_, ?_⟩
    · have := C14_tokens_independent_of_spacing [] [(⟨.name, a⟩, w), (⟨.syntax_, ['&']⟩, ['\n'])] (by simp)
        ⟨by rcases hw with rfl | rfl <;> simp; decide, h.token,
          by rcases hw with rfl | rfl
             · exact ⟨'&', ['\n'], rfl, by simp [fuses]; decide⟩
             · exact ⟨' ', ['&', '\n'], rfl, fuses_space (by decide)⟩,
          by simp; decide, ampTok, ⟨'\n', [], rfl, by decide⟩, trivial⟩
      simpa [Spells, layout] using this
    · rw [prep_cons, prep1_name]
      exact .plain (hpl _) (.plain (by unfold Plain bracketNames; decide) .nil)
  · rintro rfl
    refine ⟨[⟨.name, a⟩, ⟨.syntax_, ['*']⟩], ?_, ?_⟩
    · have := C14_tokens_independent_of_spacing [] [(⟨.name, a⟩, w), (⟨.syntax_, ['*']⟩, ['\n'])] (by simp)
        ⟨by rcases hw with rfl | rfl <;> simp; decide, h.token,
          by rcases hw with rfl | rfl
             · exact ⟨'*', ['\n'], rfl, by simp [fuses]; decide⟩
             · exact ⟨' ', ['*', '\n'], rfl, fuses_space (by decide)⟩,
          by simp; decide, starTok, ⟨'\n', [], rfl, by decide⟩, trivial⟩
      simpa [Spells, layout] using this
    · rw [prep_cons, prep1_name]
      exact .plain (hpl _) (.plain (by unfold Plain bracketNames; decide) .nil)

/-- The normal form of a type in a role. -/
def normalForm (a : Str) : Role → Str
  | .ref => key a ++ " &".toList
  | .ptr => key a ++ " *".toList
  | _ => key a

theorem deepCanon_items {a : Str} (h : CName a) (k : Role) : deepCanon (typeItems a k) = typeItems a k := by
  have hm : (Item.tok ⟨.name, key a⟩).isMod = false := by
    have := h.2.2.2
    simp only [kModifiers, List.mem_cons, List.not_mem_nil, or_false, not_or] at this
    simp only [Item.isMod, Item.isNamed, Bool.or_eq_false_iff]
    constructor
    · exact beq_eq_false_iff_ne.2 this.1
    · exact beq_eq_false_iff_ne.2 this.2
  unfold deepCanon
  cases k <;> simp only [typeItems, deepList, deepItem] <;> apply canon_unqualified <;> intro i hi <;> simp at hi
  · rw [hi]; exact hm
  · rcases hi with rfl | rfl; (exact hm); decide
  · rcases hi with rfl | rfl; (exact hm); decide
  · rw [hi]; exact hm

theorem render_items {a : Str} (h : CName a) (k : Role) : render (typeItems a k) = normalForm a k := by
  have hg0 : key a ≠ ['<'] ∧ key a ≠ [','] ∧ key a ≠ ['<', ','] ∧ key a ≠ [] := by
    have := h.chars
    have hne : key a ≠ [] := h.2.2.1
    refine ⟨?_, ?_, ?_, hne⟩ <;> intro e <;> rw [e] at this
    · have := this '<' (by simp); revert this; decide
    · have := this ',' (by simp); revert this; decide
    · have := this '<' (by simp); revert this; decide
  cases k <;> simp [typeItems, render, renderAux, renderItem, normalForm, isGlue, hg0]

theorem normalize_name {a : Str} (h : CName a) (k : Role) (hk : k ≠ .shared) (w : Str) (hw : w = [] ∨ w = [' ']) :
    normalize (match k with | .ref => a ++ w ++ ['&'] | .ptr => a ++ w ++ ['*'] | _ => a) = .ok (normalForm a k) := by
  have hd := denotes_name h k w hw
  rw [← render_items h k, ← deepCanon_items h k]
  rw [normalize_iff]
  cases k with
  | value => exact ⟨_, hd.1 rfl, by rw [deepCanon_items h]⟩
  | ref => exact ⟨_, hd.2.1 rfl, by rw [deepCanon_items h]⟩
  | ptr => exact ⟨_, hd.2.2 rfl, by rw [deepCanon_items h]⟩
  | shared => exact absurd rfl hk

theorem norm_value {a : Str} (h : CName a) : normalize a = .ok (normalForm a .value) :=
  normalize_name h .value (by simp) [] (.inl rfl)
theorem norm_ref {a : Str} (h : CName a) : normalize (a ++ amp) = .ok (normalForm a .ref) := by
  simpa [amp] using normalize_name h .ref (by simp) [] (.inl rfl)
theorem norm_ptr {a : Str} (h : CName a) : normalize (a ++ star) = .ok (normalForm a .ptr) := by
  simpa [star] using normalize_name h .ptr (by simp) [] (.inl rfl)
theorem norm_ref' {a : Str} (h : CName a) : normalize (a ++ " &".toList) = .ok (normalForm a .ref) := by
  simpa using normalize_name h .ref (by simp) [' '] (.inr rfl)
theorem norm_ptr' {a : Str} (h : CName a) : normalize (a ++ " *".toList) = .ok (normalForm a .ptr) := by
  simpa using normalize_name h .ptr (by simp) [' '] (.inr rfl)

theorem key_no_space {a : Str} (h : CName a) : ' ' ∉ key a := by
  intro hs
  have := h.chars _ hs
  revert this; decide

/-- Normal forms tell names and roles apart. -/
theorem normalForm_inj {a b : Str} (ha : CName a) (hb : CName b) {k k' : Role} (hk : k ≠ .shared) (hk' : k' ≠ .shared)
    (h : normalForm a k = normalForm b k') : key a = key b ∧ k = k' := by
  have ha' := key_no_space ha
  have hb' := key_no_space hb
  have two : ∀ (x y : Str) (c d : Char), ' ' ∉ x → ' ' ∉ y → x ++ [' ', c] = y ++ [' ', d] → x = y ∧ c = d := by
    intro x y c d _ _ e
    have := List.append_inj' e rfl
    simp at this
    exact this
  have one : ∀ (x y : Str) (c : Char), ' ' ∉ x → x = y ++ [' ', c] → False := by
    intro x y c hx e
    rw [e] at hx; simp at hx
  cases k <;> cases k' <;> simp only [normalForm] at h
  · exact ⟨h, rfl⟩
  · exact absurd h (fun e => one _ _ _ ha' e)
  · exact absurd h (fun e => one _ _ _ ha' e)
  · exact absurd rfl hk'
  · exact absurd h.symm (fun e => one _ _ _ hb' e)
  · exact ⟨(two _ _ _ _ ha' hb' h).1, rfl⟩
  · exact absurd (two _ _ _ _ ha' hb' h).2 (by decide)
  · exact absurd rfl hk'
  · exact absurd h.symm (fun e => one _ _ _ hb' e)
  · exact absurd (two _ _ _ _ ha' hb' h).2 (by decide)
  · exact ⟨(two _ _ _ _ ha' hb' h).1, rfl⟩
  · exact absurd rfl hk'
  · exact absurd rfl hk
  · exact absurd rfl hk
  · exact absurd rfl hk
  · exact absurd rfl hk

/-! ## Lookup -/

/-- A type bound in a registry is found under every spelling of it. -/
theorem found_of_types (m : Matcher Hd) (name s n : Str) (l l' : List Item) (h : Hd)
    (hn : normalize name = .ok n) (hreg : m.types.get n = some h) (hd : Denotes name l)
    (hd' : Denotes s l') (hs : Same (unqualified l') l) :
    ∃ t, m.lookup s = .ok (h, none, t) ∧ traits s = .ok t := by
  -- a registry with the same bindings made by calls
  have key : ∃ t, traits s = .ok t ∧ render t.noModifiers = n := by
    have := C18_registered_found_partial (H := Unit) [.register name ()] name s n l l' () hn
      (by simp [firstReg, registers, hn]) hd hd' hs
    obtain ⟨t, h1, h2⟩ := this
    refine ⟨t, h2, ?_⟩
    unfold Matcher.lookup at h1
    rw [h2] at h1
    simp only at h1
    have hb : (Matcher.run (H := Unit) [.register name ()]).types = [(n, ())] := by
      simp [Matcher.run, Matcher.apply, Matcher.register, hn, Dict.get, Dict.set]
    by_contra hne
    have hk : (Matcher.run (H := Unit) [.register name ()]).raw (render t.noModifiers) = .keyError := by
      unfold Matcher.raw Matcher.rawFuel Matcher.rawRec
      rw [hb]
      have : Dict.get [(n, ())] (render t.noModifiers) = none := by
        simp [Dict.get]
        exact fun e => hne e.symm
      rw [this]
      have ht : (Matcher.run (H := Unit) [.register name ()]).toTry (render t.noModifiers) = [] := by
        simp [Matcher.run, Matcher.apply, Matcher.register, hn, Dict.get, Matcher.toTry]
      rw [ht]
      rfl
    rw [hk] at h1
    have htr : (Matcher.run (H := Unit) [.register name ()]).transformations = [] := by
      simp [Matcher.run, Matcher.apply, Matcher.register, hn, Dict.get]
    simp [htr, Matcher.tryTransf] at h1
  obtain ⟨t, ht, he⟩ := key
  refine ⟨t, ?_, ht⟩
  unfold Matcher.lookup
  rw [ht]
  simp only
  rw [he, raw_of_types hreg]

/-- A name bound in a role is found under every spelling. -/
theorem found_name {m : Matcher Hd} {a s : Str} {k : Role} {h : Hd} (ha : CName a) (hk : k ≠ .shared)
    (hb : m.types.get (normalForm a k) = some h) (hw : Writes s a k) :
    ∃ t, m.lookup s = .ok (h, none, t) := by
  obtain ⟨l, hd, hs⟩ := hw
  have hden := denotes_name ha k [] (.inl rfl)
  cases k with
  | value =>
    obtain ⟨t, h1, _⟩ := found_of_types m a s _ _ l h (norm_value ha) hb (hden.1 rfl) hd hs
    exact ⟨t, h1⟩
  | ref =>
    obtain ⟨t, h1, _⟩ := found_of_types m (a ++ amp) s _ _ l h (norm_ref ha) hb (by simpa [amp] using hden.2.1 rfl) hd hs
    exact ⟨t, h1⟩
  | ptr =>
    obtain ⟨t, h1, _⟩ := found_of_types m (a ++ star) s _ _ l h (norm_ptr ha) hb (by simpa [star] using hden.2.2 rfl) hd hs
    exact ⟨t, h1⟩
  | shared => exact absurd rfl hk

/-! ## Histories -/

/-- What is bound to a normal form. -/
def Regs.bound (r : Regs) (sd : Side) (n : Str) : Option Hd := (r.side sd).types.get n

theorem registers_some {n a : Str} {d h : Hd} (hb : registers n (.register a d) = some h) :
    normalize a = .ok n ∧ d = h := by
  simp only [registers] at hb
  cases hx : normalize a with
  | ok n' =>
    rw [hx] at hb
    simp only at hb
    by_cases e : n' = n
    · rw [if_pos e] at hb; simp at hb; exact ⟨by rw [e], hb⟩
    · rw [if_neg e] at hb; cases hb
  | raised e => rw [hx] at hb; cases hb
  | unmodelled => rw [hx] at hb; cases hb
  | running => rw [hx] at hb; cases hb

theorem register_get {m m' : Matcher Hd} {x n : Str} {h : Hd} (hr : m.register x h = .ok m') :
    m'.types.get n = (m.types.get n).or (registers n (.register x h)) ∧
    ∃ n', normalize x = .ok n' ∧ m.types.get n' = none := by
  unfold Matcher.register at hr
  cases hx : normalize x with
  | ok n' =>
    rw [hx] at hr
    simp only at hr
    cases hg : m.types.get n' with
    | some y => rw [hg] at hr; cases hr
    | none =>
      rw [hg] at hr
      cases hr
      refine ⟨?_, n', rfl, hg⟩
      simp only [Dict.get_set, registers, hx]
      by_cases e : n' = n
      · subst e; simp [hg]
      · simp [e]
  | raised e => rw [hx] at hr; cases hr
  | unmodelled => rw [hx] at hr; cases hr
  | running => rw [hx] at hr; cases hr

theorem doRegs_mono (l : List (Str × Hd)) (m : Matcher Hd) (n : Str) (h : Hd) (hg : m.types.get n = some h) :
    (doRegs m l).1.types.get n = some h := by
  induction l generalizing m with
  | nil => exact hg
  | cons x l ih =>
    obtain ⟨a, d⟩ := x
    unfold doRegs
    cases hr : m.register a d with
    | ok m' => exact ih _ (by rw [(register_get hr).1, hg]; rfl)
    | raised e => exact hg
    | unmodelled => exact hg
    | running => exact hg

theorem doRegs_origin (l : List (Str × Hd)) (m : Matcher Hd) (n : Str) (h : Hd)
    (hg : (doRegs m l).1.types.get n = some h) :
    m.types.get n = some h ∨ ∃ x ∈ l, normalize x.1 = .ok n ∧ x.2 = h := by
  induction l generalizing m with
  | nil => exact .inl hg
  | cons x l ih =>
    obtain ⟨a, d⟩ := x
    unfold doRegs at hg
    cases hr : m.register a d with
    | ok m' =>
      rw [hr] at hg
      rcases ih _ hg with h1 | ⟨x, hx, h1⟩
      · rw [(register_get hr).1] at h1
        cases hm : m.types.get n with
        | some y => rw [hm] at h1; exact .inl h1
        | none =>
          rw [hm] at h1
          obtain ⟨h2, h3⟩ := registers_some (show registers n (.register a d) = some h from h1)
          exact .inr ⟨(a, d), by simp, h2, h3⟩
      · exact .inr ⟨x, by simp [hx], h1⟩
    | raised e => rw [hr] at hg; exact .inl hg
    | unmodelled => rw [hr] at hg; exact .inl hg
    | running => rw [hr] at hg; exact .inl hg

/-- The first name of a block is bound afterwards, by this block or before. -/
theorem doRegs_first (a n : Str) (h : Hd) (l : List (Str × Hd)) (m : Matcher Hd) (hn : normalize a = .ok n) :
    ((doRegs m ((a, h) :: l)).1.types.get n).isSome = true := by
  unfold doRegs
  cases hr : m.register a h with
  | ok m' =>
    have : m'.types.get n = (m.types.get n).or (some h) := by
      have := (register_get (n := n) hr).1
      simpa [registers, hn] using this
    cases hm : m.types.get n with
    | some y => rw [doRegs_mono l m' n y (by rw [this, hm]; rfl)]; rfl
    | none => rw [doRegs_mono l m' n h (by rw [this, hm]; rfl)]; rfl
  | raised e =>
    unfold Matcher.register at hr
    rw [hn] at hr
    simp only at hr
    cases hm : m.types.get n with
    | some y => rfl
    | none => rw [hm] at hr; cases hr
  | unmodelled => unfold Matcher.register at hr; rw [hn] at hr; simp only at hr; split at hr <;> cases hr
  | running => unfold Matcher.register at hr; rw [hn] at hr; simp only at hr; split at hr <;> cases hr

theorem side_set (r : Regs) (s s' : Side) (m : Matcher Hd) :
    (r.setSide s m).side s' = if s' = s then m else r.side s' := by
  cases s <;> cases s' <;> rfl

theorem doBlk_mono {r : Regs} {b : Blk} {sd : Side} {n : Str} {h : Hd} (hb : r.bound sd n = some h) :
    (doBlk r b).1.bound sd n = some h := by
  unfold doBlk Regs.bound
  simp only
  rw [side_set]
  split
  · rename_i e; subst e; exact doRegs_mono _ _ _ _ hb
  · exact hb

theorem doBlk_origin {r : Regs} {b : Blk} {sd : Side} {n : Str} {h : Hd}
    (hb : (doBlk r b).1.bound sd n = some h) :
    r.bound sd n = some h ∨ (b.side = sd ∧ ∃ x ∈ b.regs, normalize x.1 = .ok n ∧ x.2 = h) := by
  unfold doBlk Regs.bound at hb
  simp only at hb
  rw [side_set] at hb
  split at hb
  · rename_i e; subst e
    rcases doRegs_origin _ _ _ _ hb with h1 | h1
    · exact .inl h1
    · exact .inr ⟨rfl, h1⟩
  · exact .inl hb

theorem doBlks_mono (bs : List Blk) {r : Regs} {sd : Side} {n : Str} {h : Hd} (hb : r.bound sd n = some h) :
    (doBlks r bs).1.bound sd n = some h := by
  induction bs generalizing r with
  | nil => exact hb
  | cons b bs ih =>
    unfold doBlks
    have h1 := doBlk_mono (b := b) hb
    rcases hd : doBlk r b with ⟨r', o⟩
    rw [hd] at h1
    cases o with
    | ok u => exact ih h1
    | raised e => exact h1
    | unmodelled => exact h1
    | running => exact h1

theorem doBlks_origin (bs : List Blk) {r : Regs} {sd : Side} {n : Str} {h : Hd}
    (hb : (doBlks r bs).1.bound sd n = some h) :
    r.bound sd n = some h ∨ ∃ b ∈ bs, b.side = sd ∧ ∃ x ∈ b.regs, normalize x.1 = .ok n ∧ x.2 = h := by
  induction bs generalizing r with
  | nil => exact .inl hb
  | cons b bs ih =>
    unfold doBlks at hb
    have one : (doBlk r b).1.bound sd n = some h → _ := doBlk_origin
    rcases hd : doBlk r b with ⟨r', o⟩
    rw [hd] at hb one
    have fin : r'.bound sd n = some h →
        r.bound sd n = some h ∨ ∃ b' ∈ b :: bs, b'.side = sd ∧ ∃ x ∈ b'.regs, normalize x.1 = .ok n ∧ x.2 = h := by
      intro h1
      rcases one h1 with h2 | h2
      · exact .inl h2
      · exact .inr ⟨b, by simp, h2⟩
    cases o with
    | ok u =>
      rcases ih hb with h1 | ⟨b', hb', h1⟩
      · exact fin h1
      · exact .inr ⟨b', by simp [hb'], h1⟩
    | raised e => exact fin hb
    | unmodelled => exact fin hb
    | running => exact fin hb

theorem apply_mono {m : Matcher Hd} {op : Op Hd} {n : Str} {h : Hd} (hg : m.types.get n = some h) :
    (m.apply op).types.get n = some h := by rw [apply_types, hg]; rfl

/-- What is bound stays bound, whatever happens. -/
theorem step_mono (e : Ev) {r : Regs} {sd : Side} {n : Str} {h : Hd} (hb : r.bound sd n = some h) :
    (step r e).1.bound sd n = some h := by
  have o : ∀ s op, ((r.setSide s ((r.side s).apply op))).bound sd n = some h := by
    intro s op
    unfold Regs.bound
    rw [side_set]
    split
    · rename_i e; subst e; exact apply_mono hb
    · exact hb
  cases e <;> first | exact doBlks_mono _ hb | exact o _ _

theorem step_origin (e : Ev) {r : Regs} {sd : Side} {n : Str} {h : Hd} (hb : (step r e).1.bound sd n = some h) :
    r.bound sd n = some h ∨ ∃ c ∈ e.claims, c.1 = sd ∧ normalize c.2.1 = .ok n ∧ c.2.2 = h := by
  have o : ∀ s op, ((r.setSide s ((r.side s).apply op))).bound sd n = some h →
      r.bound sd n = some h ∨ ∃ c ∈ (Ev.other s op).claims, c.1 = sd ∧ normalize c.2.1 = .ok n ∧ c.2.2 = h := by
    intro s op hb
    unfold Regs.bound at hb
    rw [side_set] at hb
    split at hb
    · rename_i e; subst e
      rw [apply_types] at hb
      cases hm : (r.side sd).types.get n with
      | some y => rw [hm] at hb; exact .inl (by rw [← hb]; exact hm)
      | none =>
        rw [hm] at hb
        cases op with
        | register a d =>
          right
          refine ⟨(sd, a, d), by simp [Ev.claims], rfl, ?_⟩
          exact registers_some hb
        | «alias» a b => cases hb
        | transformation t => cases hb
    · exact .inl hb
  have b : ∀ bs : List Blk, (doBlks r bs).1.bound sd n = some h →
      r.bound sd n = some h ∨
        ∃ c ∈ bs.flatMap (fun b => b.regs.map (fun x => (b.side, x.1, x.2))), c.1 = sd ∧ normalize c.2.1 = .ok n ∧ c.2.2 = h := by
    intro bs hb
    rcases doBlks_origin bs hb with h1 | ⟨b, hb', hs, x, hx, h1, h2⟩
    · exact .inl h1
    · refine .inr ⟨(b.side, x.1, x.2), ?_, hs, h1, h2⟩
      rw [List.mem_flatMap]
      exact ⟨b, hb', List.mem_map.2 ⟨x, hx, rfl⟩⟩
  cases e <;> first | exact b _ hb | exact o _ _ hb

theorem run_snoc (es : List Ev) (e : Ev) : run (es ++ [e]) = (step (run es) e).1 := by simp [run]

theorem foldl_mono (es : List Ev) {r : Regs} {sd : Side} {n : Str} {h : Hd} (hb : r.bound sd n = some h) :
    (es.foldl (fun r e => (step r e).1) r).bound sd n = some h := by
  induction es generalizing r with
  | nil => exact hb
  | cons e es ih => exact ih (step_mono e hb)

theorem run_mono {es es' : List Ev} {sd : Side} {n : Str} {h : Hd} (hb : (run es).bound sd n = some h) :
    (run (es ++ es')).bound sd n = some h := by
  unfold run
  rw [List.foldl_append]
  exact foldl_mono es' hb

theorem run_origin (es : List Ev) {sd : Side} {n : Str} {h : Hd} (hb : (run es).bound sd n = some h) :
    ∃ e ∈ es, ∃ c ∈ e.claims, c.1 = sd ∧ normalize c.2.1 = .ok n ∧ c.2.2 = h := by
  induction es using List.reverseRecOn with
  | nil => cases sd <;> cases hb
  | append_singleton es e ih =>
    rw [run_snoc] at hb
    rcases step_origin e hb with h1 | h1
    · obtain ⟨e', he', h2⟩ := ih h1
      exact ⟨e', by simp [he'], h2⟩
    · exact ⟨e, by simp, h1⟩

/-- If a type is bound at all and nobody but `h` was given it, it is bound to `h`, for good. -/
theorem bound_only {es : List Ev} {sd : Side} {n : Str} {h : Hd} (hs : ((run es).bound sd n).isSome = true)
    (ho : OnlyFor es sd n h) (es' : List Ev) : (run (es ++ es')).bound sd n = some h := by
  apply run_mono
  cases hb : (run es).bound sd n with
  | none => rw [hb] at hs; cases hs
  | some h' =>
    obtain ⟨e, he, c, hc, h1, h2, h3⟩ := run_origin es hb
    rw [← h3, ho e he c hc h1 h2]

/-- In a row of protected blocks whose names all parse, the first name of each gets bound. -/
theorem doBlks_first (bs : List Blk) (r : Regs) (hsw : ∀ b ∈ bs, b.swallow = true)
    (hn : ∀ b ∈ bs, ∀ x ∈ b.regs, ∃ n, normalize x.1 = .ok n) (b : Blk) (hb : b ∈ bs) (a : Str) (h : Hd)
    (l : List (Str × Hd)) (he : b.regs = (a, h) :: l) (n : Str) (hna : normalize a = .ok n) :
    ((doBlks r bs).1.bound b.side n).isSome = true := by
  have regs_end : ∀ (l : List (Str × Hd)) (m : Matcher Hd), (∀ x ∈ l, ∃ n, normalize x.1 = .ok n) →
      (doRegs m l).2 = .ok () ∨ (doRegs m l).2 = .raised .valueError := by
    intro l
    induction l with
    | nil => intro m _; exact .inl rfl
    | cons x l ih =>
      intro m hx
      obtain ⟨y, d⟩ := x
      unfold doRegs
      obtain ⟨n', hn'⟩ := hx (y, d) (by simp)
      cases hr : m.register y d with
      | ok m' => exact ih m' (fun x hx' => hx x (by simp [hx']))
      | raised e =>
        unfold Matcher.register at hr
        rw [hn'] at hr
        simp only at hr
        cases hm : m.types.get n' with
        | some y => rw [hm] at hr; cases hr; exact .inr rfl
        | none => rw [hm] at hr; cases hr
      | unmodelled => unfold Matcher.register at hr; rw [hn'] at hr; simp only at hr; split at hr <;> cases hr
      | running => unfold Matcher.register at hr; rw [hn'] at hr; simp only at hr; split at hr <;> cases hr
  have blk_ok : ∀ (b : Blk) (r : Regs), b.swallow = true → (∀ x ∈ b.regs, ∃ n, normalize x.1 = .ok n) →
      (doBlk r b).2 = .ok () := by
    intro b r h1 h2
    unfold doBlk
    simp only
    rcases regs_end b.regs (r.side b.side) h2 with h3 | h3 <;> rw [h3]
    · rfl
    · simp [swallowed, h1]
  induction bs generalizing r with
  | nil => cases hb
  | cons b0 bs ih =>
    unfold doBlks
    have h0 := blk_ok b0 r (hsw b0 (by simp)) (hn b0 (by simp))
    rcases hd : doBlk r b0 with ⟨r', o⟩
    rw [hd] at h0
    simp only at h0
    subst h0
    simp only
    rcases List.mem_cons.1 hb with rfl | hb
    · have : (r'.bound b.side n).isSome = true := by
        have e : r' = (doBlk r b).1 := by rw [hd]
        rw [e]
        unfold doBlk Regs.bound
        simp only
        rw [side_set, if_pos rfl, he]
        exact doRegs_first a n h l _ hna
      cases hx : r'.bound b.side n with
      | none => rw [hx] at this; cases this
      | some y => rw [doBlks_mono bs hx]; rfl
    · exact ih r' (fun b hb => hsw b (by simp [hb])) (fun b hb => hn b (by simp [hb])) hb

/-! ## C101 -/

/-- Every registration an event tries belongs to this wrapped type, in its proper role, or has
another name than `a`: the event names another type. -/
def OtherName (i : Nat) (a : Str) : Ev → Prop
  | .classNew j pol n => CName n ∧ pol = .raw ∧ (j = i ∨ key n ≠ key a)
  | .classAlias j pol n => CName n ∧ pol = .raw ∧ (j = i ∨ key n ≠ key a)
  | .enumModule _ n f => n = [] ∨ (CName n ∧ CName f ∧ key n ≠ key a ∧ key f ≠ key a)
  | .containerNew _ n => CName n ∧ key n ≠ key a
  | .containerAlias _ n => CName n ∧ key n ≠ key a
  | .other _ (.register n _) => ∀ k, normalize n ≠ .ok (normalForm a k)
  | .other _ _ => True

/-- A name and how it is decorated, as the classes, enums and containers write it. -/
theorem claim_norm {n x : Str} (hn : CName n) {k : Role} (hk : k ≠ .shared)
    (hx : normalize x = .ok (normalForm n k)) {a : Str} (ha : CName a) {k' : Role} (hk' : k' ≠ .shared)
    (h : normalize x = .ok (normalForm a k')) : key n = key a ∧ k = k' := by
  rw [hx] at h
  injection h with h
  exact normalForm_inj hn ha hk hk' h

theorem onlyFor_of_names {es : List Ev} {i : Nat} {a : Str} (ha : CName a) (h : ∀ e ∈ es, OtherName i a e)
    (sd : Side) (k : Role) (hk : k ≠ .shared) : OnlyFor es sd (normalForm a k) (.own i k) := by
  intro e he c hc _ hcn
  have h1 := h e he
  cases e with
  | classNew j pol n =>
    obtain ⟨hn, rfl, hj⟩ := h1
    by_cases hd : n = "dummy".toList
    · simp [Ev.claims, Ev.blks, classInit, hd] at hc
    · have hown : ∀ k', k' ≠ .shared → normalize c.2.1 = .ok (normalForm n k') → c.2.2 = .own j k' →
          c.2.2 = .own i k := by
        intro k' hs h2 h3
        obtain ⟨e1, rfl⟩ := claim_norm hn hs h2 ha hk hcn
        rcases hj with rfl | hj
        · exact h3
        · exact absurd e1 hj
      simp only [Ev.claims, Ev.blks, classInit, hd, if_false, ptrInit, List.cons_append, List.nil_append,
        List.flatMap_cons, List.flatMap_nil, List.map_cons, List.map_nil, List.append_nil, List.mem_cons,
        List.not_mem_nil, or_false] at hc
      rcases hc with rfl | rfl | rfl | rfl | rfl | rfl | rfl
      · exact hown .value (by simp) (norm_value hn) rfl
      · exact hown .ref (by simp) (norm_ref hn) rfl
      · exact hown .value (by simp) (norm_value hn) rfl
      · exact hown .value (by simp) (norm_value hn) rfl
      · exact hown .ptr (by simp) (norm_ptr hn) rfl
      · exact hown .ptr (by simp) (norm_ptr hn) rfl
      · exact hown .ref (by simp) (norm_ref hn) rfl
  | classAlias j pol n =>
    obtain ⟨hn, rfl, hj⟩ := h1
    have hown : ∀ k', k' ≠ .shared → normalize c.2.1 = .ok (normalForm n k') → c.2.2 = .own j k' →
        c.2.2 = .own i k := by
      intro k' hs h2 h3
      obtain ⟨e1, rfl⟩ := claim_norm hn hs h2 ha hk hcn
      rcases hj with rfl | hj
      · exact h3
      · exact absurd e1 hj
    simp only [Ev.claims, Ev.blks, classAlias, ptrAlias, List.cons_append, List.nil_append,
      List.flatMap_cons, List.flatMap_nil, List.map_cons, List.map_nil, List.append_nil, List.mem_cons,
      List.not_mem_nil, or_false] at hc
    rcases hc with rfl | rfl | rfl | rfl | rfl | rfl
    · exact hown .value (by simp) (norm_value hn) rfl
    · exact hown .ref (by simp) (norm_ref hn) rfl
    · exact hown .value (by simp) (norm_value hn) rfl
    · exact hown .ptr (by simp) (norm_ptr hn) rfl
    · exact hown .ptr (by simp) (norm_ptr hn) rfl
    · exact hown .ref (by simp) (norm_ref hn) rfl
  | enumModule j n f =>
    rcases h1 with rfl | ⟨hn, hf, h2, h3⟩
    · simp [Ev.claims, Ev.blks, enumModule] at hc
    · exfalso
      have ex : ∀ x, CName x → key x ≠ key a → ∀ k', k' ≠ .shared → normalize c.2.1 = .ok (normalForm x k') → False :=
        fun x hx hx' k' hs h4 => hx' (claim_norm hx hs h4 ha hk hcn).1
      have hne : n ≠ [] := by rintro rfl; obtain ⟨_, ⟨_, _, e, _⟩, _⟩ := hn; cases e
      simp only [Ev.claims, Ev.blks, enumModule, hne, if_false] at hc
      rw [List.flatMap_append, List.mem_append] at hc
      rcases hc with hc | hc
      · simp only [List.flatMap_cons, List.flatMap_nil, List.map_cons, List.map_nil, List.append_nil, List.mem_cons,
          List.not_mem_nil, or_false, List.cons_append, List.nil_append] at hc
        rcases hc with rfl | rfl | rfl | rfl
        · exact ex f hf h3 .value (by simp) (norm_value hf)
        · exact ex f hf h3 .value (by simp) (norm_value hf)
        · exact ex f hf h3 .ref (by simp) (norm_ref' hf)
        · exact ex f hf h3 .ptr (by simp) (norm_ptr' hf)
      · split at hc
        · simp only [List.flatMap_cons, List.flatMap_nil, List.map_cons, List.map_nil, List.append_nil, List.mem_cons,
            List.not_mem_nil, or_false, List.cons_append, List.nil_append] at hc
          rcases hc with rfl | rfl | rfl | rfl
          · exact ex n hn h2 .value (by simp) (norm_value hn)
          · exact ex n hn h2 .value (by simp) (norm_value hn)
          · exact ex n hn h2 .ref (by simp) (norm_ref' hn)
          · exact ex n hn h2 .ptr (by simp) (norm_ptr' hn)
        · simp at hc
  | containerNew j n =>
    exfalso
    obtain ⟨hn, h2⟩ := h1
    have ex : ∀ k', k' ≠ .shared → normalize c.2.1 = .ok (normalForm n k') → False :=
      fun k' hs h4 => h2 (claim_norm hn hs h4 ha hk hcn).1
    by_cases hd : n = "dummy".toList
    · simp [Ev.claims, Ev.blks, containerInit, hd] at hc
    · simp only [Ev.claims, Ev.blks, containerInit, hd, if_false, List.cons_append, List.nil_append,
        List.flatMap_cons, List.flatMap_nil, List.map_cons, List.map_nil, List.append_nil, List.mem_cons,
        List.not_mem_nil, or_false] at hc
      rcases hc with rfl | rfl | rfl | rfl | rfl
      · exact ex .value (by simp) (norm_value hn)
      · exact ex .ref (by simp) (norm_ref hn)
      · exact ex .ptr (by simp) (norm_ptr hn)
      · exact ex .value (by simp) (norm_value hn)
      · exact ex .ref (by simp) (norm_ref hn)
  | containerAlias j n =>
    exfalso
    obtain ⟨hn, h2⟩ := h1
    have ex : ∀ k', k' ≠ .shared → normalize c.2.1 = .ok (normalForm n k') → False :=
      fun k' hs h4 => h2 (claim_norm hn hs h4 ha hk hcn).1
    simp only [Ev.claims, Ev.blks, containerAlias, List.cons_append, List.nil_append,
      List.flatMap_cons, List.flatMap_nil, List.map_cons, List.map_nil, List.append_nil, List.mem_cons,
      List.not_mem_nil, or_false] at hc
    rcases hc with rfl | rfl | rfl
    · exact ex .value (by simp) (norm_value hn)
    · exact ex .ref (by simp) (norm_ref hn)
    · exact ex .value (by simp) (norm_value hn)
  | other s op =>
    cases op with
    | register n d =>
      simp only [Ev.claims, List.mem_singleton] at hc
      subst hc
      exact absurd hcn (h1 k)
    | «alias» a b => simp [Ev.claims] at hc
    | transformation t => simp [Ev.claims] at hc

theorem alias_bound (r : Regs) (i : Nat) (a : Str) (ha : CName a) (sd : Side) (k : Role) (hk : k ≠ .shared) :
    ((step r (.classAlias i .raw a)).1.bound sd (normalForm a k)).isSome = true := by
  have key := fun (b : Blk) (hb : b ∈ classAlias i .raw a) (x : Str) (h : Hd) (l : List (Str × Hd))
      (he : b.regs = (x, h) :: l) (n : Str) (hn : normalize x = .ok n) =>
    doBlks_first (classAlias i .raw a) r
      (by intro b hb; simp [classAlias, ptrAlias] at hb; rcases hb with rfl | rfl | rfl | rfl | rfl | rfl <;> rfl)
      (by
        intro b hb x hx
        simp [classAlias, ptrAlias] at hb
        rcases hb with rfl | rfl | rfl | rfl | rfl | rfl <;> simp at hx <;> subst hx <;>
          first | exact ⟨_, norm_value ha⟩ | exact ⟨_, norm_ref ha⟩ | exact ⟨_, norm_ptr ha⟩)
      b hb x h l he n hn
  cases sd <;> cases k
  · exact key ⟨.param, true, [(a, .own i .value)]⟩ (by simp [classAlias]) _ _ _ rfl _ (norm_value ha)
  · exact key ⟨.param, true, [(a ++ amp, .own i .ref)]⟩ (by simp [classAlias]) _ _ _ rfl _ (norm_ref ha)
  · exact key ⟨.param, true, [(a ++ star, .own i .ptr)]⟩ (by simp [classAlias, ptrAlias]) _ _ _ rfl _ (norm_ptr ha)
  · exact absurd rfl hk
  · exact key ⟨.ret, true, [(a, .own i .value)]⟩ (by simp [classAlias]) _ _ _ rfl _ (norm_value ha)
  · exact key ⟨.ret, true, [(a ++ amp, .own i .ref)]⟩ (by simp [classAlias]) _ _ _ rfl _ (norm_ref ha)
  · exact key ⟨.ret, true, [(a ++ star, .own i .ptr)]⟩ (by simp [classAlias, ptrAlias]) _ _ _ rfl _ (norm_ptr ha)
  · exact absurd rfl hk

/-- C101, classes without a smart pointer: once a class is known under a name — its full name, or
a typedef — every way to write that type, by value, reference or pointer, with any `const` and
any spacing, finds the class's own handler for a parameter and for a return value, whatever is
registered afterwards; provided no other type was given that name, qualified or not, before.
(Missing: without that proviso it is false, see `C101_short_name_steals_counterexample`; names
with template arguments; smart pointer classes, see `C101_smart_pointer_partial`.) -/
theorem C101_class_partial (es es' : List Ev) (i : Nat) (a s : Str) (ha : CName a) (sd : Side) (k : Role)
    (hk : k ≠ .shared) (hother : ∀ e ∈ es, OtherName i a e) (hw : Writes s a k) :
    ∃ t, ((run (es ++ [.classAlias i .raw a] ++ es')).side sd).lookup s = .ok (.own i k, none, t) := by
  refine found_name ha hk ?_ hw
  have h1 : ∀ e ∈ es ++ [.classAlias i .raw a], OtherName i a e := by
    intro e he
    rw [List.mem_append, List.mem_singleton] at he
    rcases he with he | rfl
    · exact hother e he
    · exact ⟨ha, rfl, .inl rfl⟩
  refine bound_only ?_ (onlyFor_of_names ha h1 sd k hk) es'
  rw [run_snoc]
  exact alias_bound _ i a ha sd k hk

end Verif.Register
