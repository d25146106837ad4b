import Verif.Parser.Location

/-!
# C120: a declaration belongs to the module iff its file does

Specification: a path leads to a place in the tree of directories, walked name by name from the root or from the working
directory (no symbolic links).  A declaration belongs to the module if its file is one of the headers or lies inside a
whitelisted directory.
-/
namespace Verif.Location
open Verif

/-- One step of a walk: an empty name or `.` stays, `..` goes to the parent (that of the root is the root). -/
def step (at' : List Str) (name : Str) : List Str :=
  if name = [] ∨ name = ['.'] then at'
  else if name = ['.', '.'] then at'.dropLast
  else at' ++ [name]

/-- The place a path leads to, from the place `cwd`. -/
def place (cwd : List Str) (p : Str) : List Str :=
  (split p).foldl step (if p.head? = some '/' then [] else cwd)

/-- A name as in directories. -/
def Name (n : Str) : Prop := n ≠ [] ∧ '/' ∉ n ∧ n ≠ ['.'] ∧ n ≠ ['.', '.']

/-- The absolute path of a place, as `os.getcwd()` gives it. -/
def text (l : List Str) : Str := '/' :: joined l

/-- Exactly two slashes in front, which POSIX leaves open. -/
def TwoSlashes (p : Str) : Prop := slashes p = 2

/-! ## Texts and places -/

theorem split_noSlash : ∀ (s : Str), ∀ w ∈ split s, '/' ∉ w
  | [], w, h => by
    have : w = [] := by simpa [split] using h
    simp [this]
  | c :: s, w, h => by
    unfold split at h
    by_cases hc : c = '/'
    · rw [if_pos hc] at h
      rcases List.mem_cons.mp h with rfl | h
      · simp
      · exact split_noSlash s w h
    · rw [if_neg hc] at h
      have ih := split_noSlash s
      split at h
      · have : w = [c] := by simpa using h
        rw [this]; simp; exact fun e => hc e.symm
      · rename_i v vs hv
        rcases List.mem_cons.mp h with rfl | h
        · intro hm
          rcases List.mem_cons.mp hm with e | hm
          · exact hc e.symm
          · exact ih v (by rw [hv]; simp) hm
        · exact ih w (by rw [hv]; simp [h])

theorem split_ne : ∀ (s : Str), split s ≠ []
  | [] => by simp [split]
  | c :: s => by
    unfold split
    split
    · simp
    · split <;> simp

theorem split_append {c : Str} (hc : '/' ∉ c) (s : Str) : split (c ++ '/' :: s) = c :: split s := by
  induction c with
  | nil => simp [split]
  | cons x c ih =>
    have hx : x ≠ '/' := fun e => hc (by simp [e])
    have := ih (fun h => hc (by simp [h]))
    rw [List.cons_append]
    rw [split, if_neg hx, this]

theorem split_text {l : List Str} (hl : ∀ n ∈ l, Name n) (hne : l ≠ []) (s : Str) :
    split (joined l ++ '/' :: s) = l ++ split s := by
  induction l with
  | nil => exact absurd rfl hne
  | cons c l ih =>
    cases l with
    | nil => simpa [joined] using split_append (hl c (by simp)).2.1 s
    | cons d l =>
      have h := ih (fun n hn => hl n (List.mem_cons_of_mem _ hn)) (by simp)
      simp only [joined]
      rw [List.append_assoc, List.cons_append, split_append (hl c (by simp)).2.1, h]
      rfl

theorem norm_eq : ∀ (ws acc : List Str), ['.', '.'] ∉ acc → norm true acc ws = ws.foldl step acc
  | [], _, _ => rfl
  | c :: ws, acc, h => by
    simp only [norm, List.foldl_cons]
    by_cases h1 : c = [] ∨ c = ['.']
    · rw [if_pos h1, norm_eq ws acc h]
      unfold step; rw [if_pos h1]
    · rw [if_neg h1]
      by_cases h2 : c = ['.', '.']
      · rw [if_neg]
        · rw [norm_eq ws _ (fun hm => h ((List.dropLast_subset _) hm))]
          unfold step; rw [if_neg h1, if_pos h2]
        · rintro (h3 | h3 | h3)
          · exact h3 h2
          · simp at h3
          · exact h (List.mem_of_getLast? h3.2)
      · rw [if_pos (Or.inl h2), norm_eq ws _ (by
          intro hm
          rcases List.mem_append.mp hm with hm | hm
          · exact h hm
          · exact h2 (List.mem_singleton.mp hm).symm)]
        unfold step; rw [if_neg h1, if_neg h2]

theorem foldl_names : ∀ (ws acc : List Str), (∀ w ∈ ws, '/' ∉ w) → (∀ n ∈ acc, Name n) →
    ∀ n ∈ ws.foldl step acc, Name n
  | [], _, _, h => h
  | c :: ws, acc, hw, h => by
    refine foldl_names ws (step acc c) (fun w hm => hw w (List.mem_cons_of_mem _ hm)) ?_
    unfold step
    split
    · exact h
    · rename_i h1
      split
      · exact fun n hn => h n ((List.dropLast_subset _) hn)
      · rename_i h2
        intro n hn
        rcases List.mem_append.mp hn with hn | hn
        · exact h n hn
        · have : n = c := by simpa using hn
          subst this
          exact ⟨fun e => h1 (.inl e), hw n (by simp), fun e => h1 (.inr e), h2⟩

theorem foldl_own : ∀ (l acc : List Str), (∀ n ∈ l, Name n) → l.foldl step acc = acc ++ l
  | [], acc, _ => by simp
  | c :: l, acc, h => by
    have hc := h c (by simp)
    rw [List.foldl_cons, foldl_own l _ (fun n hn => h n (List.mem_cons_of_mem _ hn))]
    unfold step
    rw [if_neg (fun e => e.elim hc.1 hc.2.2.1), if_neg hc.2.2.2]
    simp

/-- A place consists of names. -/
theorem place_names {cwd : List Str} (hcwd : ∀ n ∈ cwd, Name n) (p : Str) : ∀ n ∈ place cwd p, Name n := by
  refine foldl_names _ _ (split_noSlash p) ?_
  split
  · simp
  · exact hcwd

theorem normpath_rooted (p : Str) (h : slashes p = 1) : normpath p = text ((split p).foldl step []) := by
  have hp : p ≠ [] := by rintro rfl; cases h
  unfold normpath
  rw [if_neg hp, h]
  dsimp only
  rw [if_neg (by simp)]
  rw [show decide ((1 : Nat) ≠ 0) = true from rfl, norm_eq _ _ (by simp)]
  rfl

theorem slashes_cons {p : Str} (h : p.head? = some '/') (h2 : ¬ TwoSlashes p) : slashes p = 1 := by
  cases p with
  | nil => cases h
  | cons a p =>
    have : a = '/' := by simpa using h
    subst this
    unfold TwoSlashes at h2
    revert h2
    cases p with
    | nil => intro; rfl
    | cons b p =>
      by_cases hb : b = '/'
      · subst hb
        cases p with
        | nil => intro h2; exact absurd rfl h2
        | cons c p =>
          by_cases hc : c = '/'
          · subst hc; intro; rfl
          · intro h2
            exfalso; apply h2
            unfold slashes
            split <;> simp_all
            rename_i x heq
            exact x _ heq.symm
      · intro
        unfold slashes
        split <;> simp_all

theorem slashes_one {p : Str} (h : p.head? ≠ some '/') : slashes ('/' :: p) = 1 := by
  cases p with
  | nil => rfl
  | cons b p =>
    have : b ≠ '/' := fun e => h (by simp [e])
    unfold slashes
    split <;> simp_all

theorem joined_head {l : List Str} (hl : ∀ n ∈ l, Name n) : (joined l).head? ≠ some '/' := by
  cases l with
  | nil => simp [joined]
  | cons c l =>
    have hc := hl c (by simp)
    obtain ⟨x, xs, hx⟩ : ∃ x xs, c = x :: xs := by
      cases c with
      | nil => exact absurd rfl hc.1
      | cons x xs => exact ⟨x, xs, rfl⟩
    have hne : x ≠ '/' := fun e => hc.2.1 (by rw [hx, e]; simp)
    cases l with
    | nil => simp [joined, hx, hne]
    | cons d l => simp [joined, hx, hne]

theorem joined_last {l : List Str} (hl : ∀ n ∈ l, Name n) (hne : l ≠ []) : ∃ x, (joined l).getLast? = some x ∧ x ≠ '/' := by
  induction l with
  | nil => exact absurd rfl hne
  | cons c l ih =>
    have hc := hl c (by simp)
    cases l with
    | nil =>
      obtain ⟨x, hx⟩ : ∃ x, c.getLast? = some x := by
        cases h : c.getLast? with
        | none => exact absurd (List.getLast?_eq_none_iff.mp h) hc.1
        | some x => exact ⟨x, rfl⟩
      exact ⟨x, hx, fun e => hc.2.1 (by rw [← e]; exact List.mem_of_getLast? hx)⟩
    | cons d l =>
      obtain ⟨x, hx, h⟩ := ih (fun n hn => hl n (List.mem_cons_of_mem _ hn)) (by simp)
      refine ⟨x, ?_, h⟩
      simp only [joined]
      rw [List.getLast?_append, List.getLast?_cons, hx]
      simp

/-- `abspath` gives the text of the place. -/
theorem abspath_eq {cwd : List Str} (hcwd : ∀ n ∈ cwd, Name n) (p : Str) (h2 : ¬ TwoSlashes p) :
    abspath (text cwd) p = text (place cwd p) := by
  unfold abspath place
  by_cases hp : p.head? = some '/'
  · rw [if_pos hp, if_pos hp]
    exact normpath_rooted p (slashes_cons hp h2)
  · rw [if_neg hp, if_neg hp]
    by_cases hne : cwd = []
    · subst hne
      have : join (text []) p = '/' :: p := by
        unfold join text
        rw [if_pos (show _ ∨ ('/' :: joined []).getLast? = some '/' from Or.inr rfl)]
        rfl
      rw [this, normpath_rooted _ (slashes_one hp)]
      rw [show split ('/' :: p) = [] :: split p from by simp [split]]
      rw [List.foldl_cons]
      rfl
    · obtain ⟨x, hx, hxs⟩ := joined_last hcwd hne
      have : join (text cwd) p = '/' :: (joined cwd ++ '/' :: p) := by
        unfold join text
        rw [if_neg]
        · rfl
        · rintro (h | h)
          · cases h
          · rw [List.getLast?_cons, hx] at h
            exact hxs (by simpa using h)
      have hh : (joined cwd ++ '/' :: p).head? ≠ some '/' := by
        cases hj : joined cwd with
        | nil => rw [hj] at hx; cases hx
        | cons a b =>
          have := joined_head hcwd
          rw [hj] at this
          simpa using this
      rw [this, normpath_rooted _ (slashes_one hh)]
      rw [show split ('/' :: (joined cwd ++ '/' :: p)) = [] :: split (joined cwd ++ '/' :: p) from by
        rw [split, if_pos rfl]]
      rw [split_text hcwd hne, List.foldl_cons, List.foldl_append]
      rw [show step [] [] = [] from rfl, foldl_own _ _ hcwd]
      rfl

/-! ## Prefixes of texts -/

/-- A text of names, each behind a slash. -/
def tail : List Str → Str
  | [] => []
  | c :: l => '/' :: c ++ tail l

theorem joined_tail : ∀ (l : List Str), l ≠ [] → '/' :: joined l = tail l
  | [], h => absurd rfl h
  | [c], _ => by simp [joined, tail]
  | c :: d :: l, _ => by
    have := joined_tail (d :: l) (by simp)
    simp only [joined]
    rw [this]
    rfl

theorem tail_head (l : List Str) : tail l = [] ∨ ∃ s, tail l = '/' :: s := by
  cases l with
  | nil => exact .inl rfl
  | cons c l => exact .inr ⟨_, rfl⟩

theorem prefix_split {c d x y : Str} (hc : '/' ∉ c) (hd : '/' ∉ d) (hx : x = [] ∨ ∃ s, x = '/' :: s)
    (hy : y = [] ∨ ∃ s, y = '/' :: s) (h : c ++ x <+: d ++ y) : (x = [] ∧ c <+: d) ∨ (c = d ∧ x <+: y) := by
  induction c generalizing d with
  | nil =>
    cases d with
    | nil => exact .inr ⟨rfl, h⟩
    | cons b d =>
      rcases hx with rfl | ⟨s, rfl⟩
      · exact .inl ⟨rfl, List.nil_prefix⟩
      · have h := (List.cons_prefix_cons.mp h).1
        exact absurd (by rw [h]; simp) hd
  | cons a c ih =>
    cases d with
    | nil =>
      rcases hy with rfl | ⟨s, rfl⟩
      · have := List.prefix_nil.mp h; cases this
      · have h := (List.cons_prefix_cons.mp h).1
        exact absurd (by rw [h]; simp) hc
    | cons b d =>
      obtain ⟨rfl, h'⟩ := List.cons_prefix_cons.mp h
      clear h
      rcases ih (fun h => hc (by simp [h])) (fun h => hd (by simp [h])) h' with ⟨h1, h2⟩ | ⟨rfl, h2⟩
      · exact .inl ⟨h1, List.cons_prefix_cons.mpr ⟨rfl, h2⟩⟩
      · exact .inr ⟨rfl, h2⟩

/-- `d` lies at `w`, inside it, or at or inside a neighbour whose name begins with that of `w`. -/
def Beside (w d : List Str) : Prop :=
  w = [] ∨ ∃ parent name more rest, w = parent ++ [name] ∧ d = parent ++ (name ++ more) :: rest

theorem tail_prefix {w d : List Str} (hw : ∀ n ∈ w, Name n) (hd : ∀ n ∈ d, Name n) (h : tail w <+: tail d) :
    Beside w d := by
  induction w generalizing d with
  | nil => exact .inl rfl
  | cons c w ih =>
    cases d with
    | nil => have := List.prefix_nil.mp h; cases this
    | cons e d =>
      simp only [tail] at h
      have h := (List.cons_prefix_cons.mp h).2
      rcases prefix_split (hw c (by simp)).2.1 (hd e (by simp)).2.1 (tail_head w) (tail_head d) h with ⟨h1, h2⟩ | ⟨rfl, h2⟩
      · obtain ⟨more, rfl⟩ := h2
        have : w = [] := by cases w with | nil => rfl | cons => cases h1
        subst this
        exact .inr ⟨[], c, more, d, rfl, rfl⟩
      · cases w with
        | nil => exact .inr ⟨[], c, [], d, rfl, by simp⟩
        | cons f w =>
          rcases ih (fun n hn => hw n (List.mem_cons_of_mem _ hn)) (fun n hn => hd n (List.mem_cons_of_mem _ hn)) h2 with
            h3 | ⟨parent, name, more, rest, h3, h4⟩
          · cases h3
          · exact .inr ⟨c :: parent, name, more, rest, by rw [h3]; rfl, by rw [h4]; rfl⟩

theorem prefix_tail {w d : List Str} (h : Beside w d) (hne : w ≠ []) : tail w <+: tail d := by
  rcases h with h | ⟨parent, name, more, rest, rfl, rfl⟩
  · exact absurd h hne
  · clear hne
    induction parent with
    | nil =>
      simp only [List.nil_append, tail, List.append_nil, List.cons_append, List.append_assoc]
      exact List.cons_prefix_cons.mpr ⟨rfl, List.prefix_append _ _⟩
    | cons c p ih =>
      simp only [List.cons_append, tail]
      exact List.cons_prefix_cons.mpr ⟨rfl, (List.prefix_append_right_inj _).mpr ih⟩

theorem text_prefix {w d : List Str} (hw : ∀ n ∈ w, Name n) (hd : ∀ n ∈ d, Name n) :
    (text w <+: text d) ↔ Beside w d := by
  unfold text
  by_cases hne : w = []
  · subst hne
    exact ⟨fun _ => .inl rfl, fun _ => List.cons_prefix_cons.mpr ⟨rfl, List.nil_prefix⟩⟩
  · rw [joined_tail w hne]
    by_cases hde : d = []
    · subst hde
      refine ⟨fun h => ?_, fun h => ?_⟩
      · cases w with
        | nil => exact absurd rfl hne
        | cons c w =>
          have hc := (hw c (by simp)).1
          simp only [tail] at h
          have h := (List.cons_prefix_cons.mp h).2
          have h := List.prefix_nil.mp h
          exact absurd (List.append_eq_nil_iff.mp h).1 hc
      · rcases h with h | ⟨p, n, m, r, _, h⟩
        · exact absurd h hne
        · simp at h
    · rw [joined_tail d hde]
      exact ⟨tail_prefix hw hd, fun h => prefix_tail h hne⟩

theorem tail_inj {a b : List Str} (ha : ∀ n ∈ a, Name n) (hb : ∀ n ∈ b, Name n) (h : tail a = tail b) : a = b := by
  induction a generalizing b with
  | nil =>
    cases b with
    | nil => rfl
    | cons => cases h
  | cons c a ih =>
    cases b with
    | nil => cases h
    | cons d b =>
      simp only [tail] at h
      have h : c ++ tail a = d ++ tail b := by simpa using h
      have hca := (ha c (by simp)).2.1
      have hdb := (hb d (by simp)).2.1
      have e1 := prefix_split hca hdb (tail_head a) (tail_head b) (h ▸ List.prefix_rfl)
      have e2 := prefix_split hdb hca (tail_head b) (tail_head a) (h ▸ List.prefix_rfl)
      have hcd : c = d := by
        rcases e1 with ⟨_, e1⟩ | ⟨e1, _⟩
        · rcases e2 with ⟨_, e2⟩ | ⟨e2, _⟩
          · exact e1.eq_of_length (Nat.le_antisymm e1.length_le e2.length_le)
          · exact e2.symm
        · exact e1
      subst hcd
      rw [ih (fun n hn => ha n (List.mem_cons_of_mem _ hn)) (fun n hn => hb n (List.mem_cons_of_mem _ hn))
        (List.append_cancel_left h)]

theorem text_inj {a b : List Str} (ha : ∀ n ∈ a, Name n) (hb : ∀ n ∈ b, Name n) : text a = text b ↔ a = b := by
  refine ⟨fun h => ?_, fun h => h ▸ rfl⟩
  unfold text at h
  by_cases hae : a = []
  · by_cases hbe : b = []
    · rw [hae, hbe]
    · rw [joined_tail b hbe, hae] at h
      cases b with
      | nil => exact absurd rfl hbe
      | cons d b =>
        have hd := (hb d (by simp)).1
        simp only [tail, joined] at h
        simp at h
        exact absurd h.1 hd
  · by_cases hbe : b = []
    · rw [joined_tail a hae, hbe] at h
      cases a with
      | nil => exact absurd rfl hae
      | cons d a =>
        have hd := (ha d (by simp)).1
        simp only [tail, joined] at h
        simp at h
        exact absurd h.1 hd
    · rw [joined_tail a hae, joined_tail b hbe] at h
      exact tail_inj ha hb h

/-! ## The property -/

/-- What the user asks for: the file is one of the headers, or inside one of the directories. -/
def Belongs (cwd : List Str) (headers dirs : List Str) (file : Str) : Prop :=
  (∃ h ∈ headers, place cwd file = place cwd h) ∨ ∃ w ∈ dirs, place cwd w <+: place cwd file

/-- **C120** Exactly which declarations pass the filter: those in the headers, in the directories, and in directories or
files next to these whose name begins like theirs. -/
theorem C120_passes_iff (cwd : List Str) (headers : List Str) (dirs : Option (List Str)) (file : Str)
    (hcwd : ∀ n ∈ cwd, Name n) (h2 : ∀ p ∈ file :: (headers ++ dirs.getD []), ¬ TwoSlashes p) :
    (parseInit (text cwd) headers dirs).matches (text cwd) file = true ↔
      (∃ h ∈ headers, place cwd file = place cwd h) ∨
        ∃ w ∈ dirs.getD [], Beside (place cwd w) (place cwd file) := by
  have hf := abspath_eq hcwd file (h2 file (by simp))
  have hn := place_names hcwd
  unfold Filter.matches parseInit
  dsimp only
  rw [hf]
  have e1 : (headers.map (abspath (text cwd))).contains (text (place cwd file)) = true ↔
      ∃ h ∈ headers, place cwd file = place cwd h := by
    rw [List.contains_iff_mem, List.mem_map]
    constructor
    · rintro ⟨h, hm, e⟩
      rw [abspath_eq hcwd h (h2 h (by simp [hm]))] at e
      exact ⟨h, hm, ((text_inj (hn _) (hn _)).mp e).symm⟩
    · rintro ⟨h, hm, e⟩
      refine ⟨h, hm, ?_⟩
      rw [abspath_eq hcwd h (h2 h (by simp [hm])), e]
  have e2 : ((dirs.getD []).map (abspath (text cwd))).any (fun w => w.isPrefixOf (text (place cwd file))) = true ↔
      ∃ w ∈ dirs.getD [], Beside (place cwd w) (place cwd file) := by
    rw [List.any_map, List.any_eq_true]
    constructor
    · rintro ⟨w, hm, e⟩
      refine ⟨w, hm, ?_⟩
      rw [Function.comp_apply, abspath_eq hcwd w (h2 w (by simp [hm])), List.isPrefixOf_iff_prefix] at e
      exact (text_prefix (hn _) (hn _)).mp e
    · rintro ⟨w, hm, e⟩
      refine ⟨w, hm, ?_⟩
      rw [Function.comp_apply, abspath_eq hcwd w (h2 w (by simp [hm])), List.isPrefixOf_iff_prefix]
      exact (text_prefix (hn _) (hn _)).mpr e
  by_cases hc : (headers.map (abspath (text cwd))).contains (text (place cwd file)) = true
  · rw [if_pos hc]
    exact ⟨fun _ => .inl (e1.mp hc), fun _ => rfl⟩
  · rw [if_neg hc, e2]
    exact ⟨.inr, fun h => h.elim (fun h => absurd (e1.mpr h) hc) id⟩

theorem beside_of_prefix {w d : List Str} (h : w <+: d) : Beside w d := by
  by_cases hne : w = []
  · exact .inl hne
  · obtain ⟨r, rfl⟩ := h
    refine .inr ⟨w.dropLast, w.getLast hne, [], r, (List.dropLast_append_getLast hne).symm, ?_⟩
    rw [List.append_nil]
    conv_lhs => rw [← List.dropLast_append_getLast hne, List.append_assoc]
    rfl

/-- **C120** No declaration that belongs to the module is left out, however the paths are written. -/
theorem C120_none_lost_partial (cwd : List Str) (headers : List Str) (dirs : Option (List Str)) (file : Str)
    (hcwd : ∀ n ∈ cwd, Name n) (h2 : ∀ p ∈ file :: (headers ++ dirs.getD []), ¬ TwoSlashes p)
    (h : Belongs cwd headers (dirs.getD []) file) : (parseInit (text cwd) headers dirs).matches (text cwd) file = true := by
  rw [C120_passes_iff cwd headers dirs file hcwd h2]
  rcases h with h | ⟨w, hm, h⟩
  · exact .inl h
  · exact .inr ⟨w, hm, beside_of_prefix h⟩

/-- **C120** The filter is right if no name on the way to the file is a longer one that begins like the name of a
whitelisted directory in the same place. -/
theorem C120_exact_partial (cwd : List Str) (headers : List Str) (dirs : Option (List Str)) (file : Str)
    (hcwd : ∀ n ∈ cwd, Name n) (h2 : ∀ p ∈ file :: (headers ++ dirs.getD []), ¬ TwoSlashes p)
    (hb : ∀ w ∈ dirs.getD [], ∀ parent name more rest, place cwd w = parent ++ [name] →
      place cwd file = parent ++ (name ++ more) :: rest → more = []) :
    (parseInit (text cwd) headers dirs).matches (text cwd) file = true ↔ Belongs cwd headers (dirs.getD []) file := by
  refine ⟨fun h => ?_, C120_none_lost_partial cwd headers dirs file hcwd h2⟩
  rw [C120_passes_iff cwd headers dirs file hcwd h2] at h
  rcases h with h | ⟨w, hm, h⟩
  · exact .inl h
  · refine .inr ⟨w, hm, ?_⟩
    rcases h with h | ⟨parent, name, more, rest, h3, h4⟩
    · rw [h]; exact List.nil_prefix
    · have := hb w hm parent name more rest h3 h4
      subst this
      rw [h3, h4, List.append_nil]
      exact ⟨rest, by simp⟩

/-- **C120** Without whitelisted directories the filter lets exactly the headers pass. -/
theorem C120_headers_only_partial (cwd : List Str) (headers : List Str) (file : Str) (hcwd : ∀ n ∈ cwd, Name n)
    (h2 : ∀ p ∈ file :: headers, ¬ TwoSlashes p) :
    (parseInit (text cwd) headers none).matches (text cwd) file = true ↔ ∃ h ∈ headers, place cwd file = place cwd h := by
  rw [C120_passes_iff cwd headers none file hcwd (by simpa using h2)]
  simp

/-! ## Where it fails -/

/-- Counterexample: the directory `inc` lets the declarations of its neighbour `include` pass. -/
theorem C120_neighbour_counterexample :
    let cwd := ["home".toList]
    (parseInit (text cwd) [] (some ["inc".toList])).matches (text cwd) "include/a.h".toList = true ∧
    ¬ Belongs cwd [] ["inc".toList] "include/a.h".toList := by
  refine ⟨by decide, ?_⟩
  rintro (⟨h, hm, _⟩ | ⟨w, hm, h⟩)
  · cases hm
  · have : w = "inc".toList := by simpa using hm
    subst this
    revert h
    decide

/-- Counterexample: a header written with two slashes in front is not the same as with one. -/
theorem C120_slashes_counterexample :
    (parseInit (text []) ["//inc/a.h".toList] none).matches (text []) "/inc/a.h".toList = false ∧
    Belongs [] ["//inc/a.h".toList] [] "/inc/a.h".toList :=
  ⟨by decide, .inl ⟨"//inc/a.h".toList, by simp, by decide⟩⟩

/-! ## Cases -/

/-- Relative paths with `.` and `..` lead to the same place. -/
example :
    let cwd := ["home".toList, "me".toList]
    (∀ n ∈ cwd, Name n) ∧ ¬ TwoSlashes "../me/./a.h".toList ∧ place cwd "../me//./a.h".toList = place cwd "a.h".toList ∧
    (parseInit (text cwd) ["../me//./a.h".toList] none).matches (text cwd) "/home/me/a.h".toList = true ∧
    (parseInit (text cwd) ["a.h".toList] (some ["sub".toList])).matches (text cwd) "sub/x/../b.h".toList = true ∧
    (parseInit (text cwd) ["a.h".toList] (some ["sub".toList])).matches (text cwd) "other/b.h".toList = false := by
  refine ⟨?_, by unfold TwoSlashes; decide, by decide, by decide, by decide, by decide⟩
  unfold Name
  decide

end Verif.Location
