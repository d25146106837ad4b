import Verif.Module.Lemmas
import Verif.Utils.Props

/-!
# C29, C30 (collection), C31, C32, C49, C50: module trees
-/
namespace Verif.Module
open Verif

variable {W F : Type}

/-- Every call is made on a module that exists by then. -/
def Valid : World W F → List (Op W F) → Prop
  | _, [] => True
  | w, op :: ops => op.target < w.mods.length ∧ Valid (step w op).2 ops

theorem valid_append {w : World W F} {a b : List (Op W F)} :
    Valid w (a ++ b) ↔ Valid w a ∧ Valid (after w a) b := by
  induction a generalizing w with
  | nil => simp [Valid, after]
  | cons op ops ih => simp only [List.cons_append, Valid, ih, and_assoc]; rfl

/-! ## C29: one-time definitions -/

private theorem step_oneTime (w : World W F) (op : Op W F) (ht : op.target < w.mods.length) (n : Str) :
    n ∈ (step w op).2.oneTime ↔ n ∈ w.oneTime ∨ ∃ m, op = .declareOneTime m n := by
  unfold step
  rw [if_pos ht]
  cases op with
  | newSub m nm ns => simp [newSub, World.upd]
  | addNamespace m nm => simp only [addNamespace]; split <;> simp [newSub, World.upd]
  | beginSection m nm =>
    simp only [beginSection]
    split
    · next h' => split at h' <;> (try split at h') <;> (try split at h') <;> cases h'; simp
    · simp
  | endSection m nm =>
    simp only [endSection]
    split
    · next h' => split at h' <;> (try split at h') <;> cases h'; simp
    · simp
  | addInclude m s =>
    simp only [addInclude]
    split
    · next h' => split at h' <;> (try split at h') <;> cases h' <;> simp
    · simp
  | declareOneTime m nm =>
    simp only [declareOneTime]
    split
    · next h' =>
      split at h'
      · cases h'
      · cases h'
        simp only [List.mem_cons, Op.declareOneTime.injEq]
        constructor
        · rintro (rfl | h)
          · exact .inr ⟨m, rfl, rfl⟩
          · exact .inl h
        · rintro (h | ⟨m', _, rfl⟩)
          · exact .inr h
          · exact .inl rfl
    · next h' =>
      split at h'
      · next hc =>
        have hc : nm ∈ w.oneTime := by simpa using hc
        constructor
        · exact .inl
        · rintro (h | ⟨m', h⟩)
          · exact h
          · cases h; exact hc
      · cases h'
  | registerType m nm f t =>
    have hfold : ∀ (l : List Nat) (w : World W F),
        (l.foldl (fun w j => w.upd j (fun md => { md with types := md.types.set f t })) w).oneTime = w.oneTime := by
      intro l
      induction l with
      | nil => intro w; rfl
      | cons x xs ih => intro w; rw [List.foldl_cons, ih]; rfl
    have : (registerType w m nm f t).oneTime = w.oneTime := by
      unfold registerType
      simp only
      split
      · split <;> rfl
      · rw [hfold]; split <;> rfl
    simp [this]
  | addFunction m c nm ts f => simp [addFunction, World.upd]

private theorem after_oneTime (w : World W F) (h : List (Op W F)) (hv : Valid w h) (n : Str) :
    n ∈ (after w h).oneTime ↔ n ∈ w.oneTime ∨ ∃ m, .declareOneTime m n ∈ h := by
  induction h generalizing w with
  | nil => simp [after]
  | cons op ops ih =>
    rw [show after w (op :: ops) = after (step w op).2 ops from rfl, ih _ hv.2, step_oneTime _ _ hv.1]
    simp only [List.mem_cons]
    constructor
    · rintro ((h | ⟨m, h⟩) | ⟨m, h⟩)
      · exact .inl h
      · exact .inr ⟨m, .inl h.symm⟩
      · exact .inr ⟨m, .inr h⟩
    · rintro (h | ⟨m, h | h⟩)
      · exact .inl (.inl h)
      · exact .inl (.inr ⟨m, h.symm⟩)
      · exact .inr ⟨m, h⟩

/-- C29: after any history of calls on a module tree, declaring a one-time definition — on any
module of the tree — succeeds exactly when no module of the tree declared that name before, and
otherwise raises `KeyError`. -/
theorem C29_declare_once (name ns : Str) (h : List (Op W F)) (m : Nat) (n : Str)
    (hv : Valid (newRoot name ns) (h ++ [.declareOneTime m n])) :
    ((step (after (newRoot name ns) h) (.declareOneTime m n)).1 = none ↔
      ∀ m', .declareOneTime m' n ∉ h) ∧
    ((step (after (newRoot name ns) h) (.declareOneTime m n)).1 ≠ none →
      (step (after (newRoot name ns) h) (.declareOneTime m n)).1 = some .keyError) := by
  obtain ⟨hv1, hv2, _⟩ := valid_append.1 hv
  have hm := after_oneTime (newRoot name ns) h hv1 n
  simp only [newRoot, List.not_mem_nil, false_or] at hm
  unfold step
  rw [if_pos hv2]
  simp only [declareOneTime]
  by_cases hc : n ∈ (after (newRoot name ns) h).oneTime
  · have : (after (newRoot name ns) h).oneTime.contains n = true := by simpa using hc
    simp only [this, if_true]
    obtain ⟨m', hm'⟩ := hm.1 hc
    constructor
    · simp only [reduceCtorEq, false_iff, not_forall, not_not]; exact ⟨m', hm'⟩
    · simp
  · have : (after (newRoot name ns) h).oneTime.contains n = false := by simpa using hc
    simp only [this, Bool.false_eq_true, if_false]
    constructor
    · simp only [true_iff]; intro m' hm'; exact hc (hm.2 ⟨m', hm'⟩)
    · simp

/-- C29: over a whole history at most one declaration of each name succeeds. -/
theorem C29_at_most_one (name ns : Str) (a b c : List (Op W F)) (m m' : Nat) (n : Str)
    (hv : Valid (newRoot name ns) (a ++ .declareOneTime m n :: b ++ .declareOneTime m' n :: c)) :
    (step (after (newRoot name ns) (a ++ .declareOneTime m n :: b)) (.declareOneTime m' n)).1 =
      some .keyError := by
  have hv' : Valid (newRoot name ns) ((a ++ .declareOneTime m n :: b) ++ [.declareOneTime m' n]) := by
    rw [show a ++ .declareOneTime m n :: b ++ .declareOneTime m' n :: c =
      ((a ++ .declareOneTime m n :: b) ++ [.declareOneTime m' n]) ++ c by simp] at hv
    exact (valid_append.1 hv).1
  obtain ⟨h1, h2⟩ := C29_declare_once name ns _ m' n hv'
  refine h2 (fun h => ?_)
  exact h1.1 h m (by simp)

example : Valid (W := Nat) (F := Nat) (newRoot "m".toList [])
    [.addNamespace 0 "a".toList, .declareOneTime 1 "x".toList, .declareOneTime 0 "x".toList] := by
  simp [Valid, newRoot, step, addNamespace, getSubmodule, newSub, World.upd, Op.target, declareOneTime]

/-! ## C30: collected includes -/

/-- The includes asked for in a history, valid ones only, in order. -/
def asked : List (Op W F) → List Str
  | [] => []
  | .addInclude _ s :: ops => if includeOk s then s :: asked ops else asked ops
  | _ :: ops => asked ops

/-- First occurrences only. -/
def firsts : List Str → List Str → List Str
  | _, [] => []
  | seen, s :: r => if s ∈ seen then firsts seen r else s :: firsts (s :: seen) r

private theorem firsts_congr (a b : List Str) (h : ∀ s, s ∈ a ↔ s ∈ b) (l : List Str) :
    firsts a l = firsts b l := by
  induction l generalizing a b with
  | nil => rfl
  | cons s r ih =>
    simp only [firsts, h s]
    split
    · exact ih a b h
    · rw [ih (s :: a) (s :: b) (by intro t; simp [h t])]

private theorem step_includes (w : World W F) (op : Op W F) (ht : op.target < w.mods.length) :
    (step w op).2.includes = w.includes ++ firsts w.includes (asked [op]) := by
  unfold step
  rw [if_pos ht]
  cases op with
  | newSub m nm ns => simp [newSub, World.upd, asked, firsts]
  | addNamespace m nm => simp only [addNamespace]; split <;> simp [newSub, World.upd, asked, firsts]
  | beginSection m nm =>
    simp only [beginSection]
    split
    · next h' => split at h' <;> (try split at h') <;> (try split at h') <;> cases h'; simp [asked, firsts]
    · simp [asked, firsts]
  | endSection m nm =>
    simp only [endSection]
    split
    · next h' => split at h' <;> (try split at h') <;> cases h'; simp [asked, firsts]
    · simp [asked, firsts]
  | addInclude m s =>
    simp only [addInclude, asked]
    by_cases h1 : includeOk s = true
    · by_cases h2 : s ∈ w.includes
      · have h2' : w.includes.contains s = true := by simpa using h2
        simp [h1, h2, h2', firsts]
      · have h2' : w.includes.contains s = false := by simpa using h2
        simp [h1, h2, h2', firsts]
    · simp [h1, firsts]
  | declareOneTime m nm =>
    simp only [declareOneTime]
    split
    · next h' => split at h' <;> cases h'; simp [asked, firsts]
    · simp [asked, firsts]
  | registerType m nm f t =>
    have hfold : ∀ (l : List Nat) (w : World W F),
        (l.foldl (fun w j => w.upd j (fun md => { md with types := md.types.set f t })) w).includes = w.includes := by
      intro l
      induction l with
      | nil => intro w; rfl
      | cons x xs ih => intro w; rw [List.foldl_cons, ih]; rfl
    have : (registerType w m nm f t).includes = w.includes := by
      unfold registerType
      simp only
      split
      · split <;> rfl
      · rw [hfold]; split <;> rfl
    simp [this, asked, firsts]
  | addFunction m c nm ts f => simp [addFunction, World.upd, asked, firsts]

private theorem asked_append (a b : List (Op W F)) : asked (a ++ b) = asked a ++ asked b := by
  induction a with
  | nil => rfl
  | cons op ops ih =>
    cases op with
    | addInclude m s => simp only [List.cons_append, asked, ih]; split <;> simp
    | _ => simpa [asked] using ih

private theorem firsts_append (seen a b : List Str) :
    firsts seen (a ++ b) = firsts seen a ++ firsts (firsts seen a ++ seen) b := by
  induction a generalizing seen with
  | nil => simp [firsts]
  | cons s r ih =>
    simp only [List.cons_append, firsts]
    split
    · exact ih seen
    · rw [ih]
      simp only [List.cons_append]
      congr 2
      apply firsts_congr
      intro t; simp; tauto

/-- C30: after any history the includes that will be written are the valid ones asked for, on
whichever module, each once, ordered by first request. -/
theorem C30_includes_collected (name ns : Str) (h : List (Op W F)) (hv : Valid (newRoot name ns) h) :
    (after (newRoot name ns : World W F) h).includes = firsts [] (asked h) := by
  have key : ∀ (w : World W F), Valid w h → (after w h).includes = w.includes ++ firsts w.includes (asked h) := by
    clear hv
    induction h with
    | nil => intro w _; simp [after, asked, firsts]
    | cons op ops ih =>
      intro w hw
      rw [show after w (op :: ops) = after (step w op).2 ops from rfl, ih _ hw.2, step_includes _ _ hw.1]
      rw [show op :: ops = [op] ++ ops from rfl, asked_append, firsts_append, List.append_assoc]
      congr 2
      apply firsts_congr
      intro t; simp; tauto
  have := key _ hv
  simpa [newRoot] using this

/-- The specification `firsts` does keep each entry once, and all of them. -/
theorem C30_each_once (l : List Str) : (firsts [] l).Nodup ∧ ∀ s, s ∈ firsts [] l ↔ s ∈ l := by
  have key : ∀ seen, (firsts seen l).Nodup ∧ ∀ s, s ∈ firsts seen l ↔ s ∈ l ∧ s ∉ seen := by
    induction l with
    | nil => intro seen; simp [firsts]
    | cons x xs ih =>
      intro seen
      simp only [firsts]
      split
      · next hx =>
        refine ⟨(ih seen).1, fun s => ?_⟩
        rw [(ih seen).2]
        simp only [List.mem_cons]
        constructor
        · rintro ⟨h1, h2⟩; exact ⟨.inr h1, h2⟩
        · rintro ⟨rfl | h1, h2⟩
          · exact absurd hx h2
          · exact ⟨h1, h2⟩
      · next hx =>
        obtain ⟨h1, h2⟩ := ih (x :: seen)
        refine ⟨List.nodup_cons.2 ⟨?_, h1⟩, fun s => ?_⟩
        · rw [h2]; simp
        · simp only [List.mem_cons, h2, not_or]
          by_cases hs : s = x
          · subst hs; simp [hx]
          · simp [hs]
  obtain ⟨h1, h2⟩ := key []
  exact ⟨h1, fun s => by simpa using h2 s⟩

example : firsts [] ["<a>".toList, "<b>".toList, "<a>".toList] = ["<a>".toList, "<b>".toList] := by decide

/-! ## C31: sections -/

/-- The section open after a history of calls and their outcomes: the last successful
`begin_section` not followed by a successful `end_section`. -/
def openAfter : List (Op W F × Option PyErr) → Option Str
  | [] => none
  | h => h.foldl (fun s oe => match oe with
      | (.beginSection _ x, none) => some x
      | (.endSection _ _, none) => none
      | _ => s) none

/-- The history with the outcome of each call. -/
def outcomes : World W F → List (Op W F) → List (Op W F × Option PyErr)
  | _, [] => []
  | w, op :: ops => (op, (step w op).1) :: outcomes (step w op).2 ops

private def secUpd (s : Option Str) (oe : Op W F × Option PyErr) : Option Str :=
  match oe with
  | (.beginSection _ x, none) => some x
  | (.endSection _ _, none) => none
  | _ => s

private theorem openAfter_eq (h : List (Op W F × Option PyErr)) : openAfter h = h.foldl secUpd none := by
  cases h <;> rfl

private theorem step_section (w : World W F) (op : Op W F) (s : Option Str)
    (hs : w.section_ = s.getD mainSection) (hn : s ≠ some mainSection) :
    (step w op).2.section_ = (secUpd s (op, (step w op).1)).getD mainSection ∧
      secUpd s (op, (step w op).1) ≠ some mainSection := by
  by_cases ht : op.target < w.mods.length
  · unfold step
    rw [if_pos ht]
    cases op with
    | newSub m nm ns => exact ⟨hs, hn⟩
    | addNamespace m nm => simp only [addNamespace]; split <;> exact ⟨hs, hn⟩
    | beginSection m nm =>
      simp only [beginSection]
      split
      · next h' =>
        split at h'
        · cases h'
        · split at h'
          · cases h'
          · next hne =>
            split at h'
            · cases h'
            · cases h'; simp [secUpd, hne]
      · exact ⟨hs, hn⟩
    | endSection m nm =>
      simp only [endSection]
      split
      · next h' => split at h' <;> (try split at h') <;> cases h'; simp [secUpd]
      · exact ⟨hs, hn⟩
    | addInclude m s =>
      simp only [addInclude]
      split
      · next h' => split at h' <;> (try split at h') <;> cases h' <;> exact ⟨hs, hn⟩
      · exact ⟨hs, hn⟩
    | declareOneTime m nm =>
      simp only [declareOneTime]
      split
      · next h' => split at h' <;> cases h'; exact ⟨hs, hn⟩
      · exact ⟨hs, hn⟩
    | registerType m nm f t =>
      have hfold : ∀ (l : List Nat) (w : World W F),
          (l.foldl (fun w j => w.upd j (fun md => { md with types := md.types.set f t })) w).section_ = w.section_ := by
        intro l
        induction l with
        | nil => intro w; rfl
        | cons x xs ih => intro w; rw [List.foldl_cons, ih]; rfl
      have : (registerType w m nm f t).section_ = w.section_ := by
        unfold registerType
        simp only
        split
        · split <;> rfl
        · rw [hfold]; split <;> rfl
      exact ⟨by rw [this]; exact hs, hn⟩
    | addFunction m c nm ts f => exact ⟨hs, hn⟩
  · unfold step
    rw [if_neg ht]
    refine ⟨?_, ?_⟩ <;> cases op <;> simp [secUpd, hs, hn]

private theorem after_section (name ns : Str) (h : List (Op W F)) :
    (after (newRoot name ns : World W F) h).section_ =
      (openAfter (outcomes (newRoot name ns) h)).getD mainSection ∧
    openAfter (outcomes (newRoot name ns : World W F) h) ≠ some mainSection := by
  rw [openAfter_eq]
  have key : ∀ (w : World W F) (s : Option Str), w.section_ = s.getD mainSection → s ≠ some mainSection →
      (after w h).section_ = ((outcomes w h).foldl secUpd s).getD mainSection ∧
      (outcomes w h).foldl secUpd s ≠ some mainSection := by
    induction h with
    | nil => intro w s h1 h2; exact ⟨h1, h2⟩
    | cons op ops ih =>
      intro w s h1 h2
      obtain ⟨h3, h4⟩ := step_section w op s h1 h2
      exact ih _ _ h3 h4
  exact key _ none rfl (by simp)

private theorem step_begin (w : World W F) (m : Nat) (x : Str) (hm : m < w.mods.length) :
    (step w (.beginSection m x)).1 = none ↔
      w.section_ = mainSection ∧ x ≠ mainSection ∧ ¬ ((w.mods[m]?.bind (·.parent)).isSome = true) := by
  unfold step
  rw [if_pos (show (Op.beginSection m x : Op W F).target < w.mods.length from hm)]
  by_cases h1 : w.section_ = mainSection <;> by_cases h2 : x = mainSection <;>
    by_cases h3 : (w.mods[m]?.bind (·.parent)).isSome = true <;>
    simp [beginSection, h1, h2, h3]

private theorem step_end (w : World W F) (m : Nat) (x : Str) (hm : m < w.mods.length) :
    (step w (.endSection m x)).1 = none ↔
      ¬ ((w.mods[m]?.bind (·.parent)).isSome = true) ∧ w.section_ = x := by
  unfold step
  rw [if_pos (show (Op.endSection m x : Op W F).target < w.mods.length from hm)]
  by_cases h1 : w.section_ = x <;>
    by_cases h3 : (w.mods[m]?.bind (·.parent)).isSome = true <;>
    simp [endSection, h1, h3]

/-- C31: after any history, `begin_section(x)` is accepted exactly when no section is open, `x` is
not the reserved name and the call is on the root module; `end_section(x)` is accepted exactly on
the root module when the open section is `x` — or, with no section open, when `x` is
`"__main__"`.  (The last case is why this is partial: an `end_section` without a begin is accepted.) -/
theorem C31_sections_partial (name ns : Str) (h : List (Op W F)) (m : Nat) (x : Str)
    (hv : Valid (newRoot name ns) h) (hm : m < (after (newRoot name ns : World W F) h).mods.length) :
    let w := after (newRoot name ns : World W F) h
    let o := openAfter (outcomes (newRoot name ns) h)
    ((step w (.beginSection m x)).1 = none ↔ o = none ∧ x ≠ "__main__".toList ∧ m = 0) ∧
    ((step w (.endSection m x)).1 = none ↔ m = 0 ∧ (o = some x ∨ (o = none ∧ x = "__main__".toList))) := by
  have hwf := wf_after (wf_root (W := W) (F := F) name ns) h
  obtain ⟨hs, hn⟩ := after_section (W := W) (F := F) name ns h
  intro w o
  have hpar : (w.mods[m]?.bind (·.parent)).isSome = true ↔ m ≠ 0 := by
    have hg : w.mods[m]? = some w.mods[m] := List.getElem?_eq_getElem hm
    rw [hg]
    rcases Nat.eq_zero_or_pos m with rfl | h0
    · obtain ⟨r, hr, hr'⟩ := hwf.1
      have : w.mods[0]? = some r := hr
      rw [hg] at this; cases this
      simp [hr']
    · obtain ⟨p, hp, _⟩ := hwf.2 m _ hg h0
      simp [hp]; omega
  have hmain : w.section_ = mainSection ↔ o = none := by
    show (after (newRoot name ns : World W F) h).section_ = mainSection ↔ _
    rw [hs]
    show (o.getD mainSection = mainSection) ↔ _
    cases ho : o with
    | none => simp
    | some y => simp; rintro rfl; exact hn ho
  have hsec : w.section_ = o.getD mainSection := hs
  have hmw : m < w.mods.length := hm
  clear_value w
  constructor
  · rw [step_begin w m x hmw, hmain, hpar, not_not]; rfl
  · rw [step_end w m x hmw, hpar, not_not, hsec]
    have hn' : o ≠ some mainSection := hn
    constructor
    · rintro ⟨h1, h2⟩
      refine ⟨h1, ?_⟩
      cases ho : o with
      | none => rw [ho] at h2; exact .inr ⟨rfl, h2.symm⟩
      | some y => rw [ho] at h2; exact .inl (by rw [← h2]; rfl)
    · rintro ⟨h1, h2 | ⟨h2, h3⟩⟩
      · exact ⟨h1, by rw [h2]; rfl⟩
      · exact ⟨h1, by rw [h2, h3]; rfl⟩

/-- C31 as stated fails: ending a section that was never begun is accepted for one name. -/
theorem C31_end_without_begin_counterexample :
    (step (newRoot "m".toList [] : World Nat Nat) (.endSection 0 "__main__".toList)).1 = none := by decide

/-- C31: a function belongs to the section open when it is added, `"__main__"` if none is. -/
theorem C31_function_section (name ns : Str) (h : List (Op W F)) (m : Nat) (c : Option Str) (n : Str)
    (ts : List Str) (f : Str → F) :
    addFunction (after (newRoot name ns : World W F) h) m c n ts f =
      (after (newRoot name ns : World W F) h).upd m (fun md => { md with
        functions := addOverload md.functions (pyFunctionName md.stripPrefix c n ts)
          (f ((openAfter (outcomes (newRoot name ns : World W F) h)).getD "__main__".toList)) }) := by
  unfold addFunction
  rw [(after_section name ns h).1]
  rfl

/-! ## C32: paths -/

/-- C32: the paths of a root module. -/
theorem C32_root_paths (w : World W F) (hw : Wf w) (r : Mod W F) (hr : w.mods[0]? = some r) :
    modulePath w 0 = [r.name] ∧ namespacePath w 0 = nsComponents r.ns ∧
    modPrefix w 0 = Utils.replace1 '.' "_".toList r.name ∧ getRoot w 0 = some 0 := by
  obtain ⟨r', hr', hp⟩ := hw.1
  rw [hr] at hr'; cases hr'
  have := chain_root hr hp
  simp [modulePath, namespacePath, modPrefix, getRoot, this, hr]

private theorem chain_some {w : World W F} (hw : Wf w) : ∀ i < w.mods.length, chain w i ≠ [] ∧
    (chain w i).getLast? = some 0 ∧ ∀ j ∈ chain w i, j < w.mods.length := by
  intro i
  induction i using Nat.strongRecOn with
  | ind i ih =>
    intro hi
    have hm : w.mods[i]? = some w.mods[i] := List.getElem?_eq_getElem hi
    rcases Nat.eq_zero_or_pos i with rfl | h0
    · obtain ⟨r, hr, hp⟩ := hw.1
      rw [chain_root hr hp]
      simp; exact hi
    · obtain ⟨p, hp, hlt⟩ := hw.2 i _ hm h0
      rw [chain_sub hw hm hp]
      obtain ⟨h1, h2, h3⟩ := ih p hlt (by omega)
      refine ⟨by simp, ?_, ?_⟩
      · cases hc : chain w p with
        | nil => exact absurd hc h1
        | cons a b => rw [hc] at h2; simpa using h2
      · intro j hj
        rcases List.mem_cons.1 hj with rfl | hj
        · exact hi
        · exact h3 j hj

/-- C32: for every submodule of any module tree reached through the API: its Python path is its
parent's path and its own name; its C++ namespace path is its parent's path and the components of
its own namespace; its prefix is its parent's prefix, an underscore and its name; and its root is
the root. -/
theorem C32_sub_paths (name ns : Str) (h : List (Op W F)) (i p : Nat) (m : Mod W F)
    (hm : (after (newRoot name ns : World W F) h).mods[i]? = some m) (hp : m.parent = some p) :
    let w := after (newRoot name ns : World W F) h
    modulePath w i = modulePath w p ++ [m.name] ∧
    namespacePath w i = namespacePath w p ++ nsComponents m.ns ∧
    modPrefix w i = modPrefix w p ++ "_".toList ++ m.name ∧
    getRoot w i = some 0 := by
  have hw := wf_after (wf_root (W := W) (F := F) name ns) h
  intro w
  have hc := chain_sub hw hm hp
  have hi : i < w.mods.length := by
    rcases Nat.lt_or_ge i w.mods.length with h | h
    · exact h
    · have : w.mods[i]? = none := List.getElem?_eq_none h
      rw [show w.mods[i]? = some m from hm] at this; cases this
  have h0 : 0 < i := by
    rcases Nat.eq_zero_or_pos i with rfl | h0
    · obtain ⟨r, hr, hr'⟩ := hw.1
      rw [hm] at hr; cases hr; rw [hr'] at hp; cases hp
    · exact h0
  obtain ⟨q, hq, hlt⟩ := hw.2 i m hm h0
  rw [hp] at hq; cases hq
  have hc' : chain w i = i :: chain w p := hc
  have hm' : w.mods[i]? = some m := hm
  refine ⟨?_, ?_, ?_, ?_⟩
  · unfold modulePath; rw [hc']; simp [hm']
  · unfold namespacePath; rw [hc']; simp [hm']
  · unfold modPrefix; rw [hc']
    have hne : (chain w p).reverse.filterMap (fun j => w.mods[j]?) ≠ [] := by
      obtain ⟨h1, _, h3⟩ := chain_some hw p (by show p < w.mods.length; omega)
      intro he
      rw [List.filterMap_eq_nil_iff] at he
      cases hcp : chain w p with
      | nil => exact h1 hcp
      | cons a b =>
        have ha := he a (by rw [hcp]; simp)
        have hal := h3 a (by show a ∈ chain w p; rw [hcp]; simp)
        rw [List.getElem?_eq_getElem hal] at ha; cases ha
    simp only [List.reverse_cons, List.filterMap_append]
    cases hl : (chain w p).reverse.filterMap (fun j => w.mods[j]?) with
    | nil => exact absurd hl hne
    | cons r ms => simp [hm']
  · unfold getRoot; exact (chain_some hw i hi).2.1

/-- C32: asking for a namespace again returns the same module and changes nothing. -/
theorem C32_namespace_idempotent (w : World W F) (m : Nat) (n : Str) (hm : m < w.mods.length) :
    addNamespace (addNamespace w m n).1 m n = ((addNamespace w m n).1, (addNamespace w m n).2) := by
  have hfound : getSubmodule (addNamespace w m n).1 m n = some (addNamespace w m n).2 := by
    unfold addNamespace
    cases hg : getSubmodule w m n with
    | some i => exact hg
    | none =>
      simp only
      have hmm : w.mods[m]? = some w.mods[m] := List.getElem?_eq_getElem hm
      unfold getSubmodule at hg ⊢
      rw [hmm] at hg
      simp only at hg
      have hnew : (newSub w m n n).1.mods[m]? = some { w.mods[m] with subs := w.mods[m].subs ++ [w.mods.length] } := by
        simp only [newSub]
        rw [List.getElem?_append_left (by rw [length_upd]; exact hm)]
        simp [World.upd, List.getElem?_modify, hmm]
      rw [hnew]
      simp only
      rw [List.find?_append]
      have hcore : ∀ i, (newSub w m n n).1.mods[i]?.map (·.name) =
          if i < w.mods.length then w.mods[i]?.map (·.name) else if i = w.mods.length then some n else none := by
        intro i
        have h1 := (newSub_cores w m n n).1
        have h2 : (newSub w m n n).1.cores[i]?.map (·.name) = (newSub w m n n).1.mods[i]?.map (·.name) := by
          rw [cores_get]; cases (newSub w m n n).1.mods[i]? <;> rfl
        have h3 : w.cores[i]?.map (·.name) = w.mods[i]?.map (·.name) := by
          rw [cores_get]; cases w.mods[i]? <;> rfl
        rw [← h2, h1, ← h3]
        split
        · next hl => rw [List.getElem?_append_left (by rw [cores_length]; exact hl)]
        · next hl =>
          split
          · next he => subst he; rw [← cores_length, List.getElem?_append_right (Nat.le_refl _)]; simp
          · next he => rw [List.getElem?_eq_none (by simp [cores_length]; omega)]; rfl
      have hpred : ∀ i, hasName (newSub w m n n).1 n i =
          if i < w.mods.length then hasName w n i else decide (i = w.mods.length) := by
        intro i
        unfold hasName
        have := hcore i
        cases h1 : (newSub w m n n).1.mods[i]? with
        | none =>
          rw [h1] at this
          simp only [Option.map_none] at this
          split at this
          · next hl => rw [if_pos hl]; rw [List.getElem?_eq_getElem hl] at this; cases this
          · next hl =>
            rw [if_neg hl]
            split at this
            · cases this
            · next he => simp [he]
        | some s =>
          rw [h1] at this
          simp only [Option.map_some] at this
          split at this
          · next hl =>
            rw [if_pos hl]
            rw [List.getElem?_eq_getElem hl] at this ⊢
            simp at this
            simp [this]
          · next hl =>
            rw [if_neg hl]
            split at this
            · next he => cases this; simp [he]
            · cases this
      have hnone : w.mods[m].subs.find? (hasName (newSub w m n n).1 n) = none ∨ ∃ i, w.mods[m].subs.find? (hasName (newSub w m n n).1 n) = some i ∧ i = w.mods.length := by
        cases hf : w.mods[m].subs.find? (hasName (newSub w m n n).1 n) with
        | none => exact .inl rfl
        | some i =>
          right
          refine ⟨i, rfl, ?_⟩
          have h1 := List.find?_some hf
          have h2 := List.mem_of_find?_eq_some hf
          simp only [hpred] at h1
          split at h1
          · have h3 := List.find?_eq_none.1 hg i h2
            exact absurd h1 h3
          · simpa using h1
      rcases hnone with h | ⟨i, h, rfl⟩
      · rw [h]
        simp only [Option.none_or, List.find?_cons, hpred]
        simp [newSub]
      · rw [h]
        simp [newSub]
  rw [addNamespace, hfound]

/-- C32: a new namespace is a new module: named so, below the module asked, and the modules there
were keep their names, parents and namespaces. -/
theorem C32_namespace_new (w : World W F) (m : Nat) (n : Str) (hn : getSubmodule w m n = none) :
    (addNamespace w m n).2 = w.mods.length ∧
    (addNamespace w m n).1.cores = w.cores ++ [⟨n, some m, n⟩] := by
  unfold addNamespace
  rw [hn]
  exact ⟨(newSub_cores w m n n).2, (newSub_cores w m n n).1⟩

/-- Components of a namespace given by its full name: `'::'.join(parts)` comes apart again, with or
without a leading `::`. -/
theorem C32_namespace_components (parts : List Str) (hne : parts ≠ [])
    (h : ∀ p ∈ parts, p ≠ [] ∧ ':' ∉ p) :
    nsComponents (pyJoin "::".toList parts) = parts ∧
    nsComponents ("::".toList ++ pyJoin "::".toList parts) = parts := by
  have plain : ∀ p : Str, ':' ∉ p → ∀ r, splitColons (p ++ r) = match splitColons r with
      | [] => [p]
      | l :: ls => (p ++ l) :: ls := by
    intro p
    induction p with
    | nil => intro _ r; cases hr : splitColons r with
      | nil =>
        exfalso
        revert hr
        unfold splitColons
        split
        · simp
        · simp
        · split <;> simp
      | cons l ls => simp [hr]
    | cons c cs ih =>
      intro hp r
      simp only [List.mem_cons, not_or] at hp
      have hc : c ≠ ':' := fun h => hp.1 h.symm
      have : splitColons (c :: cs ++ r) = match splitColons (cs ++ r) with
          | [] => [[c]]
          | l :: ls => (c :: l) :: ls := by
        rw [List.cons_append]
        generalize cs ++ r = l
        conv => lhs; unfold splitColons
        split
        · next h => cases h
        · next h => cases h; exact absurd rfl hc
        · next h => cases h; rfl
      rw [this, ih hp.2 r]
      cases splitColons r <;> rfl
  have hsplit : ∀ parts : List Str, parts ≠ [] → (∀ p ∈ parts, ':' ∉ p) →
      splitColons (pyJoin "::".toList parts) = parts := by
    intro parts
    induction parts with
    | nil => intro h; exact absurd rfl h
    | cons p ps ih =>
      intro _ hp
      have h1 := hp p (by simp)
      cases ps with
      | nil =>
        have := plain p h1 []
        simpa [pyJoin, splitColons] using this
      | cons q qs =>
        have h2 := ih (by simp) (fun x hx => hp x (by simp [hx]))
        simp only [pyJoin, List.append_assoc] at h2 ⊢
        rw [plain p h1]
        have : splitColons ("::".toList ++ pyJoin "::".toList (q :: qs)) = [] :: (q :: qs) := by
          show splitColons (':' :: ':' :: pyJoin "::".toList (q :: qs)) = _
          rw [splitColons, ih (by simp) (fun x hx => hp x (by simp [hx]))]
        rw [this]
        simp
  have hs := hsplit parts hne (fun p hp => (h p hp).2)
  obtain ⟨p, ps, rfl⟩ : ∃ p ps, parts = p :: ps := by
    cases parts with
    | nil => exact absurd rfl hne
    | cons p ps => exact ⟨p, ps, rfl⟩
  obtain ⟨hp1, hp2⟩ := h p (by simp)
  obtain ⟨c, cs, rfl⟩ : ∃ c cs, p = c :: cs := by
    cases p with
    | nil => exact absurd rfl hp1
    | cons c cs => exact ⟨c, cs, rfl⟩
  have hc : c ≠ ':' := fun e => hp2 (by simp [e])
  have hhead : ∃ t, pyJoin "::".toList ((c :: cs) :: ps) = c :: t := by
    cases ps with
    | nil => exact ⟨cs, rfl⟩
    | cons q qs => exact ⟨cs ++ "::".toList ++ pyJoin "::".toList (q :: qs), rfl⟩
  obtain ⟨t, ht⟩ := hhead
  constructor
  · unfold nsComponents
    rw [if_neg (by rw [ht]; simp [hc]), hs]
  · unfold nsComponents
    rw [if_neg (by rw [ht]; simp)]
    show (match splitColons (':' :: ':' :: pyJoin "::".toList ((c :: cs) :: ps)) with
      | [] :: r => r
      | l => l) = _
    rw [splitColons, hs]

/-- C32, prefixes fail to be unique: a submodule `b_c` and a submodule `c` of a submodule `b` share
one prefix, hence one name for their function tables and init functions. -/
theorem C32_prefix_collision_counterexample :
    let w := after (newRoot "m".toList [] : World Nat Nat)
      [.addNamespace 0 "b_c".toList, .addNamespace 0 "b".toList, .addNamespace 2 "c".toList]
    modPrefix w 1 = modPrefix w 3 ∧ modulePath w 1 ≠ modulePath w 3 := by decide

example : modulePath (after (newRoot "m".toList [] : World Nat Nat)
      [.addNamespace 0 "b".toList, .addNamespace 1 "c".toList, .addNamespace 0 "b".toList]) 2 =
    ["m".toList, "b".toList, "c".toList] := by decide

/-- C32: a module in the global namespace, written as nothing or as `::`, adds no component. -/
theorem C32_global_namespace : nsComponents [] = [] ∧ nsComponents "::".toList = [] := by decide

/-- C30: an include is accepted exactly when it is written in quotes or in angle brackets: any other
text is refused with `AssertionError` and changes nothing.  (The two ends are not required to
agree, see `C30_mixed_quotes_counterexample`.) -/
theorem C30_include_syntax (w : World W F) (m : Nat) (s : Str) (hm : m < w.mods.length) :
    ((step w (.addInclude m s)).1 = none ↔
      (∃ r, s = '"' :: r ∨ s = '<' :: r) ∧ (∃ r, s = r ++ ['"'] ∨ s = r ++ ['>'])) ∧
    ((step w (.addInclude m s)).1 ≠ none → step w (.addInclude m s) = (some .assertionError, w)) := by
  have hh : ∀ c, s.head? = some c ↔ ∃ r, s = c :: r := by
    intro c; cases s <;> simp [eq_comm]
  have hl : ∀ c, s.getLast? = some c ↔ ∃ r, s = r ++ [c] := by
    intro c
    rw [List.getLast?_eq_some_iff]
  have hok : includeOk s = true ↔
      (∃ r, s = '"' :: r ∨ s = '<' :: r) ∧ (∃ r, s = r ++ ['"'] ∨ s = r ++ ['>']) := by
    simp only [includeOk, Bool.and_eq_true, Bool.or_eq_true, beq_iff_eq, hh, hl, exists_or]
  have hs : step w (.addInclude m s) =
      match addInclude w s with | .ok w' => (none, w') | .error e => (some e, w) := by
    exact if_pos hm
  rw [hs, ← hok]
  unfold addInclude
  by_cases hi : includeOk s = true
  · rw [if_pos hi]
    by_cases hc : w.includes.contains s = true
    · rw [if_pos hc]; simp [hi]
    · rw [if_neg hc]; simp [hi]
  · rw [if_neg hi]
    simp [hi]

/-- Mismatched delimiters are accepted. -/
theorem C30_mixed_quotes_counterexample :
    (step (newRoot "m".toList [] : World Nat Nat) (.addInclude 0 "\"foo.h>".toList)).1 = none ∧
    (step (newRoot "m".toList [] : World Nat Nat) (.addInclude 0 "<".toList)).1 ≠ none := by decide

end Verif.Module
