import Verif.CodeSink.Spec

/-!
# C01, C02: indentation discipline and flushing
-/
namespace Verif.CodeSink
open Verif

/-! ## Helper lemmas -/

theorem Mem.run_append (m : Mem) (a b : List Op) :
    m.run (a ++ b) = (m.run a).bind (fun m' => m'.run b) := by
  induction a generalizing m with
  | nil => rfl
  | cons o os ih =>
    simp only [List.cons_append, Mem.run]
    cases m.step o with
    | error e => rfl
    | ok m' => exact ih m'

theorem File.run_append (m : File) (a b : List Op) :
    m.run (a ++ b) = (m.run a).bind (fun m' => m'.run b) := by
  induction a generalizing m with
  | nil => rfl
  | cons o os ih =>
    simp only [List.cons_append, File.run]
    cases m.step o with
    | error e => rfl
    | ok m' => exact ih m'

theorem Mem.run_balanced {h : List Op} (hb : Balanced h) :
    ∀ m : Mem, ∃ m' : Mem, m.run h = .ok m' ∧ m'.core = m.core := by
  induction hb with
  | nil => intro m; exact ⟨m, rfl, rfl⟩
  | write s _ ih =>
    intro m
    obtain ⟨m', h1, h2⟩ := ih (m.writeln s)
    exact ⟨m', h1, h2⟩
  | nest n _ _ ih1 ih2 =>
    intro m
    obtain ⟨m1, h1, h2⟩ := ih1 { m with core := m.core.indent n }
    obtain ⟨m2, h3, h4⟩ := ih2 { m1 with core := m.core }
    refine ⟨m2, ?_, h4⟩
    rw [List.cons_append]
    simp only [Mem.run, Mem.step]
    show Mem.run _ _ = _
    rw [Mem.run_append, h1]
    simp only [Except.bind, Mem.run, Mem.step, Core.unindent, h2, Core.indent]
    exact h3

theorem File.run_balanced {h : List Op} (hb : Balanced h) :
    ∀ m : File, ∃ m' : File, m.run h = .ok m' ∧ m'.core = m.core := by
  induction hb with
  | nil => intro m; exact ⟨m, rfl, rfl⟩
  | write s _ ih =>
    intro m
    obtain ⟨m', h1, h2⟩ := ih (m.writeln s)
    exact ⟨m', h1, h2⟩
  | nest n _ _ ih1 ih2 =>
    intro m
    obtain ⟨m1, h1, h2⟩ := ih1 { m with core := m.core.indent n }
    obtain ⟨m2, h3, h4⟩ := ih2 { m1 with core := m.core }
    refine ⟨m2, ?_, h4⟩
    rw [List.cons_append]
    simp only [File.run, File.step]
    show File.run _ _ = _
    rw [File.run_append, h1]
    simp only [Except.bind, File.run, File.step, Core.unindent, h2, Core.indent]
    exact h3

theorem Mem.run_open {ns : List Int} {h : List Op} (ho : Open ns h) (m : Mem) :
    ∃ m' : Mem, m.run h = .ok m' ∧ m'.core.level = m.core.level + ns.sum ∧
      m'.core.stack.length = m.core.stack.length + ns.length := by
  induction ho with
  | base hb =>
    obtain ⟨m', h1, h2⟩ := Mem.run_balanced hb m
    exact ⟨m', h1, by simp [h2], by simp [h2]⟩
  | more n _ hb ih =>
    obtain ⟨m1, h1, h2, h3⟩ := ih
    obtain ⟨m2, h4, h5⟩ := Mem.run_balanced hb { m1 with core := m1.core.indent n }
    refine ⟨m2, ?_, ?_, ?_⟩
    · rw [Mem.run_append, h1]
      exact h4
    · rw [h5]; simp [Core.indent, h2]; omega
    · rw [h5]; simp [Core.indent, h3]; omega

theorem File.run_open {ns : List Int} {h : List Op} (ho : Open ns h) (m : File) :
    ∃ m' : File, m.run h = .ok m' ∧ m'.core.level = m.core.level + ns.sum ∧
      m'.core.stack.length = m.core.stack.length + ns.length := by
  induction ho with
  | base hb =>
    obtain ⟨m', h1, h2⟩ := File.run_balanced hb m
    exact ⟨m', h1, by simp [h2], by simp [h2]⟩
  | more n _ hb ih =>
    obtain ⟨m1, h1, h2, h3⟩ := ih
    obtain ⟨m2, h4, h5⟩ := File.run_balanced hb { m1 with core := m1.core.indent n }
    refine ⟨m2, ?_, ?_, ?_⟩
    · rw [File.run_append, h1]
      exact h4
    · rw [h5]; simp [Core.indent, h2]; omega
    · rw [h5]; simp [Core.indent, h3]; omega

theorem Balanced.append {a b : List Op} (ha : Balanced a) (hb : Balanced b) :
    Balanced (a ++ b) := by
  induction ha with
  | nil => exact hb
  | write s _ ih => exact .write s ih
  | nest n h1 _ _ ih2 =>
    have := Balanced.nest n h1 ih2
    simpa using this

theorem Open.write {ns : List Int} {h : List Op} (ho : Open ns h) (s : Str) :
    Open ns (h ++ [.writeln s]) := by
  cases ho with
  | base hb => exact .base (hb.append (.write s .nil))
  | more n ho hb =>
    have := Open.more n ho (hb.append (.write s .nil))
    simpa using this

theorem Open.close {n : Int} {ns : List Int} {h : List Op} (ho : Open (n :: ns) h) :
    Open ns (h ++ [.unindent]) := by
  cases ho with
  | more n ho hb =>
    have hx : Balanced (.indent n :: _ ++ .unindent :: []) := .nest n hb .nil
    cases ho with
    | base hb0 =>
      have := Open.base (hb0.append hx)
      simpa using this
    | more k ho1 hb1 =>
      have := Open.more k ho1 (hb1.append hx)
      simpa using this

/-! ## C01 -/

/-- C01 (restoring): a balanced history never fails and leaves level and stack as they were,
from any starting state. -/
theorem C01_balanced_restores (m : Mem) {h : List Op} (hb : Balanced h) :
    ∃ m', m.run h = .ok m' ∧ m'.core.level = m.core.level ∧ m'.core.stack = m.core.stack := by
  obtain ⟨m', h1, h2⟩ := Mem.run_balanced hb m
  exact ⟨m', h1, by rw [h2], by rw [h2]⟩

/-- C01 (prefix): a new memory sink that went through a history with open indents `ns`
appends, for each line of the text given to `writeln`, that line prefixed by `sum ns` blanks. -/
theorem C01_line_prefix {ns : List Int} {h : List Op} (ho : Open ns h) (text : Str) :
    ∃ m₁ m₂ : Mem, Mem.run {} h = .ok m₁ ∧ Mem.run {} (h ++ [.writeln text]) = .ok m₂ ∧
      m₂.lines = m₁.lines ++ indented ns.sum text := by
  obtain ⟨m1, h1, h2, _⟩ := Mem.run_open ho {}
  refine ⟨m1, m1.writeln text, h1, ?_, ?_⟩
  · rw [Mem.run_append, h1]; rfl
  · simp at h2
    simp [Mem.writeln, Core.format, indented, h2]

/-- C01 (prefix, file sink): same for what is written to the file. -/
theorem C01_line_prefix_file {ns : List Int} {h : List Op} (ho : Open ns h) (text : Str) :
    ∃ m₁ m₂ : File, File.run {} h = .ok m₁ ∧ File.run {} (h ++ [.writeln text]) = .ok m₂ ∧
      m₂.content = m₁.content ++ pyJoin ['\n'] (indented ns.sum text) ++ ['\n'] := by
  obtain ⟨m1, h1, h2, _⟩ := File.run_open ho {}
  refine ⟨m1, m1.writeln text, h1, ?_, ?_⟩
  · rw [File.run_append, h1]; rfl
  · simp at h2
    simp [File.writeln, Core.format, indented, h2]

/-- C01 (coverage): the histories of a new sink that do not fail are exactly those with some
list of open indents, so `C01_line_prefix` speaks about every successful history. -/
theorem C01_history_ok_iff_open (h : List Op) :
    (∃ m, Mem.run {} h = .ok m) ↔ ∃ ns, Open ns h := by
  constructor
  · intro hm
    suffices ∀ (h : List Op) (pre : List Op) (ns : List Int) (m0 : Mem), Open ns pre →
        Mem.run {} pre = .ok m0 → (∃ m, m0.run h = .ok m) → ∃ ns, Open ns (pre ++ h) by
      simpa using this h [] [] {} (.base .nil) rfl hm
    intro h
    induction h with
    | nil => intro pre ns m0 ho _ _; exact ⟨ns, by simpa using ho⟩
    | cons o os ih =>
      intro pre ns m0 ho hpre ⟨m, hrun⟩
      have key : ∀ (ns' : List Int) (m1 : Mem), m0.step o = .ok m1 → Open ns' (pre ++ [o]) →
          ∃ ns, Open ns (pre ++ o :: os) := by
        intro ns' m1 hs ho'
        have hp : Mem.run {} (pre ++ [o]) = .ok m1 := by
          rw [Mem.run_append, hpre]; simp [Except.bind, Mem.run, hs, bind, pure]
        have := ih (pre ++ [o]) ns' m1 ho' hp
          ⟨m, by simpa [Mem.run, hs, bind, Except.bind] using hrun⟩
        simpa using this
      cases o with
      | writeln s => exact key ns _ rfl (ho.write s)
      | indent n => exact key (n :: ns) _ rfl (.more n ho .nil)
      | unindent =>
        cases hst : m0.step .unindent with
        | error e => simp [Mem.run, hst, bind, Except.bind] at hrun
        | ok m1 =>
          cases ns with
          | cons n ns => exact key ns m1 hst ho.close
          | nil =>
            obtain ⟨m', h1, h2, h3⟩ := Mem.run_open ho {}
            rw [hpre] at h1; cases h1
            have : m0.core.stack = [] := by
              apply List.length_eq_zero_iff.1; simpa using h3
            simp [Mem.step, Core.unindent, this, Except.map] at hst
  · rintro ⟨ns, ho⟩
    obtain ⟨m', h1, _⟩ := Mem.run_open ho {}
    exact ⟨m', h1⟩

/-- C01 (underflow): after a successful history, `unindent` raises `IndexError` exactly when no
indent is open; raising, it produces no new state. -/
theorem C01_unindent_fails_iff {ns : List Int} {h : List Op} (ho : Open ns h) :
    Mem.run {} (h ++ [.unindent]) = .error .indexError ↔ ns = [] := by
  obtain ⟨m', h1, h2, h3⟩ := Mem.run_open ho {}
  rw [Mem.run_append, h1]
  cases ns with
  | nil =>
    have : m'.core.stack = [] := by apply List.length_eq_zero_iff.1; simpa using h3
    simp [Except.bind, Mem.run, Mem.step, Core.unindent, this, Except.map, bind]
  | cons n ns =>
    cases hst : m'.core.stack with
    | nil => simp [hst] at h3
    | cons x xs => simp [Except.bind, Mem.run, Mem.step, Core.unindent, hst, Except.map, bind, pure]

/-- Non-vacuity: a nested history with two open indents. -/
example : Open [2, 4] ([.writeln "a".toList, .indent 4, .writeln "b".toList] ++
    Op.indent 2 :: [.indent 8, .writeln "c".toList, .unindent]) :=
  .more 2 (.more 4 (h := [_]) (.base (.write _ .nil)) (.write _ .nil))
    (.nest 8 (b := [_]) (h := []) (.write _ .nil) .nil)

/-! ## C02 -/

theorem dropWhile_all {p : Char → Bool} (l : Str) :
    ∃ w, l = w ++ l.dropWhile p ∧ ∀ c ∈ w, p c = true := by
  induction l with
  | nil => exact ⟨[], rfl, by simp⟩
  | cons x xs ih =>
    obtain ⟨w, h1, h2⟩ := ih
    by_cases hx : p x = true
    · refine ⟨x :: w, by simpa [List.dropWhile, hx] using h1, ?_⟩
      intro c hc
      rcases List.mem_cons.1 hc with rfl | hc
      · exact hx
      · exact h2 c hc
    · exact ⟨[], by simp [List.dropWhile, hx], by simp⟩

/-- `str.rstrip` removes trailing white space, all of it, and nothing else. -/
theorem rstrip_spec (l : Str) : IsRStrip l (rstrip l) := by
  obtain ⟨w, h1, h2⟩ := dropWhile_all (p := isPySpace) l.reverse
  refine ⟨w.reverse, ?_, ?_, ?_⟩
  · have := congrArg List.reverse h1
    simpa [rstrip] using this
  · intro c hc; exact h2 c (by simpa using hc)
  · intro hne
    unfold rstrip at hne ⊢
    rw [List.getLast_reverse]
    have hne' : l.reverse.dropWhile isPySpace ≠ [] := by simpa using hne
    generalize hr : l.reverse.dropWhile isPySpace = d at hne hne' ⊢
    have : ∀ (r : Str), r.dropWhile isPySpace = d → isPySpace (d.head hne') = false := by
      intro r
      induction r with
      | nil => intro h; simp at h; exact absurd h.symm (by simpa using hne')
      | cons x xs ih =>
        intro h
        by_cases hx : isPySpace x = true
        · exact ih (by simpa [List.dropWhile, hx] using h)
        · subst h; simpa [List.dropWhile, hx] using hx
    exact this _ hr

theorem rstrip_no_newline {l : Str} (h : '\n' ∉ l) : '\n' ∉ rstrip l := by
  obtain ⟨w, h1, _⟩ := rstrip_spec l
  intro hc; apply h; rw [h1]; exact List.mem_append_left _ hc

theorem foldl_mem (ls : List Str) (t : Mem) :
    ls.foldl (fun s line => s.writeln (rstrip line)) (Sink.mem t) =
      .mem { t with lines := t.lines ++ ls.flatMap (fun l => t.core.format (rstrip l)) } := by
  induction ls generalizing t with
  | nil => simp
  | cons l ls ih =>
    rw [List.foldl_cons, show (Sink.mem t).writeln (rstrip l) = .mem (t.writeln (rstrip l)) from rfl, ih]
    simp [Mem.writeln]

theorem foldl_file (ls : List Str) (t : File) (h : ∀ l ∈ ls, '\n' ∉ l) :
    ls.foldl (fun s line => s.writeln (rstrip line)) (Sink.file t) =
      .file { t with content := t.content ++
        (ls.map (fun l => spaces t.core.level ++ rstrip l ++ ['\n'])).flatten } := by
  induction ls generalizing t with
  | nil => simp
  | cons l ls ih =>
    have hl := rstrip_no_newline (h l (by simp))
    rw [List.foldl_cons, show (Sink.file t).writeln (rstrip l) = .file (t.writeln (rstrip l)) from rfl, ih _ (fun l' hl' => h l' (List.mem_cons_of_mem _ hl'))]
    simp [File.writeln, Core.format, splitOn_of_not_mem hl, pyJoin]

theorem spaces_no_newline (n : Int) : '\n' ∉ spaces n := by
  simp [spaces, List.mem_replicate]

theorem format_no_newline (c : Core) (s l : Str) (h : l ∈ c.format s) : '\n' ∉ l := by
  simp only [Core.format, List.mem_map] at h
  obtain ⟨p, hp, rfl⟩ := h
  simp [spaces_no_newline, not_mem_of_mem_splitOn hp]

/-- Every buffered line of a memory sink is a single physical line. -/
def Mem.WF (m : Mem) : Prop := ∀ l ∈ m.lines, '\n' ∉ l

theorem Mem.wf_run {m m' : Mem} {h : List Op} (hw : m.WF) (hr : m.run h = .ok m') : m'.WF := by
  induction h generalizing m with
  | nil => cases hr; exact hw
  | cons o os ih =>
    simp only [Mem.run] at hr
    cases hs : m.step o with
    | error e => simp [hs, bind, Except.bind] at hr
    | ok m1 =>
      refine ih (m := m1) ?_ (by simpa [hs, bind, Except.bind] using hr)
      cases o with
      | writeln s =>
        cases hs
        intro l hl
        rcases List.mem_append.1 hl with hl | hl
        · exact hw l hl
        · exact format_no_newline _ _ _ hl
      | indent n => cases hs; exact hw
      | unindent =>
        simp only [Mem.step, Core.unindent] at hs
        split at hs
        · cases hs
        · cases hs; exact hw

/-- C02 (memory target): any sink that was produced by any history, flushed to any memory sink,
appends its lines in order, stripped on the right and indented by the target's level; the source
is left empty. -/
theorem C02_flush_to_mem {h : List Op} {m : Mem} (hr : Mem.run {} h = .ok m) (t : Mem) :
    ∃ m' t', Sink.flushTo (.mem m) (.mem t) = .ok (.mem m', .mem t') ∧
      m'.lines = [] ∧ m'.core = m.core ∧ t'.core = t.core ∧
      ∃ rs : List Str, List.Forall₂ IsRStrip m.lines rs ∧
        t'.lines = t.lines ++ rs.map (fun r => spaces t.core.level ++ r) := by
  have hw : m.WF := Mem.wf_run (by simp [Mem.WF]) hr
  refine ⟨{ m with lines := [] }, { t with lines := t.lines ++ m.lines.flatMap (fun l => t.core.format (rstrip l)) },
    ?_, ?_, ?_, ?_, m.lines.map rstrip, ?_, ?_⟩
  · simp only [Sink.flushTo, Mem.flushTo, foldl_mem]
  · rfl
  · rfl
  · rfl
  · clear hw hr
    generalize m.lines = ls
    induction ls with
    | nil => exact .nil
    | cons l ls ih => exact .cons (rstrip_spec l) ih
  · rw [List.map_map]
    have : ∀ ls : List Str, (∀ l ∈ ls, '\n' ∉ l) →
        ls.flatMap (fun l => t.core.format (rstrip l)) =
          ls.map ((fun r => spaces t.core.level ++ r) ∘ rstrip) := by
      intro ls
      induction ls with
      | nil => intro _; rfl
      | cons l ls ih =>
        intro hl
        rw [List.flatMap_cons, ih (fun l' h' => hl l' (List.mem_cons_of_mem _ h'))]
        simp [Core.format, splitOn_of_not_mem (rstrip_no_newline (hl l (by simp)))]
    exact congrArg (t.lines ++ ·) (this _ hw)

/-- C02 (file target): the file grows by exactly one line per buffered line, in order. -/
theorem C02_flush_to_file {h : List Op} {m : Mem} (hr : Mem.run {} h = .ok m) (t : File) :
    ∃ m' t', Sink.flushTo (.mem m) (.file t) = .ok (.mem m', .file t') ∧
      m'.lines = [] ∧ m'.core = m.core ∧ t'.core = t.core ∧
      ∃ rs : List Str, List.Forall₂ IsRStrip m.lines rs ∧
        t'.content = t.content ++ (rs.map (fun r => spaces t.core.level ++ r ++ ['\n'])).flatten := by
  have hw : m.WF := Mem.wf_run (by simp [Mem.WF]) hr
  refine ⟨{ m with lines := [] }, { t with content := t.content ++
    (m.lines.map (fun l => spaces t.core.level ++ rstrip l ++ ['\n'])).flatten },
    ?_, ?_, ?_, ?_, m.lines.map rstrip, ?_, ?_⟩
  · simp only [Sink.flushTo, Mem.flushTo, foldl_file _ _ hw]
  · rfl
  · rfl
  · rfl
  · clear hw hr
    generalize m.lines = ls
    induction ls with
    | nil => exact .nil
    | cons l ls ih => exact .cons (rstrip_spec l) ih
  · simp [List.map_map, Function.comp_def]

/-- C02 (once): a second flush, to any target, adds nothing. -/
theorem C02_second_flush_adds_nothing (m : Mem) (t t₂ : Sink) :
    ((m.flushTo t).1.flushTo t₂).2 = t₂ := rfl

/-- C02 (chains): flushing a→b→c→file with a fresh (unindented, empty) intermediate sink is the
same as flushing directly: nothing is lost, duplicated or reordered in between. -/
theorem C02_chain {h : List Op} {m : Mem} (hr : Mem.run {} h = .ok m) (t : Sink) :
    (match (m.flushTo (.mem {})).2 with | .mem b => (b.flushTo t).2 | s => s)
      = (m.flushTo t).2 := by
  have hw : m.WF := Mem.wf_run (by simp [Mem.WF]) hr
  have idem : ∀ l : Str, rstrip (rstrip l) = rstrip l := by
    intro l
    simp only [rstrip, List.reverse_reverse]
    congr 1
    generalize l.reverse = r
    induction r with
    | nil => rfl
    | cons x xs ih =>
      by_cases hx : isPySpace x = true
      · simpa [List.dropWhile, hx] using ih
      · simp [List.dropWhile, hx]
  simp only [Mem.flushTo, foldl_mem]
  have : ∀ ls : List Str, (∀ l ∈ ls, '\n' ∉ l) →
      ls.flatMap (fun l => ({} : Mem).core.format (rstrip l)) = ls.map rstrip := by
    intro ls
    induction ls with
    | nil => intro _; rfl
    | cons l ls ih =>
      intro hl
      rw [List.flatMap_cons, ih (fun l' h' => hl l' (List.mem_cons_of_mem _ h'))]
      simp [Core.format, splitOn_of_not_mem (rstrip_no_newline (hl l (by simp))), spaces]
  rw [this _ hw]
  simp [List.foldl_map, idem]

/-- C02 (NullCodeSink): a sink that discards content cannot be flushed. -/
theorem C02_null_flush_raises (c : Core) (t : Sink) :
    Sink.flushTo (.null c) t = .error .typeError := rfl

/-- Non-vacuity: two nested lines flushed into an indented target. -/
example :
    (match Mem.run {} [.writeln "if (x) {".toList, .indent 4, .writeln "y;  \nz;".toList, .unindent] with
      | .ok m => (m.flushTo (.mem { core := { level := 2 }, lines := ["pre".toList] })).2
      | .error _ => .null {}) =
    .mem { core := { level := 2 },
           lines := ["pre".toList, "  if (x) {".toList, "      y;".toList, "      z;".toList] } := by
  decide

/-- Each line ended by a newline. -/
def endedLines (ls : List Str) : Str := (ls.map (· ++ ['\n'])).flatten

theorem pyJoin_ended : ∀ (ls : List Str), ls ≠ [] → pyJoin ['\n'] ls ++ ['\n'] = endedLines ls
  | [], h => absurd rfl h
  | [l], _ => by simp [pyJoin, endedLines]
  | l :: m :: ls, _ => by
    have ih := pyJoin_ended (m :: ls) (by simp)
    simp only [pyJoin, endedLines, List.map_cons, List.flatten_cons, List.append_assoc] at ih ⊢
    rw [ih]

theorem format_ne_nil (c : Core) (t : Str) : c.format t ≠ [] := by
  have h := pyJoin_splitOn '\n' t
  intro h'
  simp only [Core.format, List.map_eq_nil_iff] at h'
  have : ∀ s : Str, splitOn '\n' s ≠ [] := by
    intro s
    induction s with
    | nil => simp [splitOn]
    | cons x xs ih => unfold splitOn; split <;> (try split) <;> simp
  exact this t h'

/-- C01/C02: a memory sink and a file sink that go through the same history hold the same text. -/
theorem C01_memory_and_file_agree (h : List Op) :
    ∀ (m : Mem) (f : File), f.core = m.core → f.content = endedLines m.lines →
      match Mem.run m h, File.run f h with
      | .ok m', .ok f' => f'.core = m'.core ∧ f'.content = endedLines m'.lines
      | .error e, .error e' => e = e'
      | _, _ => False := by
  induction h with
  | nil => intro m f h1 h2; exact ⟨h1, h2⟩
  | cons o os ih =>
    intro m f h1 h2
    simp only [Mem.run, File.run]
    cases o with
    | writeln s =>
      simp only [Mem.step, File.step, bind, Except.bind]
      apply ih
      · exact h1
      · simp only [File.writeln, Mem.writeln]
        rw [List.append_assoc, pyJoin_ended _ (format_ne_nil _ _), h2, h1]
        simp [endedLines]
    | indent n =>
      simp only [Mem.step, File.step, bind, Except.bind]
      apply ih
      · simp [h1]
      · exact h2
    | unindent =>
      simp only [Mem.step, File.step]
      rw [h1]
      cases hu : m.core.unindent with
      | error e => simp [bind, Except.bind, Except.map]
      | ok c =>
        simp only [bind, Except.bind, Except.map]
        exact ih _ _ rfl h2

/-- C02 (`flush()`): the returned text is every buffered line in order, indented (again) by the
indents still open, each ended by a newline — a single newline when nothing was written — and the
sink is left empty. -/
theorem C02_flush_string {ns : List Int} {h : List Op} (ho : Open ns h) :
    ∃ m : Mem, Mem.run {} h = .ok m ∧ (m.flush).1.lines = [] ∧ (m.flush).1.core = m.core ∧
      (m.lines ≠ [] → (m.flush).2 = endedLines (m.lines.map (spaces ns.sum ++ ·))) ∧
      (m.lines = [] → (m.flush).2 = ['\n']) := by
  obtain ⟨m, h1, h2, -⟩ := Mem.run_open ho {}
  have hw : m.WF := Mem.wf_run (by simp [Mem.WF]) h1
  refine ⟨m, h1, rfl, rfl, ?_, ?_⟩
  · intro hne
    have hf : ∀ ls : List Str, (∀ l ∈ ls, '\n' ∉ l) →
        ls.flatMap m.core.format = ls.map (spaces m.core.level ++ ·) := by
      intro ls
      induction ls with
      | nil => intro _; rfl
      | cons l ls ih =>
        intro hl
        rw [List.flatMap_cons, ih (fun x hx => hl x (List.mem_cons_of_mem _ hx))]
        simp [Core.format, splitOn_of_not_mem (hl l (by simp))]
    have hl : m.core.level = ns.sum := by rw [h2]; simp
    simp only [Mem.flush]
    rw [hf _ hw, hl, pyJoin_ended]
    simpa using hne
  · intro he
    simp [Mem.flush, he, pyJoin]

/-- C02: after a balanced history that wrote something, `flush()` returns exactly what a file sink
would hold. -/
theorem C02_flush_like_file {h : List Op} (hb : Balanced h) (m : Mem) (f : File)
    (hm : Mem.run {} h = .ok m) (hf : File.run {} h = .ok f) (hne : m.lines ≠ []) :
    (m.flush).2 = f.content := by
  obtain ⟨m', h1, -, -, h2, -⟩ := C02_flush_string (Open.base hb)
  rw [hm] at h1
  cases h1
  have h3 := C01_memory_and_file_agree h {} {} rfl rfl
  rw [hm, hf] at h3
  rw [h2 hne, h3.2]
  simp [spaces]

example : ((Mem.run {} [.writeln "if (x) {".toList, .indent 4, .writeln "y;".toList, .unindent,
    .writeln "}".toList]).toOption.map (fun m => (m.flush).2)) =
    some "if (x) {\n    y;\n}\n".toList := by decide

/-- Flush `m` into the first of `mids`, that one into the next, and the last one into `t`
(successive calls of `flush_to`, codesink.py:116-123). -/
def flushChain : Mem → List Mem → Mem → Mem
  | m, [], t => match (m.flushTo (.mem t)).2 with | .mem t' => t' | _ => t
  | m, b :: bs, t => match (m.flushTo (.mem b)).2 with | .mem b' => flushChain b' bs t | _ => t

/-- What a line may become on its way: the same text, without its trailing blanks, moved to the
right by some blanks. -/
def Reindented (l r : Str) : Prop := ∃ n : Nat, r = List.replicate n ' ' ++ rstrip l

theorem rstrip_blank (n : Nat) : rstrip (List.replicate n ' ') = [] := by
  simp only [rstrip, List.reverse_replicate, List.reverse_eq_nil_iff]
  induction n with
  | zero => rfl
  | succ n ih => simpa [List.replicate_succ, List.dropWhile, show isPySpace ' ' = true by decide] using ih

theorem rstrip_append_right (a b : Str) (h : rstrip b ≠ []) : rstrip (a ++ b) = a ++ rstrip b := by
  have h' : b.reverse.dropWhile isPySpace ≠ [] := by simpa [rstrip] using h
  simp only [rstrip, List.reverse_append]
  have : ∀ (x y : Str), x.dropWhile isPySpace ≠ [] →
      (x ++ y).dropWhile isPySpace = x.dropWhile isPySpace ++ y := by
    intro x y
    induction x with
    | nil => intro h; simp at h
    | cons c x ih =>
      intro h
      by_cases hc : isPySpace c = true
      · simp only [List.dropWhile, hc, List.cons_append] at h ⊢; exact ih h
      · simp [List.dropWhile, hc]
  rw [this _ _ h', List.reverse_append, List.reverse_reverse]

theorem rstrip_idem (l : Str) : rstrip (rstrip l) = rstrip l := by
  simp only [rstrip, List.reverse_reverse]
  congr 1
  generalize l.reverse = r
  induction r with
  | nil => rfl
  | cons x xs ih =>
    by_cases hx : isPySpace x = true
    · simpa [List.dropWhile, hx] using ih
    · simp [List.dropWhile, hx]

theorem Reindented.trans {a b c : Str} (h1 : Reindented a b) (h2 : Reindented b c) :
    Reindented a c := by
  obtain ⟨n, rfl⟩ := h1
  obtain ⟨k, rfl⟩ := h2
  by_cases he : rstrip a = []
  · rw [he, List.append_nil, rstrip_blank]
    exact ⟨k, by rw [he]⟩
  · rw [rstrip_append_right _ _ (by rwa [rstrip_idem]), rstrip_idem]
    exact ⟨k + n, by rw [List.replicate_add, List.append_assoc]⟩

theorem Reindented.trans_list {as bs cs : List Str} (h1 : List.Forall₂ Reindented as bs)
    (h2 : List.Forall₂ Reindented bs cs) : List.Forall₂ Reindented as cs := by
  induction h1 generalizing cs with
  | nil => cases h2; exact .nil
  | cons h _ ih => cases h2 with | cons h' t' => exact .cons (h.trans h') (ih t')

theorem forall₂_append {R : Str → Str → Prop} {a b c d : List Str} (h1 : List.Forall₂ R a b)
    (h2 : List.Forall₂ R c d) : List.Forall₂ R (a ++ c) (b ++ d) := by
  induction h1 with
  | nil => exact h2
  | cons h _ ih => exact .cons h ih

theorem forall₂_split {R : Str → Str → Prop} {a c r : List Str}
    (h : List.Forall₂ R (a ++ c) r) :
    ∃ r1 r2, r = r1 ++ r2 ∧ List.Forall₂ R a r1 ∧ List.Forall₂ R c r2 := by
  induction a generalizing r with
  | nil => exact ⟨[], r, rfl, .nil, h⟩
  | cons x a ih =>
    cases h with
    | cons hx ht =>
      obtain ⟨r1, r2, rfl, h1, h2⟩ := ih ht
      exact ⟨_ :: r1, r2, rfl, .cons hx h1, h2⟩

theorem flush_reindented (m t : Mem) (hw : m.WF) :
    ∃ rs, (m.flushTo (.mem t)).2 = .mem { t with lines := t.lines ++ rs } ∧
      List.Forall₂ Reindented m.lines rs ∧ ∀ r ∈ rs, '\n' ∉ r := by
  refine ⟨m.lines.map (fun l => spaces t.core.level ++ rstrip l), ?_, ?_, ?_⟩
  · simp only [Mem.flushTo, foldl_mem]
    congr 3
    unfold Mem.WF at hw
    generalize m.lines = ls at hw
    induction ls with
    | nil => rfl
    | cons l ls ih =>
      rw [List.flatMap_cons, ih (fun l' h' => hw l' (List.mem_cons_of_mem _ h'))]
      simp [Core.format, splitOn_of_not_mem (rstrip_no_newline (hw l (by simp)))]
  · generalize m.lines = ls
    induction ls with
    | nil => exact .nil
    | cons l ls ih => exact .cons ⟨_, rfl⟩ ih
  · intro r hr
    obtain ⟨l, hl, rfl⟩ := List.mem_map.1 hr
    simp only [List.mem_append, not_or]
    exact ⟨spaces_no_newline _, rstrip_no_newline (hw l hl)⟩

/-- C02 (chains of any length): flush a sink through any number of intermediate memory sinks, each
at any level of indentation and possibly holding lines of its own.  What arrives at the end is
what was there, then the lines of the last intermediate sink, …, of the first, and of the source:
each exactly once, in order, changed only by trailing blanks and indentation. -/
theorem C02_chain_any (m : Mem) (mids : List Mem) (t : Mem)
    (hm : ∃ h, Mem.run {} h = .ok m) (hmids : ∀ b ∈ mids, ∃ h, Mem.run {} h = .ok b) :
    ∃ rs : List Str, (flushChain m mids t).lines = t.lines ++ rs ∧
      (flushChain m mids t).core = t.core ∧
      List.Forall₂ Reindented ((mids.reverse.flatMap (·.lines)) ++ m.lines) rs := by
  have hw : m.WF := by obtain ⟨h, hr⟩ := hm; exact Mem.wf_run (by simp [Mem.WF]) hr
  have hws : ∀ b ∈ mids, b.WF := by
    intro b hb
    obtain ⟨h, hr⟩ := hmids b hb
    exact Mem.wf_run (by simp [Mem.WF]) hr
  clear hm hmids
  induction mids generalizing m with
  | nil =>
    obtain ⟨rs, h1, h2, -⟩ := flush_reindented m t hw
    exact ⟨rs, by simp [flushChain, h1], by simp [flushChain, h1], by simpa using h2⟩
  | cons b bs ih =>
    obtain ⟨rs, h1, h2, h3⟩ := flush_reindented m b hw
    have hb := hws b (by simp)
    obtain ⟨rs', g1, g2, g3⟩ := ih { b with lines := b.lines ++ rs }
      (by intro l hl
          rcases List.mem_append.1 hl with hl | hl
          · exact hb l hl
          · exact h3 l hl)
      (fun b' h' => hws b' (List.mem_cons_of_mem _ h'))
    refine ⟨rs', by simpa [flushChain, h1] using g1, by simpa [flushChain, h1] using g2, ?_⟩
    simp only at g3
    rw [← List.append_assoc] at g3
    obtain ⟨r1, r2, rfl, k1, k2⟩ := forall₂_split g3
    rw [List.reverse_cons, List.flatMap_append]
    simpa using forall₂_append k1 (Reindented.trans_list h2 k2)

/-- Non-vacuity: three lines through two intermediate sinks, the second indented. -/
example : (flushChain { lines := ["a".toList, "  b  ".toList] }
    [{ lines := ["m".toList] }, { core := { level := 2 } }]
    { core := { level := 1 }, lines := ["t".toList] }).lines =
    ["t".toList, "   m".toList, "   a".toList, "     b".toList] := by decide

end Verif.CodeSink
