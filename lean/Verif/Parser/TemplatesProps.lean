import Verif.Parser.Templates

/-!
# C118: instances of templates are recognised, called and named

How a demangler writes an instance: `before name<body>after`, where `body` are the arguments separated by `, ` and
brackets are balanced; `First` says that the name does not occur further to the left.
-/
namespace Verif.Templ
open Verif Verif.Annot Verif.Utils

/-- Balanced in `<` and `>`. -/
inductive Balanced : Str → Prop where
  | nil : Balanced []
  | char {c : Char} {s : Str} : c ≠ '<' → c ≠ '>' → Balanced s → Balanced (c :: s)
  | angle {a s : Str} : Balanced a → Balanced s → Balanced ('<' :: (a ++ '>' :: s))

/-- The name occurs behind `before`, and not earlier. -/
def First (text before name : Str) : Prop :=
  (∃ rest, text = before ++ name ++ rest) ∧ ∀ p q, text = p ++ name ++ q → before.length ≤ p.length

/-- The text of an instance. -/
def instanceText (before name body after : Str) : Str := before ++ name ++ '<' :: (body ++ '>' :: after)

/-! ## Finding the name -/

theorem pyFind_some {name : Str} : ∀ {text : Str} {i : Nat}, pyFind name text = some i →
    (∃ rest, text = text.take i ++ name ++ rest) ∧ i ≤ text.length
  | [], i, h => by
    unfold pyFind at h
    split at h
    · rename_i hn; cases h; exact ⟨⟨[], by simp [hn]⟩, by simp⟩
    · cases h
  | c :: r, i, h => by
    unfold pyFind at h
    split at h
    · rename_i hp
      cases h
      obtain ⟨rest, hr⟩ := List.isPrefixOf_iff_prefix.mp hp
      exact ⟨⟨rest, by simp [hr]⟩, by simp⟩
    · rw [Option.map_eq_some_iff] at h
      obtain ⟨j, hj, rfl⟩ := h
      obtain ⟨⟨rest, hr⟩, hl⟩ := pyFind_some hj
      refine ⟨⟨rest, ?_⟩, by simp [hl]⟩
      simp only [List.take_succ_cons, List.cons_append]
      rw [← hr]

theorem pyFind_le {name : Str} : ∀ {text p q : Str}, text = p ++ name ++ q → ∃ i, pyFind name text = some i ∧ i ≤ p.length
  | [], p, q, h => by
    have : name = [] := by
      have := congrArg List.length h
      simp at this
      exact List.eq_nil_of_length_eq_zero (by omega)
    exact ⟨0, by simp [pyFind, this], by simp⟩
  | c :: r, p, q, h => by
    unfold pyFind
    split
    · exact ⟨0, rfl, by simp⟩
    · rename_i hp
      cases p with
      | nil =>
        exfalso
        apply hp
        rw [h]
        exact List.isPrefixOf_iff_prefix.mpr ⟨q, by simp⟩
      | cons d p =>
        simp only [List.cons_append, List.cons.injEq] at h
        obtain ⟨i, hi, hl⟩ := pyFind_le (p := p) h.2
        exact ⟨i + 1, by rw [hi]; rfl, by simp; exact hl⟩

theorem pyFind_first {text before name : Str} (h : First text before name) : pyFind name text = some before.length := by
  obtain ⟨⟨rest, hr⟩, hmin⟩ := h
  obtain ⟨i, hi, hl⟩ := pyFind_le hr
  obtain ⟨⟨q, hq⟩, hlen⟩ := pyFind_some hi
  have := hmin _ _ hq
  rw [List.length_take, Nat.min_eq_left hlen] at this
  rw [hi, Nat.le_antisymm hl this]

theorem behind_first {text before name rest : Str} (h : First text before name) (hr : text = before ++ name ++ rest) :
    behind text name = rest := by
  unfold behind
  rw [pyFind_first h]
  dsimp only
  rw [hr, ← List.length_append, List.drop_left]

/-! ## Blanks and brackets -/

theorem opens_iff : ∀ s : Str, opens s = true ↔ ∃ sp rest, s = sp ++ '<' :: rest ∧ ∀ c ∈ sp, c = ' '
  | [] => by simp [opens]
  | c :: r => by
    unfold opens
    split
    · rename_i hc
      rw [opens_iff r]
      constructor
      · rintro ⟨sp, rest, h, hs⟩
        exact ⟨c :: sp, rest, by simp [h], by simpa [hc] using hs⟩
      · rintro ⟨sp, rest, h, hs⟩
        cases sp with
        | nil => simp only [List.nil_append, List.cons.injEq] at h; rw [hc] at h; exact absurd h.1 (by decide)
        | cons d sp =>
          simp only [List.cons_append, List.cons.injEq] at h
          exact ⟨sp, rest, h.2, fun c hc => hs c (List.mem_cons_of_mem _ hc)⟩
    · rename_i hc
      split
      · rename_i hlt
        exact ⟨fun _ => ⟨[], r, by simp [hlt], by simp⟩, fun _ => rfl⟩
      · rename_i hlt
        constructor
        · intro h; cases h
        · rintro ⟨sp, rest, h, hs⟩
          cases sp with
          | nil => simp only [List.nil_append, List.cons.injEq] at h; exact absurd h.1 hlt
          | cons d sp =>
            simp only [List.cons_append, List.cons.injEq] at h
            exact absurd (h.1.trans (hs d (by simp))) hc

theorem argLoop_balanced {s : Str} (hb : Balanced s) : ∀ (n : Int) (arg r : Str), 1 ≤ n →
    argLoop true n arg (s ++ r) = argLoop true n (arg ++ s) r := by
  induction hb with
  | nil => intro n arg r _; simp
  | @char c s h1 h2 _ ih =>
    intro n arg r hn
    rw [List.cons_append, argLoop]
    simp only [h1, h2, Bool.true_eq_false, and_false, false_and, if_false]
    rw [ih n _ r hn]
    simp
  | @angle a s _ _ iha ihs =>
    intro n arg r hn
    have h0 : n ≠ 0 := by omega
    have h1 : n + 1 ≠ 1 := by omega
    have h2 : n + 1 ≠ 0 := by omega
    rw [List.cons_append, argLoop]
    simp only [show ('<' : Char) ≠ ' ' from by decide, h0, false_and, and_false, if_false, ne_eq, not_false_eq_true, and_self, if_true]
    rw [List.append_assoc, iha (n + 1) _ _ (by omega), List.cons_append, argLoop]
    simp only [show ('>' : Char) ≠ ' ' from by decide, show ('>' : Char) ≠ '<' from by decide, h1, false_and, and_false, if_false,
      ne_eq, not_false_eq_true, and_self, if_true]
    rw [show n + 1 - 1 = n from by omega, ihs n _ r hn]
    simp

theorem argLoop_body {body after : Str} (hb : Balanced body) : argLoop false 0 [] ('<' :: (body ++ '>' :: after)) = some body := by
  rw [argLoop]
  simp only [show ('<' : Char) ≠ ' ' from by decide, false_and, if_false, and_self, if_true]
  rw [argLoop_balanced hb _ _ _ (by omega), argLoop]
  simp

/-! ## The statements -/

/-- **C118** What is taken for an instance of a template: exactly what has, behind the first place where the name
occurs, blanks and an opening bracket. -/
theorem C118_recognised (text before name rest : Str) (h : First text before name) (hr : text = before ++ name ++ rest) :
    checkTemplate text name = true ↔ ∃ sp tail, rest = sp ++ '<' :: tail ∧ ∀ c ∈ sp, c = ' ' := by
  unfold checkTemplate
  rw [behind_first h hr]
  exact opens_iff rest

/-- **C118** The template parameters are the pieces of the argument list between commas.  (Missing: the name must not
occur further to the left.) -/
theorem C118_parameters_partial (before name body after : Str) (hf : First (instanceText before name body after) before name)
    (hb : Balanced body) : parameters (instanceText before name body after) name = splitOn ',' body := by
  have hr : instanceText before name body after = before ++ name ++ '<' :: (body ++ '>' :: after) := rfl
  unfold parameters
  rw [if_pos ((C118_recognised _ _ _ _ hf hr).mpr ⟨[], _, rfl, by simp⟩)]
  unfold getTemplateArg
  rw [behind_first hf hr, argLoop_body hb]
  rfl

theorem join_split (s : Str) : pyJoin ", ".toList (splitOn ',' s) = replace1 ',' ", ".toList s := by
  induction s with
  | nil => rfl
  | cons x xs ih =>
    unfold splitOn replace1
    rw [List.flatMap_cons]
    change _ = _ ++ replace1 ',' ", ".toList xs
    rw [← ih]
    split
    · cases hs : splitOn ',' xs with
      | nil => exact absurd hs (splitOn_ne_nil _ _)
      | cons l ls => simp [pyJoin]
    · cases hs : splitOn ',' xs with
      | nil => exact absurd hs (splitOn_ne_nil _ _)
      | cons l ls => cases ls <;> simp [pyJoin]

/-- **C118** The call names exactly this instance, whatever its arguments are: the argument list is the declared one,
with a blank behind each comma. -/
theorem C118_call_partial (before name body after : Str) (hf : First (instanceText before name body after) before name)
    (hb : Balanced body) : callName (instanceText before name body after) name =
      name ++ "< ".toList ++ replace1 ',' ", ".toList body ++ " >".toList := by
  unfold callName
  rw [C118_parameters_partial _ _ _ _ hf hb, if_neg (splitOn_ne_nil _ _), join_split]

/-- **C118** What is no instance of a template is called by its name and keeps it. -/
theorem C118_plain_partial (globals : ODict (Option Str)) (before name after : Str)
    (hf : First (before ++ name ++ '(' :: after) before name) :
    callName (before ++ name ++ '(' :: after) name = name ∧
    pythonName globals (before ++ name ++ '(' :: after) name = .ok (mangleName name) := by
  have h : checkTemplate (before ++ name ++ '(' :: after) name = false := by
    unfold checkTemplate
    rw [behind_first hf rfl]
    rfl
  have hp : parameters (before ++ name ++ '(' :: after) name = [] := by unfold parameters; rw [h]; rfl
  refine ⟨?_, ?_⟩
  · unfold callName; rw [if_pos hp]
  · unfold pythonName customName; rw [h, hp]; rfl

/-- The entries of a `template_instance_names` annotation: `types=>name`. -/
def annotation (entries : List (Str × Str)) : Str :=
  pyJoin "|".toList (entries.map (fun e => e.1 ++ "=>".toList ++ e.2))

/-- The name given for an argument list: the first entry. -/
def nameFor (arg : Str) : List (Str × Str) → Option Str
  | [] => none
  | (t, n) :: l => if t = arg then some n else nameFor arg l

theorem splitArrow_plain : ∀ {s : Str}, '>' ∉ s → Scan.splitArrow s = [s]
  | [], _ => rfl
  | [c], h => by
    unfold Scan.splitArrow
    split
    · rename_i heq; cases heq
    · rename_i heq; cases heq
    · rename_i heq
      injection heq with h1 h2
      subst h1 h2
      rfl
  | c :: d :: r, h => by
    simp only [List.mem_cons, not_or] at h
    have ih := splitArrow_plain (s := d :: r) (by simp only [List.mem_cons, not_or]; exact ⟨h.2.1, h.2.2⟩)
    rw [Scan.splitArrow, ih]
    intro r' _ h'
    injection h' with h1
    exact h.2.1 h1.symm

theorem splitArrow_entry : ∀ {t n : Str}, '>' ∉ n → ('=' ∉ t) → Scan.splitArrow (t ++ '=' :: '>' :: n) = [t, n]
  | [], n, hn, _ => by
    show Scan.splitArrow ('=' :: '>' :: n) = _
    rw [Scan.splitArrow, splitArrow_plain hn]
  | c :: t, n, hn, ht => by
    simp only [List.mem_cons, not_or] at ht
    have ih := splitArrow_entry (t := t) hn ht.2
    rw [List.cons_append, Scan.splitArrow, ih]
    intro r' h1
    exact absurd h1.symm ht.1

theorem splitOn_app {c : Char} {a : Str} (ha : c ∉ a) (s : Str) : splitOn c (a ++ c :: s) = a :: splitOn c s := by
  induction a with
  | nil => simp [splitOn]
  | cons x xs ih =>
    simp only [List.mem_cons, not_or] at ha
    rw [List.cons_append, splitOn, if_neg (fun h => ha.1 h.symm), ih ha.2]

theorem splitOn_pieces {c : Char} : ∀ {l : List Str}, l ≠ [] → (∀ x ∈ l, c ∉ x) → splitOn c (pyJoin [c] l) = l
  | [], h, _ => absurd rfl h
  | [a], _, h => splitOn_of_not_mem (h a (by simp))
  | a :: b :: l, _, h => by
    show splitOn c (a ++ [c] ++ pyJoin [c] (b :: l)) = _
    rw [List.append_assoc, List.singleton_append, splitOn_app (h a (by simp)),
      splitOn_pieces (by simp) (fun x hx => h x (List.mem_cons_of_mem _ hx))]

theorem instanceName_entries (arg : Str) : ∀ (entries : List (Str × Str)),
    (∀ e ∈ entries, '=' ∉ e.1 ∧ '>' ∉ e.2 ∧ ',' ∉ e.1) →
    Scan.instanceName [arg] (entries.map (fun e => e.1 ++ "=>".toList ++ e.2)) = .ok (nameFor arg entries)
  | [], _ => rfl
  | (t, n) :: l, h => by
    obtain ⟨h1, h2, h3⟩ := h (t, n) (by simp)
    rw [List.map_cons, Scan.instanceName]
    rw [show (t ++ "=>".toList ++ n) = t ++ '=' :: '>' :: n from by simp, splitArrow_entry h2 h1]
    dsimp only
    rw [splitOn_of_not_mem h3, nameFor]
    by_cases ht : t = arg
    · rw [if_pos (by rw [ht]), if_pos ht]
    · rw [if_neg (by simpa using ht), if_neg ht]
      exact instanceName_entries arg l (fun e he => h e (List.mem_cons_of_mem _ he))

/-- **C118** An instance with one template argument gets, of the names the annotation lists, the first for that
argument, and otherwise its own mangled name.  Missing: several arguments (counterexample below). -/
theorem C118_named_partial (globals : ODict (Option Str)) (entries : List (Str × Str)) (before name arg after : Str)
    (hf : First (instanceText before name arg after) before name) (hb : Balanced arg) (hc : ',' ∉ arg)
    (hg : Scan.getNone globals "template_instance_names".toList = some (annotation entries)) (hne : entries ≠ [])
    (he : ∀ e ∈ entries, '=' ∉ e.1 ∧ '>' ∉ e.2 ∧ ',' ∉ e.1 ∧ '|' ∉ e.1 ∧ '|' ∉ e.2) :
    pythonName globals (instanceText before name arg after) name =
      .ok ((nameFor arg entries).getD (getMangledName name [arg])) := by
  have hp := C118_parameters_partial before name arg after hf hb
  rw [splitOn_of_not_mem hc] at hp
  have ht : checkTemplate (instanceText before name arg after) name = true :=
    (C118_recognised _ _ _ _ hf rfl).mpr ⟨[], _, rfl, by simp⟩
  unfold pythonName customName
  rw [if_pos ht, hp]
  have hi : Scan.instanceNames globals [arg] = .ok (nameFor arg entries) := by
    unfold Scan.instanceNames
    rw [hg]
    have hs : splitOn '|' (annotation entries) = entries.map (fun e => e.1 ++ "=>".toList ++ e.2) := by
      unfold annotation
      refine splitOn_pieces (by simpa using hne) ?_
      intro x hx
      obtain ⟨e, hem, rfl⟩ := List.mem_map.mp hx
      obtain ⟨-, -, -, a, b⟩ := he e hem
      simp [a, b]
    cases ha : annotation entries with
    | nil =>
      exfalso
      rw [ha] at hs
      cases entries with
      | nil => exact hne rfl
      | cons e l =>
        simp only [splitOn, List.map_cons, List.cons.injEq] at hs
        have := congrArg List.length hs.1
        simp at this
    | cons c s =>
      dsimp only
      rw [← ha, hs]
      exact instanceName_entries arg entries (fun e hem => ⟨(he e hem).1, (he e hem).2.1, (he e hem).2.2.1⟩)
  rw [hi]
  rfl

/-! ## Where it fails -/

/-- No value has a blank. -/
def Tight (d : ODict (Option Str)) : Prop := ∀ e ∈ d, ∀ v, e.2 = some v → ∀ c ∈ v, isPySpace c = false

theorem tight_set {d : ODict (Option Str)} (h : Tight d) (k : Str) (v : Option Str)
    (hv : ∀ w, v = some w → ∀ c ∈ w, isPySpace c = false) : Tight (d.set k v) := by
  induction d with
  | nil =>
    intro e he w hw
    simp only [ODict.set, List.mem_singleton] at he
    subst he
    exact hv w hw
  | cons a d ih =>
    have ih := ih (fun e he => h e (List.mem_cons_of_mem _ he))
    unfold ODict.set
    split
    · intro e he w hw
      rcases List.mem_cons.mp he with rfl | he
      · exact hv w hw
      · exact h e (List.mem_cons_of_mem _ he) w hw
    · intro e he w hw
      rcases List.mem_cons.mp he with rfl | he
      · exact h _ (by simp) w hw
      · exact ih e he w hw

theorem takeWhile_all {p : Char → Bool} : ∀ {s : Str} {c : Char}, c ∈ s.takeWhile p → p c = true
  | x :: xs, c, h => by
    rw [List.takeWhile_cons] at h
    split at h
    · rename_i hx
      rcases List.mem_cons.mp h with rfl | h
      · exact hx
      · exact takeWhile_all h
    · cases h

theorem globalRx_tight {uni : Char → Bool} {s k : Str} {v : Option Str} (h : globalRx uni s = some (k, v)) :
    ∀ w, v = some w → ∀ c ∈ w, isPySpace c = false := by
  unfold globalRx at h
  dsimp only at h
  split at h
  · cases h
  · split at h
    · injection h with h
      injection h with _ h
      intro w hw c hc
      rw [hw] at h
      split at h
      · cases h
      · injection h with h
        rw [← h] at hc
        have := takeWhile_all hc
        simp only [Bool.and_eq_true, Bool.not_eq_true'] at this
        exact this.1
    · injection h with h
      injection h with _ h
      intro w hw
      rw [hw] at h
      cases h

theorem addOne_tight {uni : Char → Bool} {n : Notes} (h : Tight n.globals) (a : Str) : Tight (addOne uni n a).globals := by
  unfold addOne
  dsimp only
  split
  · rename_i hr
    exact tight_set h _ _ (globalRx_tight hr)
  · split
    · exact h
    · exact h

theorem addText_tight {uni : Char → Bool} (s : Str) : ∀ {n : Notes}, Tight n.globals → Tight (addText uni n s).globals := by
  unfold addText
  generalize splitOn ';' (pyStrip s) = l
  induction l with
  | nil => intro n h; exact h
  | cons a l ih => intro n h; exact ih (addOne_tight h a)

theorem up_tight {uni : Char → Bool} {lines : List Str} : ∀ (m : Nat) (i : Int) {n n' : Notes}, Tight n.globals →
    up uni lines m i n = .ok n' → Tight n'.globals
  | 0, _, _, _, _, h => by cases h
  | m + 1, i, n, n', ht, h => by
    unfold up at h
    split at h
    · cases h
    · split at h
      · injection h with h; rw [← h]; exact ht
      · exact up_tight m _ (addText_tight _ (n := { n with used := n.used ++ [i + 1] }) ht) h

theorem annotations_tight {uni : Char → Bool} {lines : List Str} {line : Nat} {b : Bool} {n : Notes}
    (h : getAnnotations uni lines line b = .ok n) : Tight n.globals := by
  unfold getAnnotations at h
  split at h
  · injection h with h; rw [← h]; intro e he; cases he
  · exact up_tight _ _ (by intro e he; cases he) h

theorem get_mem {d : ODict (Option Str)} {k : Str} {v : Option Str} (h : ODict.get d k = some v) : (k, v) ∈ d := by
  induction d with
  | nil => cases h
  | cons a d ih =>
    obtain ⟨a1, a2⟩ := a
    unfold ODict.get at h
    split at h
    · rename_i hk
      injection h with h
      rw [← hk, h]
      simp
    · exact List.mem_cons_of_mem _ (ih h)

theorem mem_splitOn {c : Char} : ∀ {s p : Str}, p ∈ splitOn c s → ∀ x ∈ p, x ∈ s
  | [], p, h, x, hx => by
    simp only [splitOn, List.mem_singleton] at h
    rw [h] at hx; cases hx
  | a :: s, p, h, x, hx => by
    unfold splitOn at h
    split at h
    · rcases List.mem_cons.mp h with rfl | h
      · cases hx
      · exact List.mem_cons_of_mem _ (mem_splitOn h x hx)
    · cases hs : splitOn c s with
      | nil => exact absurd hs (splitOn_ne_nil _ _)
      | cons l ls =>
        rw [hs] at h
        rcases List.mem_cons.mp h with rfl | h
        · rcases List.mem_cons.mp hx with rfl | hx
          · simp
          · exact List.mem_cons_of_mem _ (mem_splitOn (s := s) (by rw [hs]; simp) x hx)
        · exact List.mem_cons_of_mem _ (mem_splitOn (s := s) (by rw [hs]; simp [h]) x hx)

theorem mem_splitArrow (s : Str) : ∀ p ∈ Scan.splitArrow s, ∀ x ∈ p, x ∈ s := by
  fun_induction Scan.splitArrow s with
  | case1 =>
    intro p hp x hx
    simp only [List.mem_singleton] at hp
    rw [hp] at hx; cases hx
  | case2 r ih =>
    intro p hp x hx
    rcases List.mem_cons.mp hp with rfl | hp
    · cases hx
    · exact List.mem_cons_of_mem _ (List.mem_cons_of_mem _ (ih p hp x hx))
  | case3 c r _ hs ih =>
    intro p hp x hx
    simp only [List.mem_singleton] at hp
    rw [hp] at hx
    simp only [List.mem_singleton] at hx
    simp [hx]
  | case4 c r _ y l hs ih =>
    intro p hp x hx
    rcases List.mem_cons.mp hp with rfl | hp
    · rcases List.mem_cons.mp hx with rfl | hx
      · simp
      · exact List.mem_cons_of_mem _ (ih y (by rw [hs]; simp) x hx)
    · exact List.mem_cons_of_mem _ (ih p (by rw [hs]; simp [hp]) x hx)

theorem instanceName_blank {targs : List Str} {a : Str} (ha : a ∈ targs) (hb : ' ' ∈ a) : ∀ {l : List Str},
    (∀ m ∈ l, ' ' ∉ m) → ∀ n, Scan.instanceName targs l ≠ .ok (some n)
  | [], _, n, h => by cases h
  | m :: l, hl, n, h => by
    unfold Scan.instanceName at h
    split at h
    · rename_i types nm hs
      split at h
      · rename_i ht
        have h1 : a ∈ splitOn ',' types := by rw [ht]; exact ha
        have h2 := mem_splitOn h1 ' ' hb
        exact hl m (by simp) (mem_splitArrow m types (by rw [hs]; simp) ' ' h2)
      · exact instanceName_blank ha hb (fun m hm => hl m (List.mem_cons_of_mem _ hm)) n h
    · cases h

/-- **C118**, what fails: whatever is written above the declaration, an instance with a template parameter in which a
blank is found cannot be given a name: `template_instance_names` ends at the first blank.  All instances with more than
one argument are among them, for `get_template_arg` leaves the blanks behind the commas. -/
theorem C118_blank_counterexample (uni : Char → Bool) (lines : List Str) (line : Nat) (b : Bool) (n : Notes)
    (h : getAnnotations uni lines line b = .ok n) (text name a given : Str) (ha : a ∈ parameters text name) (hb : ' ' ∈ a) :
    customName n.globals text name ≠ .ok (some given) := by
  intro hc
  unfold customName at hc
  split at hc
  · unfold Scan.instanceNames at hc
    split at hc
    · rename_i c s hg
      refine instanceName_blank ha hb ?_ given hc
      intro m hm hmb
      have hmem := mem_splitOn hm ' ' hmb
      have hget : ODict.get n.globals "template_instance_names".toList = some (some (c :: s)) := by
        unfold Scan.getNone at hg
        revert hg
        cases ODict.get n.globals "template_instance_names".toList with
        | none => intro hg; cases hg
        | some v => intro hg; exact congrArg some hg
      have := annotations_tight h _ (get_mem hget) _ rfl ' ' hmem
      exact absurd this (by decide)
    · cases hc
  · cases hc

/-- Two arguments, as the demangler writes them. -/
theorem C118_two_arguments (before name x y after : Str)
    (hf : First (instanceText before name (x ++ ", ".toList ++ y) after) before name)
    (hx : Balanced (x ++ ", ".toList ++ y)) (h1 : ',' ∉ x) (h2 : ',' ∉ y) :
    parameters (instanceText before name (x ++ ", ".toList ++ y) after) name = [x, ' ' :: y] := by
  rw [C118_parameters_partial _ _ _ _ hf hx]
  rw [show x ++ ", ".toList ++ y = x ++ ',' :: (' ' :: y) from by simp, splitOn_app h1, splitOn_of_not_mem (by simp [h2])]

/-- What fails: the name is looked for from the left.  The template `t` in `int t<int>(int)` is not recognised, the
method `Set` of the class `MySet<int>` is taken for a template and called as `Set< int >`. -/
theorem C118_substring_counterexample :
    callName "int t<int>(int)".toList "t".toList = "t".toList ∧
    callName "MySet<int>::Set(int)".toList "Set".toList = "Set< int >".toList := by decide

/-- What fails: an argument that is itself an instance with several arguments counts as several parameters (the call is
right nevertheless, `C118_call_partial`). -/
theorem C118_nested_counterexample :
    parameters "void f<std::pair<int, char>>()".toList "f".toList = ["std::pair<int".toList, " char>".toList] ∧
    callName "void f<std::pair<int, char>>()".toList "f".toList = "f< std::pair<int,  char> >".toList := by decide

/-! ## A case -/

example : First (instanceText "void ns::".toList "put".toList "std::vector<int> ".toList "(int)".toList) "void ns::".toList "put".toList := by
  refine ⟨⟨_, rfl⟩, ?_⟩
  intro p q h
  obtain ⟨i, hi, hl⟩ := pyFind_le h
  have : pyFind "put".toList (instanceText "void ns::".toList "put".toList "std::vector<int> ".toList "(int)".toList) = some 9 := by decide
  rw [this] at hi
  injection hi with hi
  subst hi
  exact hl

theorem balanced_plain {t : Str} (ht : Balanced t) : ∀ {s : Str}, (∀ c ∈ s, c ≠ '<' ∧ c ≠ '>') → Balanced (s ++ t)
  | [], _ => ht
  | c :: _, h => .char (h c (by simp)).1 (h c (by simp)).2 (balanced_plain ht (fun d hd => h d (List.mem_cons_of_mem _ hd)))

example : Balanced "std::vector<int> ".toList := by
  have h : Balanced ("std::vector".toList ++ '<' :: (("int".toList ++ []) ++ '>' :: ([' '] ++ []))) :=
    balanced_plain (.angle (balanced_plain .nil (by decide)) (balanced_plain .nil (by decide))) (by decide)
  exact h

example : parameters "void ns::put<std::vector<int> >(int)".toList "put".toList = ["std::vector<int> ".toList] ∧
    pythonName [("template_instance_names".toList, some "int=>PutInt|char=>PutChar".toList)] "void ns::put<char>(char)".toList "put".toList =
      .ok "PutChar".toList ∧
    pythonName [("template_instance_names".toList, some "int=>PutInt|char=>PutChar".toList)] "void ns::put<bool>(bool)".toList "put".toList =
      .ok "put__lt__bool__gt__".toList := by decide

end Verif.Templ
