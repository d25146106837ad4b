import Verif.Parser.Structure

/-! # C87: every registration of a script ends up in its namespace -/
namespace Verif.Structure
open Verif

variable {α : Type}

theorem Exec.det {ds : List (Def α)} {path : List Str} {l : List (Stmt α)} {o1 o2 : List (List Str × α)}
    (h1 : Exec ds path l o1) (h2 : Exec ds path l o2) : o1 = o2 := by
  induction h1 generalizing o2 with
  | nil => cases h2; rfl
  | own _ ih => cases h2 with | own h => rw [ih h]
  | call hd _ _ ih1 ih2 =>
    cases h2 with
    | call hd' h1 h2 =>
      rw [hd] at hd'
      cases hd'
      rw [ih1 h1, ih2 h2]

theorem Calls.det {ds : List (Def α)} {f : Str} {o1 o2 : List (List Str × α)} (h1 : Calls ds f o1) (h2 : Calls ds f o2) :
    o1 = o2 := by
  obtain ⟨d, hd, h1⟩ := h1
  obtain ⟨d', hd', h2⟩ := h2
  rw [hd] at hd'
  cases hd'
  exact h1.det h2

/-- With distinct names every function is found. -/
theorem lookup_of_mem {ds : List (Def α)} (hn : (ds.map (·.name)).Nodup) {d : Def α} (h : d ∈ ds) :
    lookup ds d.name = some d := by
  unfold lookup
  have hn' : (ds.reverse.map (·.name)).Nodup := by
    rw [List.map_reverse]; exact List.nodup_reverse.mpr hn
  have h' : d ∈ ds.reverse := List.mem_reverse.mpr h
  generalize ds.reverse = l at hn' h'
  induction l with
  | nil => cases h'
  | cons x l ih =>
    rw [List.map_cons, List.nodup_cons] at hn'
    rw [List.find?_cons]
    rcases List.mem_cons.mp h' with rfl | h'
    · simp
    · have : x.name ≠ d.name := fun e => hn'.1 (e ▸ List.mem_map.mpr ⟨d, h', rfl⟩)
      simp only [this, decide_false]
      exact ih hn'.2 h'

theorem Exec.append {ds : List (Def α)} {path : List Str} {l m : List (Stmt α)} {o1 o2 : List (List Str × α)}
    (h1 : Exec ds path l o1) (h2 : Exec ds path m o2) : Exec ds path (l ++ m) (o1 ++ o2) := by
  induction h1 with
  | nil => exact h2
  | own _ ih => exact .own (ih h2)
  | call hd h _ _ ih =>
    rw [List.append_assoc]
    exact .call hd h (ih h2)

theorem exec_own {ds : List (Def α)} (path : List Str) (l : List α) :
    Exec ds path (l.map .own) (l.map (fun a => (path, a))) := by
  induction l with
  | nil => exact .nil
  | cons a l ih => exact .own ih

mutual
theorem exec_body {ds : List (Def α)} {fname : List Str → Str} (path : List Str) (t : NS α)
    (h : ∀ d ∈ t.defs fname path, lookup ds d.name = some d) : Exec ds path (t.body fname path) (t.scan path) := by
  match t with
  | .node n own subs =>
    rw [NS.scan]
    exact (exec_own path own).append (exec_subs path subs (fun d hd => h d (by
      rw [NS.defs]; exact List.mem_cons_of_mem _ hd)))
theorem exec_subs {ds : List (Def α)} {fname : List Str → Str} (path : List Str) (l : List (NS α))
    (h : ∀ d ∈ defsSubs fname path l, lookup ds d.name = some d) :
    Exec ds path (l.map (fun s => .call (fname (path ++ [s.name])) s.name)) (scanSubs path l) := by
  match l with
  | [] => exact .nil
  | s :: l =>
    rw [scanSubs, List.map_cons]
    have hs : ∀ d ∈ s.defs fname (path ++ [s.name]), lookup ds d.name = some d := fun d hd => h d (by
      rw [defsSubs]; exact List.mem_append_left _ hd)
    have hd : lookup ds (fname (path ++ [s.name])) = some ⟨fname (path ++ [s.name]), s.body fname (path ++ [s.name])⟩ := by
      refine hs ⟨_, _⟩ ?_
      cases s
      rw [NS.defs]
      exact List.mem_cons_self
    exact .call hd (exec_body _ s hs) (exec_subs path l (fun d hd => h d (by
      rw [defsSubs]; exact List.mem_append_right _ hd)))
end

theorem mem_defs (fname : List Str → Str) (path : List Str) (t : NS α) :
    (⟨fname path, t.body fname path⟩ : Def α) ∈ t.defs fname path := by
  cases t
  rw [NS.defs]
  exact List.mem_cons_self

/-- If all functions of a script have different names, calling the function of a namespace registers what was registered
in memory. -/
theorem calls_of_distinct {ds : List (Def α)} {fname : List Str → Str} {t : NS α} (hn : (ds.map (·.name)).Nodup)
    (hs : ∀ d ∈ t.defs fname [], d ∈ ds) : Calls ds (fname []) (t.scan []) :=
  ⟨_, lookup_of_mem hn (hs _ (mem_defs fname [] t)), exec_body [] t (fun d hd => lookup_of_mem hn (hs d hd))⟩

/-! ## When names are distinct -/

mutual
/-- The namespaces below one, with their paths. -/
def NS.paths (path : List Str) : NS α → List (List Str)
  | .node _ _ subs => path :: pathsSubs path subs
def pathsSubs (path : List Str) : List (NS α) → List (List Str)
  | [] => []
  | s :: l => s.paths (path ++ [s.name]) ++ pathsSubs path l
end

mutual
theorem defs_names (fname : List Str → Str) (path : List Str) (t : NS α) :
    (t.defs fname path).map (·.name) = (t.paths path).map fname := by
  match t with
  | .node n own subs =>
    rw [NS.defs, NS.paths, List.map_cons, List.map_cons, defsSubs_names fname path subs]
theorem defsSubs_names (fname : List Str → Str) (path : List Str) (l : List (NS α)) :
    (defsSubs fname path l).map (·.name) = (pathsSubs path l).map fname := by
  match l with
  | [] => rfl
  | s :: l =>
    rw [defsSubs, pathsSubs, List.map_append, List.map_append, defs_names fname _ s, defsSubs_names fname path l]
end

mutual
/-- No two namespaces in the same namespace have the same name. -/
def NS.Siblings : NS α → Prop
  | .node _ _ subs => (subs.map NS.name).Nodup ∧ siblingsSubs subs
def siblingsSubs : List (NS α) → Prop
  | [] => True
  | s :: l => s.Siblings ∧ siblingsSubs l
end

mutual
theorem paths_prefix (path : List Str) (t : NS α) : ∀ p ∈ t.paths path, path <+: p := by
  match t with
  | .node n own subs =>
    intro p hp
    rw [NS.paths] at hp
    rcases List.mem_cons.mp hp with rfl | hp
    · exact List.prefix_refl _
    · obtain ⟨n, _, h⟩ := pathsSubs_prefix path subs p hp
      exact (List.prefix_append path [n]).trans h
theorem pathsSubs_prefix (path : List Str) (l : List (NS α)) :
    ∀ p ∈ pathsSubs path l, ∃ n ∈ l.map NS.name, path ++ [n] <+: p := by
  match l with
  | [] => intro p hp; cases hp
  | s :: l =>
    intro p hp
    rw [pathsSubs] at hp
    rcases List.mem_append.mp hp with hp | hp
    · exact ⟨s.name, List.mem_cons_self, paths_prefix _ s p hp⟩
    · obtain ⟨n, hn, h⟩ := pathsSubs_prefix path l p hp
      exact ⟨n, List.mem_cons_of_mem _ hn, h⟩
end

theorem prefix_snoc_inj {path p : List Str} {a b : Str} (ha : path ++ [a] <+: p) (hb : path ++ [b] <+: p) : a = b := by
  obtain ⟨x, rfl⟩ := ha
  obtain ⟨y, h⟩ := hb
  rw [List.append_assoc, List.append_assoc] at h
  have := List.append_cancel_left h
  simp at this
  exact this.1.symm

mutual
/-- Paths of different namespaces are different. -/
theorem paths_nodup (path : List Str) (t : NS α) (h : t.Siblings) : (t.paths path).Nodup := by
  match t with
  | .node n own subs =>
    rw [NS.Siblings] at h
    rw [NS.paths, List.nodup_cons]
    refine ⟨?_, pathsSubs_nodup path subs h.1 h.2⟩
    intro hp
    obtain ⟨n, _, h⟩ := pathsSubs_prefix path subs path hp
    have := h.length_le
    rw [List.length_append, List.length_singleton] at this
    omega
theorem pathsSubs_nodup (path : List Str) (l : List (NS α)) (hn : (l.map NS.name).Nodup) (h : siblingsSubs l) :
    (pathsSubs path l).Nodup := by
  match l with
  | [] => exact List.nodup_nil
  | s :: l =>
    rw [siblingsSubs] at h
    rw [List.map_cons, List.nodup_cons] at hn
    rw [pathsSubs, List.nodup_append]
    refine ⟨paths_nodup _ s h.1, pathsSubs_nodup path l hn.2 h.2, ?_⟩
    rintro p hp q hq rfl
    obtain ⟨n, hn', h'⟩ := pathsSubs_prefix path l p hq
    have := prefix_snoc_inj (paths_prefix _ s p hp) h'
    exact hn.1 (this ▸ hn')
end

mutual
/-- What holds of the names of all nested namespaces. -/
def NS.AllNames (P : Str → Prop) : NS α → Prop
  | .node _ _ subs => allNamesSubs P subs
def allNamesSubs (P : Str → Prop) : List (NS α) → Prop
  | [] => True
  | s :: l => P s.name ∧ s.AllNames P ∧ allNamesSubs P l
end

mutual
theorem paths_names {P : Str → Prop} (path : List Str) (hp : ∀ n ∈ path, P n) (t : NS α) (h : t.AllNames P) :
    ∀ p ∈ t.paths path, ∀ n ∈ p, P n := by
  match t with
  | .node n own subs =>
    rw [NS.AllNames] at h
    intro p hm
    rw [NS.paths] at hm
    rcases List.mem_cons.mp hm with rfl | hm
    · exact hp
    · exact pathsSubs_names path hp subs h p hm
theorem pathsSubs_names {P : Str → Prop} (path : List Str) (hp : ∀ n ∈ path, P n) (l : List (NS α)) (h : allNamesSubs P l) :
    ∀ p ∈ pathsSubs path l, ∀ n ∈ p, P n := by
  match l with
  | [] => intro p hm; cases hm
  | s :: l =>
    rw [allNamesSubs] at h
    intro p hm
    rw [pathsSubs] at hm
    rcases List.mem_append.mp hm with hm | hm
    · refine paths_names _ ?_ s h.2.1 p hm
      intro n hn
      rcases List.mem_append.mp hn with hn | hn
      · exact hp n hn
      · rw [List.mem_singleton.mp hn]; exact h.1
    · exact pathsSubs_names path hp l h.2.2 p hm
end

/-- Names of namespaces without underscores make names of functions that are different. -/
theorem nsName_inj (pre : Str) (base : List Str) (hb : ∀ n ∈ base, '_' ∉ n) {p q : List Str} (hp : ∀ n ∈ p, '_' ∉ n)
    (hq : ∀ n ∈ q, '_' ∉ n) (h : nsName pre base p = nsName pre base q) : p = q := by
  have len : ∀ x : List Str, x ≠ [] → nsName pre base x ≠ pre := by
    intro x hx e
    rw [nsName, if_neg hx] at e
    have := congrArg List.length e
    simp at this
  by_cases hp0 : p = []
  · by_cases hq0 : q = []
    · rw [hp0, hq0]
    · rw [hp0] at h
      exact absurd h.symm (len q hq0)
  · by_cases hq0 : q = []
    · rw [hq0] at h
      exact absurd h (len p hp0)
    · rw [nsName, nsName, if_neg hp0, if_neg hq0] at h
      have h := List.cons.inj (List.append_cancel_left h)
      have e := congrArg (splitOn '_') h.2
      rw [Annot.splitOn_join, Annot.splitOn_join] at e
      · exact List.append_cancel_left e
      · intro h; exact hq0 (List.append_eq_nil_iff.mp h).2
      · intro x hx
        rcases List.mem_append.mp hx with hx | hx
        · exact hb x hx
        · exact hq x hx
      · intro h; exact hp0 (List.append_eq_nil_iff.mp h).2
      · intro x hx
        rcases List.mem_append.mp hx with hx | hx
        · exact hb x hx
        · exact hp x hx

theorem typesPre_eq : typesPre = registerPre ++ 't' :: "ypes".toList := by decide
theorem functionsPre_eq : functionsPre = registerPre ++ 'f' :: "unctions".toList := by decide
theorem methodsPre_eq : methodsPre = registerPre ++ 'm' :: "ethods".toList := by decide

/-- The character after `register_`. -/
def tag (x : Str) : Option Char := (x.drop 9).head?

theorem tag_append (r : Str) : tag (registerPre ++ r) = r.head? := by
  have : registerPre.length = 9 := by decide
  rw [tag, List.drop_append_of_le_length (Nat.le_of_eq this.symm), List.drop_eq_nil_of_le (Nat.le_of_eq this), List.nil_append]

theorem tag_types (base p : List Str) : tag (nsName typesPre base p) = some 't' := by
  unfold nsName
  split
  · rw [typesPre_eq, tag_append]; rfl
  · rw [typesPre_eq, List.append_assoc, tag_append]; rfl

theorem tag_functions (base p : List Str) : tag (nsName functionsPre base p) = some 'f' := by
  unfold nsName
  split
  · rw [functionsPre_eq, tag_append]; rfl
  · rw [functionsPre_eq, List.append_assoc, tag_append]; rfl

/-- The mangled name of a class begins like a class name made by pybindgen: not with a lower case letter. -/
def Capital (x : Str) : Prop := ∃ c r, x = c :: r ∧ c.isLower = false

theorem tag_methods {mangled : Str → Str} {p : List Str} (hc : ∀ c, p = [c] → Capital (mangled c)) :
    ∃ c, tag (methodsName mangled p) = some c ∧ (c = 'm' ∨ c.isLower = false) := by
  have other : ∀ q : List Str, methodsName mangled q = methodsPre →
      ∃ c, tag (methodsName mangled q) = some c ∧ (c = 'm' ∨ c.isLower = false) := by
    intro q hq
    rw [hq, methodsPre_eq, tag_append]
    exact ⟨'m', rfl, Or.inl rfl⟩
  match p with
  | [] => exact other _ rfl
  | [c] =>
    obtain ⟨x, r, hx, hl⟩ := hc c rfl
    rw [methodsName, hx, List.append_assoc, tag_append]
    exact ⟨x, rfl, Or.inr hl⟩
  | _ :: _ :: _ => exact other _ rfl

/-- Names of the functions for the methods of classes are different if the mangled names are. -/
theorem methodsName_inj {mangled : Str → Str} {p q : List Str} (hp : p.length ≤ 1) (hq : q.length ≤ 1)
    (cp : ∀ c, p = [c] → Capital (mangled c)) (cq : ∀ c, q = [c] → Capital (mangled c))
    (hm : ∀ c d, p = [c] → q = [d] → mangled c = mangled d → c = d)
    (h : methodsName mangled p = methodsName mangled q) : p = q := by
  have one : ∀ c : Str, Capital (mangled c) → methodsName mangled [c] ≠ methodsPre := by
    rintro c ⟨x, r, hx, hl⟩ e
    have e := congrArg tag e
    rw [methodsName, hx, List.append_assoc, tag_append, methodsPre_eq, tag_append] at e
    cases e
    revert hl
    decide
  match p, q with
  | [], [] => rfl
  | [], [d] => exact absurd h.symm (one d (cq d rfl))
  | [c], [] => exact absurd h (one c (cp c rfl))
  | [c], [d] =>
    rw [methodsName, methodsName] at h
    have := List.append_cancel_left (List.append_cancel_right h)
    rw [hm c d rfl rfl this]
  | _ :: _ :: _, _ => simp at hp
  | _, _ :: _ :: _ => simp at hq

/-! ## Statements -/

/-- **C87**: if the functions of a script have different names, running the script does exactly what was done while
scanning: every registration is made in its namespace or class, in the same order. -/
theorem C87_distinct_partial (base : List Str) (mangled : Str → Str) (s : Script α)
    (hn : ((s.defs base mangled).map (·.name)).Nodup) (out : List (List Str × α)) :
    RunsMain (s.defs base mangled) out ↔ out = s.scan := by
  have h1 : Calls (s.defs base mangled) typesPre (s.types.scan []) :=
    calls_of_distinct (fname := nsName typesPre base) hn
      (fun d hd => List.mem_append_left _ (List.mem_append_left _ hd))
  have h2 : Calls (s.defs base mangled) methodsPre (s.methods.scan []) :=
    calls_of_distinct (fname := methodsName mangled) hn (fun d hd => List.mem_append_left _ (List.mem_append_right _ hd))
  have h3 : Calls (s.defs base mangled) functionsPre (s.functions.scan []) :=
    calls_of_distinct (fname := nsName functionsPre base) hn (fun d hd => List.mem_append_right _ hd)
  constructor
  · rintro ⟨o1, o2, o3, c1, c2, c3, rfl⟩
    rw [c1.det h1, c2.det h2, c3.det h3, Script.scan]
  · rintro rfl
    exact ⟨_, _, _, h1, h2, h3, rfl⟩

/-- The names are different if no namespace has an underscore in its name and no two classes have the same mangled
name. -/
theorem C87_script_partial (base : List Str) (mangled : Str → Str) (s : Script α) (hb : ∀ n ∈ base, '_' ∉ n)
    (ht : s.types.Siblings) (ht' : s.types.AllNames (fun n => '_' ∉ n))
    (hf : s.functions.Siblings) (hf' : s.functions.AllNames (fun n => '_' ∉ n))
    (hm : s.methods.Siblings) (hm1 : ∀ p ∈ s.methods.paths [], p.length ≤ 1)
    (hm2 : ∀ c, [c] ∈ s.methods.paths [] → Capital (mangled c))
    (hm3 : ∀ c d, [c] ∈ s.methods.paths [] → [d] ∈ s.methods.paths [] → mangled c = mangled d → c = d)
    (out : List (List Str × α)) :
    RunsMain (s.defs base mangled) out ↔ out = s.scan := by
  refine C87_distinct_partial base mangled s ?_ out
  rw [Script.defs, List.map_append, List.map_append, defs_names, defs_names, defs_names]
  have nt := paths_names (P := fun n => '_' ∉ n) [] (fun _ h => (nomatch h)) s.types ht'
  have nf := paths_names (P := fun n => '_' ∉ n) [] (fun _ h => (nomatch h)) s.functions hf'
  rw [List.nodup_append, List.nodup_append]
  refine ⟨⟨?_, ?_, ?_⟩, ?_, ?_⟩
  · refine List.Nodup.map_on ?_ (paths_nodup [] _ ht)
    intro p hp q hq h
    exact nsName_inj _ _ hb (nt p hp) (nt q hq) h
  · refine List.Nodup.map_on ?_ (paths_nodup [] _ hm)
    intro p hp q hq h
    exact methodsName_inj (hm1 p hp) (hm1 q hq) (fun c e => hm2 c (e ▸ hp)) (fun c e => hm2 c (e ▸ hq))
      (fun c d e1 e2 => hm3 c d (e1 ▸ hp) (e2 ▸ hq)) h
  · rintro a ha b hb rfl
    obtain ⟨p, hp, rfl⟩ := List.mem_map.mp ha
    obtain ⟨q, hq, e⟩ := List.mem_map.mp hb
    obtain ⟨c, hc, h⟩ := tag_methods (mangled := mangled) (p := q) (fun c e => hm2 c (e ▸ hq))
    rw [e, tag_types] at hc
    cases hc
    revert h; decide
  · refine List.Nodup.map_on ?_ (paths_nodup [] _ hf)
    intro p hp q hq h
    exact nsName_inj _ _ hb (nf p hp) (nf q hq) h
  · rintro a ha b hb rfl
    obtain ⟨r, hr, e'⟩ := List.mem_map.mp hb
    rcases List.mem_append.mp ha with ha | ha
    · obtain ⟨p, hp, e⟩ := List.mem_map.mp ha
      have := tag_types base p
      rw [e, ← e', tag_functions] at this
      cases this
    · obtain ⟨q, hq, e⟩ := List.mem_map.mp ha
      obtain ⟨c, hc, h⟩ := tag_methods (mangled := mangled) (p := q) (fun c e => hm2 c (e ▸ hq))
      rw [e, ← e', tag_functions] at hc
      cases hc
      revert h; decide

/-! ## Sections -/

mutual
theorem scan_only (sel : α → Bool) (path : List Str) (t : NS α) :
    (t.only sel).scan path = (t.scan path).filter (fun x => sel x.2) := by
  match t with
  | .node n own subs =>
    rw [NS.only, NS.scan, NS.scan, List.filter_append, scanSubs_only sel path subs, List.filter_map]
    rfl
theorem scanSubs_only (sel : α → Bool) (path : List Str) (l : List (NS α)) :
    scanSubs path (onlySubs sel l) = (scanSubs path l).filter (fun x => sel x.2) := by
  match l with
  | [] => rfl
  | s :: l =>
    have hn : (s.only sel).name = s.name := by cases s; rw [NS.only]; rfl
    rw [onlySubs, scanSubs, scanSubs, List.filter_append, hn, scan_only sel _ s, scanSubs_only sel path l]
end

mutual
theorem paths_only (sel : α → Bool) (path : List Str) (t : NS α) : (t.only sel).paths path = t.paths path := by
  match t with
  | .node n own subs => rw [NS.only, NS.paths, NS.paths, pathsSubs_only sel path subs]
theorem pathsSubs_only (sel : α → Bool) (path : List Str) (l : List (NS α)) :
    pathsSubs path (onlySubs sel l) = pathsSubs path l := by
  match l with
  | [] => rfl
  | s :: l =>
    have hn : (s.only sel).name = s.name := by cases s; rw [NS.only]; rfl
    rw [onlySubs, pathsSubs, pathsSubs, hn, paths_only sel _ s, pathsSubs_only sel path l]
end

/-- Parts of a list, one for each of several different values, are together a permutation of it. -/
theorem perm_parts {σ β : Type} [DecidableEq σ] (f : β → σ) : ∀ (ss : List σ), ss.Nodup → ∀ (l : List β), (∀ x ∈ l, f x ∈ ss) →
    ((ss.map (fun s => l.filter (fun x => f x = s))).flatten).Perm l
  | [], _, l, h => by
    cases l with
    | nil => exact .refl _
    | cons a l => exact absurd (h a List.mem_cons_self) List.not_mem_nil
  | s :: ss, hn, l, h => by
    rw [List.nodup_cons] at hn
    rw [List.map_cons, List.flatten_cons]
    have rest := perm_parts f ss hn.2 (l.filter (fun x => !decide (f x = s))) (by
      intro x hx
      have := List.mem_filter.mp hx
      rcases List.mem_cons.mp (h x this.1) with e | e
      · simp [e] at this
      · exact e)
    have same : ss.map (fun s' => (l.filter (fun x => !decide (f x = s))).filter (fun x => f x = s')) =
        ss.map (fun s' => l.filter (fun x => f x = s')) := by
      apply List.map_congr_left
      intro s' hs'
      rw [List.filter_filter]
      congr 1
      funext x
      by_cases e : f x = s'
      · have : s' ≠ s := fun e' => hn.1 (e' ▸ hs')
        simp [e, this]
      · simp [e]
    rw [same] at rest
    exact (List.Perm.append_left _ rest).trans (List.filter_append_perm (fun x => decide (f x = s)) l)

/-- **C87** with sections: whatever the classifier says, everything is registered exactly once and in its namespace,
but not in the same order (see the counterexample). -/
theorem C87_sections_partial {σ : Type} [DecidableEq σ] (fname : List Str → Str) (main : σ) (others : List σ) (sec : α → σ)
    (t : NS α) (hs : (main :: others).Nodup) (hsec : ∀ x ∈ t.scan [], sec x.2 ∈ main :: others)
    (hn : ((t.paths []).map fname).Nodup) :
    (∃ out, RunsSections fname main others sec t out) ∧
      ∀ out, RunsSections fname main others sec t out → out.Perm (t.scan []) := by
  have part : ∀ s, Calls ((t.only (fun a => sec a = s)).defs fname []) (fname []) ((t.scan []).filter (fun x => sec x.2 = s)) := by
    intro s
    have := calls_of_distinct (ds := (t.only (fun a => decide (sec a = s))).defs fname []) (fname := fname)
      (t := t.only (fun a => decide (sec a = s))) (by rw [defs_names, paths_only]; exact hn) (fun d hd => hd)
    rwa [scan_only] at this
  have all : ∀ l : List σ, List.Forall₂ (fun s o => Calls ((t.only (fun a => sec a = s)).defs fname []) (fname []) o) l
      (l.map (fun s => (t.scan []).filter (fun x => sec x.2 = s))) := by
    intro l
    induction l with
    | nil => exact .nil
    | cons s l ih => exact .cons (part s) ih
  refine ⟨⟨_, _, _, all others, part main, rfl⟩, ?_⟩
  rintro out ⟨outs, own, ho, hown, rfl⟩
  have e1 : outs = others.map (fun s => (t.scan []).filter (fun x => sec x.2 = s)) := by
    clear hs hsec
    induction ho with
    | nil => rfl
    | @cons s o l os h _ ih => rw [List.map_cons, ← ih, h.det (part s)]
  rw [e1, hown.det (part main)]
  refine List.perm_append_comm.trans ?_
  have := perm_parts (fun x : List Str × α => sec x.2) (main :: others) hs (t.scan []) hsec
  rwa [List.map_cons, List.flatten_cons] at this

/-! ## Concrete cases -/

/-- `f` in the module, `g` in `a`, `h` in `a::b`. -/
def demoTree : NS Nat := .node [] [0] [.node "a".toList [1] [.node "b".toList [2] []], .node "c".toList [] []]

def demoScript : Script Nat where
  types := .node [] [10] [.node "a".toList [11] []]
  methods := .node [] [] [.node "A".toList [20, 21] [], .node "a::B".toList [22] []]
  functions := demoTree

def demoMangled (s : Str) : Str := Names.flatten s

example (out : List (List Str × Nat)) : RunsMain (demoScript.defs [] demoMangled) out ↔ out =
    [([], 10), (["a".toList], 11), (["A".toList], 20), (["A".toList], 21), (["a::B".toList], 22),
      ([], 0), (["a".toList], 1), (["a".toList, "b".toList], 2)] := by
  have e : demoScript.scan = [([], 10), (["a".toList], 11), (["A".toList], 20), (["A".toList], 21), (["a::B".toList], 22),
      ([], 0), (["a".toList], 1), (["a".toList, "b".toList], 2)] := by decide +kernel
  rw [← e]
  exact C87_distinct_partial [] demoMangled demoScript (by decide +kernel) out

/-- The hypotheses of the theorem about names hold here as well. -/
example (out : List (List Str × Nat)) : RunsMain (demoScript.defs [] demoMangled) out ↔ out = demoScript.scan := by
  have hp : demoScript.methods.paths [] = [[], ["A".toList], ["a::B".toList]] := by decide +kernel
  refine C87_script_partial [] demoMangled demoScript (fun _ h => (nomatch h)) ?_ ?_ ?_ ?_ ?_ ?_ ?_ ?_ out
  · simp [demoScript, NS.Siblings, siblingsSubs]
  · refine ⟨?_, trivial, trivial⟩; decide
  · simp only [demoScript, demoTree, NS.Siblings, siblingsSubs]; decide
  · simp only [demoScript, demoTree, NS.AllNames, allNamesSubs, NS.name]; decide
  · simp only [demoScript, NS.Siblings, siblingsSubs]; decide
  · rw [hp]; decide
  · rw [hp]
    intro c hc
    simp only [List.mem_cons, List.cons.injEq, List.not_mem_nil, or_false, and_true, reduceCtorEq, false_or] at hc
    rcases hc with rfl | rfl
    · exact ⟨'A', [], by decide +kernel, by decide⟩
    · exact ⟨'A', ['B'], by decide +kernel, by decide⟩
  · rw [hp]
    intro c d hc hd
    simp only [List.mem_cons, List.cons.injEq, List.not_mem_nil, or_false, and_true, reduceCtorEq, false_or] at hc hd
    rcases hc with rfl | rfl <;> rcases hd with rfl | rfl <;> intro h <;> first | rfl | (revert h; decide +kernel)

/-- **C87 fails** when joined names of namespaces are the same: of the functions of `a::b_c` and `a_b::c` the first is
lost and the second registered in both places. -/
theorem C87_names_counterexample :
    let t : NS Nat := .node [] [] [.node "a".toList [] [.node "b_c".toList [1] []], .node "a_b".toList [] [.node "c".toList [2] []]]
    Calls (t.defs (nsName functionsPre []) []) functionsPre [(["a".toList, "b_c".toList], 2), (["a_b".toList, "c".toList], 2)] ∧
    t.scan [] = [(["a".toList, "b_c".toList], 1), (["a_b".toList, "c".toList], 2)] := by
  refine ⟨⟨⟨functionsPre, [.call "register_functions_a".toList "a".toList, .call "register_functions_a_b".toList "a_b".toList]⟩,
    by decide +kernel, ?_⟩, by decide +kernel⟩
  exact .call (d := ⟨"register_functions_a".toList, [.call "register_functions_a_b_c".toList "b_c".toList]⟩) (by decide +kernel)
    (.call (d := ⟨"register_functions_a_b_c".toList, [.own 2]⟩) (by decide +kernel) (.own .nil) .nil)
    (.call (d := ⟨"register_functions_a_b".toList, [.call "register_functions_a_b_c".toList "c".toList]⟩) (by decide +kernel)
      (.call (d := ⟨"register_functions_a_b_c".toList, [.own 2]⟩) (by decide +kernel) (.own .nil) .nil) .nil)

/-- **C87 fails** when mangled names of classes are the same, as for `AB` and `A::B`: the methods of the first are lost
and those of the second are added to both. -/
theorem C87_classes_counterexample :
    let t : NS Nat := .node [] [] [.node "AB".toList [1] [], .node "A::B".toList [2] []]
    Calls (t.defs (methodsName demoMangled) []) methodsPre [(["AB".toList], 2), (["A::B".toList], 2)] ∧
    t.scan [] = [(["AB".toList], 1), (["A::B".toList], 2)] := by
  refine ⟨⟨⟨methodsPre, [.call "register_AB_methods".toList "AB".toList, .call "register_AB_methods".toList "A::B".toList]⟩,
    by decide +kernel, ?_⟩, by decide +kernel⟩
  exact .call (d := ⟨"register_AB_methods".toList, [.own 2]⟩) (by decide +kernel) (.own .nil)
    (.call (d := ⟨"register_AB_methods".toList, [.own 2]⟩) (by decide +kernel) (.own .nil) .nil)

/-- **C87 fails** for the order when there are sections: what is in the main section comes last, so a class in another
section is registered before a base class in the main section. -/
theorem C87_order_counterexample :
    let t : NS (String × Nat) := .node [] [("Base", 0), ("Derived", 1)] []
    RunsSections (nsName typesPre []) 0 [1] (·.2) t [([], ("Derived", 1)), ([], ("Base", 0))] ∧
    t.scan [] = [([], ("Base", 0)), ([], ("Derived", 1))] := by
  refine ⟨⟨[[([], ("Derived", 1))]], [([], ("Base", 0))], .cons ?_ .nil, ?_, rfl⟩, by decide +kernel⟩
  · exact ⟨⟨typesPre, [.own ("Derived", 1)]⟩, by decide +kernel, .own .nil⟩
  · exact ⟨⟨typesPre, [.own ("Base", 0)]⟩, by decide +kernel, .own .nil⟩

example : (∃ out, RunsSections (nsName functionsPre []) 0 [1, 2] (fun n => n) demoTree out) ∧
    ∀ out, RunsSections (nsName functionsPre []) 0 [1, 2] (fun n => n) demoTree out → out.Perm (demoTree.scan []) :=
  C87_sections_partial _ 0 [1, 2] (fun n => n) demoTree (by decide) (by decide +kernel) (by decide +kernel)

end Verif.Structure
