import Verif.CppClass.Methods
import Verif.Slots.MethodTable

/-!
# C69: methods of the bases of a class with several bases

`_generate_MI_parent_methods`, cppclass.py:2324-2393: a class with more than one base gets, in its own
method table, wrappers for the methods of its ancestors.  They are needed because an instance of the
class holds a pointer to the whole C++ object: a wrapper made for a base that is not at the start of
the object would take that pointer for one to the base.
-/
namespace Verif.CppClass
open Verif Verif.Slots

/-- `leaf.matches_signature(other)`, cppmethod.py:183-193.  `Function` has no `matches_signature` and
no `is_const` (function.py), so that asking raises `AttributeError`. -/
def matchesSig (leaf other : Meth) : PyRes Bool :=
  if leaf.isCpp = false then .error .attributeError
  else if leaf.sig.name ≠ other.sig.name then .ok false
  else if leaf.sig.params ≠ other.sig.params then .ok false
  else if other.isCpp = false then .error .attributeError
  else .ok (decide (leaf.sig.isConst = other.sig.isConst))

/-- The loops at cppclass.py:2349-2352 and 2363-2366. -/
def anyMatches (p : Meth) : List Meth → PyRes Bool
  | [] => .ok false
  | l :: ls =>
    match matchesSig l p with
    | .error e => .error e
    | .ok true => .ok true
    | .ok false => anyMatches p ls

/-- `self.methods` (to which wrappers may be added) and the local `methods`: for each name the
wrappers collected, with their `original_class`. -/
structure MI where
  own : List (Str × List Meth)
  found : List (Str × List (Nat × Meth)) := []

/-- `methods[name]`, created when missing, cppclass.py:2335-2340. -/
def touch (f : List (Str × List (Nat × Meth))) (n : Str) : List (Str × List (Nat × Meth)) :=
  if f.any (fun p => p.1 = n) then f else f ++ [(n, [])]

/-- `overload.add(wrapper)` on an entry of `methods`. -/
def push (n : Str) (w : Nat × Meth) : List (Str × List (Nat × Meth)) → List (Str × List (Nat × Meth))
  | [] => []
  | (k, ws) :: r => if k = n then (k, ws ++ [w]) :: r else (k, ws) :: push n w r

/-- The body of the loop over `parent_overload.wrappers`, cppclass.py:2342-2373, for class `c` with
non-public methods `nonpub`. -/
def visit (c : Nat) (nonpub : List Meth) (base : Nat) (n : Str) (st : MI) (p : Meth) : PyRes MI :=
  if p.vis ≠ .pub then .ok st
  else
    match anyMatches p nonpub with
    | .error e => .error e
    | .ok true => .ok st
    | .ok false =>
      match Dict.get st.own n with
      | some ws =>
        match anyMatches p ws with
        | .error e => .error e
        | .ok true => .ok st
        | .ok false => .ok { st with own := addToOverloads st.own n { p with owner := c } }
      | none => .ok { st with found := push n (base, p) st.found }

/-- A Python loop whose body may raise. -/
def foldPy {S A : Type} (f : S → A → PyRes S) : S → List A → PyRes S
  | s, [] => .ok s
  | s, a :: as =>
    match f s a with
    | .error e => .error e
    | .ok s' => foldPy f s' as

/-- The loop over the methods of one base, cppclass.py:2329-2373. -/
def visitOverload (c : Nat) (nonpub : List Meth) (base : Nat) (st : MI) (o : Str × List Meth) : PyRes MI :=
  if isSpecial o.1 then .ok st
  else foldPy (visit c nonpub base o.1) { st with found := touch st.found o.1 } o.2

def visitBase (c : Nat) (σ : St) (st : MI) (base : Nat) : PyRes MI :=
  foldPy (visitOverload c (σ c).nonpublic base) st (σ base).methods

/-- cppclass.py:2325-2373; `next(mro)` skips the class itself. -/
def collect (h : Hier) (σ : St) (c : Nat) : PyRes MI :=
  foldPy (visitBase c σ) { own := (σ c).methods } (h.mro c).tail

/-- `classes`, cppclass.py:2380-2383. -/
def classesOf (ws : List (Nat × Meth)) : List Nat :=
  ws.foldl (fun cs w => if w.1 ∈ cs then cs else cs ++ [w.1]) []

/-- cppclass.py:2375-2392: the names entered in the method table, with the wrappers their entry is
made of.  `gen n` tells whether the overload set of that name could be generated (an exception other
than `SkipWrapper` ends the run and is not modelled here). -/
def reexports (gen : Str → Bool) (st : MI) : List (Str × List (Nat × Meth)) :=
  st.found.filter fun e =>
    if e.2 = [] then false
    else if (classesOf e.2).length > 1 then false
    else gen e.1

/-! ## Specification -/

/-- Methods of class `d` called `n` that class `c` can hand on: public, and not redeclared as a
non-public method of `c`. -/
def offered (σ : St) (c d : Nat) (n : Str) : List Meth :=
  (((σ d).methods.filter (fun o => o.1 = n)).flatMap (·.2)).filter
    (fun p => p.vis = .pub ∧ ∀ l ∈ (σ c).nonpublic, l.sig ≠ p.sig)

/-! ## Proofs -/

theorem foldPy_inv {S A : Type} {f : S → A → PyRes S} (P : List A → S → Prop)
    (step : ∀ pre a s s', P pre s → f s a = .ok s' → P (pre ++ [a]) s') :
    ∀ (l pre : List A) (s s' : S), P pre s → foldPy f s l = .ok s' → P (pre ++ l) s'
  | [], pre, s, s', h, he => by cases he; simpa using h
  | a :: l, pre, s, s', h, he => by
    unfold foldPy at he
    cases hf : f s a with
    | error e => rw [hf] at he; cases he
    | ok s1 =>
      rw [hf] at he
      have := foldPy_inv P step l (pre ++ [a]) s1 s' (step pre a s s1 h hf) he
      simpa using this

theorem matchesSig_ok {l p : Meth} {b : Bool} (h : matchesSig l p = .ok b) :
    b = decide (l.sig = p.sig) := by
  unfold matchesSig at h
  split at h
  · cases h
  · split at h
    · rename_i hn
      cases h
      exact (decide_eq_false (fun he => hn (by rw [he]))).symm
    · split at h
      · rename_i hn
        cases h
        exact (decide_eq_false (fun he => hn (by rw [he]))).symm
      · split at h
        · cases h
        · rename_i h1 h2 _
          have hb := Except.ok.inj h
          subst hb
          have h1 := Decidable.not_not.1 h1
          have h2 := Decidable.not_not.1 h2
          apply decide_eq_decide.2
          constructor
          · intro h3
            cases hl : l.sig; cases hp : p.sig
            rw [hl, hp] at h1 h2 h3
            simp_all
          · intro h3; rw [h3]

theorem anyMatches_ok {p : Meth} : ∀ {ls : List Meth} {b : Bool}, anyMatches p ls = .ok b →
    b = ls.any (fun l => l.sig = p.sig)
  | [], b, h => by cases h; rfl
  | l :: ls, b, h => by
    unfold anyMatches at h
    cases hm : matchesSig l p with
    | error e => rw [hm] at h; cases h
    | ok x =>
      rw [hm] at h
      have hx := matchesSig_ok hm
      cases x with
      | true => cases h; simp [← hx]
      | false => simp only at h; rw [List.any_cons, ← hx]; simpa using anyMatches_ok h

theorem get_touch (f : List (Str × List (Nat × Meth))) (n k : Str) :
    ((Dict.get (touch f n) k).getD []) = (Dict.get f k).getD [] := by
  unfold touch
  split
  · rfl
  · rename_i hn
    induction f with
    | nil => unfold Dict.get; simp only [List.nil_append]; unfold Dict.get; split <;> rfl
    | cons q r ih =>
      obtain ⟨a, b⟩ := q
      simp only [List.any_cons, Bool.or_eq_true, not_or] at hn
      simp only [List.cons_append]
      unfold Dict.get
      split
      · rfl
      · exact ih hn.2

/-- Names collected so far. -/
def keys (f : List (Str × List (Nat × Meth))) : List Str := f.map (·.1)

theorem keys_touch (f : List (Str × List (Nat × Meth))) (n : Str) :
    n ∈ keys (touch f n) ∧ ((keys f).Nodup → (keys (touch f n)).Nodup) ∧ ∀ k, k ∈ keys f → k ∈ keys (touch f n) := by
  unfold touch
  split
  · rename_i h
    obtain ⟨p, hp, he⟩ := List.any_eq_true.1 h
    refine ⟨?_, id, fun _ => id⟩
    exact List.mem_map.2 ⟨p, hp, by simpa using he⟩
  · rename_i h
    refine ⟨by simp [keys], fun hd => ?_, fun k hk => by simp only [keys, List.map_append, List.mem_append]; exact .inl hk⟩
    simp only [keys, List.map_append, List.map_cons, List.map_nil]
    rw [List.nodup_append]
    refine ⟨hd, by simp, ?_⟩
    intro a ha b hb
    simp only [List.mem_singleton] at hb
    subst hb
    obtain ⟨p, hp, rfl⟩ := List.mem_map.1 ha
    intro he
    apply h
    exact List.any_eq_true.2 ⟨p, hp, by simpa using he⟩

theorem keys_push (n : Str) (w : Nat × Meth) (f : List (Str × List (Nat × Meth))) :
    keys (push n w f) = keys f := by
  induction f with
  | nil => rfl
  | cons q r ih =>
    obtain ⟨a, b⟩ := q
    unfold push
    split
    · rfl
    · simp only [keys, List.map_cons] at ih ⊢; rw [ih]

theorem get_push (n : Str) (w : Nat × Meth) (f : List (Str × List (Nat × Meth))) (k : Str)
    (hn : n ∈ keys f) :
    (Dict.get (push n w f) k).getD [] = (Dict.get f k).getD [] ++ (if k = n then [w] else []) := by
  induction f with
  | nil => cases hn
  | cons q r ih =>
    obtain ⟨a, b⟩ := q
    unfold push
    by_cases ha : a = n
    · rw [if_pos ha]
      subst ha
      unfold Dict.get
      by_cases hk : a = k
      · subst hk; simp
      · rw [if_neg hk, if_neg hk, if_neg (fun h => hk h.symm)]; simp
    · rw [if_neg ha]
      have hn' : n ∈ keys r := by
        simp only [keys, List.map_cons, List.mem_cons] at hn ⊢
        rcases hn with h | h
        · exact absurd h.symm ha
        · exact h
      unfold Dict.get
      by_cases hk : a = k
      · subst hk; rw [if_pos rfl, if_pos rfl, if_neg ha]; simp
      · rw [if_neg hk, if_neg hk]; exact ih hn'

theorem get_addToOverloads (d : List (Str × List Meth)) (n k : Str) (m : Meth)
    (hn : (Dict.get d n).isSome) :
    (Dict.get (addToOverloads d n m) k).isSome = (Dict.get d k).isSome := by
  induction d with
  | nil => cases hn
  | cons q r ih =>
    obtain ⟨a, b⟩ := q
    unfold addToOverloads
    by_cases ha : a = n
    · rw [if_pos ha]; unfold Dict.get; split <;> rfl
    · rw [if_neg ha]
      unfold Dict.get at hn ⊢
      rw [if_neg ha] at hn
      split
      · rfl
      · exact ih hn

/-- Which of the methods are taken. -/
def taken (σ : St) (c : Nat) (p : Meth) : Bool :=
  decide (p.vis = .pub ∧ ∀ l ∈ (σ c).nonpublic, l.sig ≠ p.sig)

/-- What is kept unchanged, and what is collected under name `k`. -/
structure Keeps (st st' : MI) (k : Str) (add : List (Nat × Meth)) : Prop where
  own : ∀ k, (Dict.get st'.own k).isSome = (Dict.get st.own k).isSome
  nodup : (keys st.found).Nodup → (keys st'.found).Nodup
  mono : ∀ k, k ∈ keys st.found → k ∈ keys st'.found
  added : (Dict.get st'.found k).getD [] = (Dict.get st.found k).getD [] ++ add

theorem Keeps.refl (st : MI) (k : Str) : Keeps st st k [] :=
  ⟨fun _ => rfl, id, fun _ => id, by simp⟩

theorem Keeps.trans {a b c : MI} {k : Str} {x y : List (Nat × Meth)} (h1 : Keeps a b k x)
    (h2 : Keeps b c k y) : Keeps a c k (x ++ y) :=
  ⟨fun k => by rw [h2.own, h1.own], fun h => h2.nodup (h1.nodup h), fun k h => h2.mono k (h1.mono k h),
   by rw [h2.added, h1.added, List.append_assoc]⟩

theorem visit_keeps {c : Nat} {σ : St} {base : Nat} {n : Str} {st st' : MI} {p : Meth}
    (h : visit c (σ c).nonpublic base n st p = .ok st') (hn : n ∈ keys st.found) (k : Str) :
    Keeps st st' k (if k = n ∧ taken σ c p ∧ (Dict.get st.own n).isSome = false then [(base, p)] else []) := by
  unfold visit at h
  split at h
  · rename_i hv
    cases h
    rw [if_neg (by rintro ⟨-, ht, -⟩; exact hv (of_decide_eq_true ht).1)]
    exact .refl _ _
  · rename_i hv
    have hv := Decidable.not_not.1 hv
    cases ha : anyMatches p (σ c).nonpublic with
    | error e => rw [ha] at h; cases h
    | ok b =>
      rw [ha] at h
      have hb := anyMatches_ok ha
      cases b with
      | true =>
        cases h
        rw [if_neg]
        · exact .refl _ _
        · rintro ⟨-, ht, -⟩
          obtain ⟨l, hl, he⟩ := List.any_eq_true.1 hb.symm
          exact (of_decide_eq_true ht).2 l hl (by simpa using he)
      | false =>
        have ht : taken σ c p = true := by
          apply decide_eq_true
          refine ⟨hv, fun l hl he => ?_⟩
          have := (List.any_eq_false.1 hb.symm) l hl
          simp [he] at this
        simp only at h
        cases ho : Dict.get st.own n with
        | none =>
          rw [ho] at h
          cases h
          refine ⟨fun _ => rfl, fun hd => by rw [keys_push]; exact hd, fun k hk => by rw [keys_push]; exact hk, ?_⟩
          have e0 : (Option.isSome (none : Option (List Meth)) = false) = True := by simp
          simp only [ht, e0, and_true]
          exact get_push n (base, p) st.found k hn
        | some ws =>
          rw [ho] at h
          simp only at h
          rw [if_neg (by rintro ⟨-, -, hh⟩; cases hh)]
          split at h
          · cases h
          · cases h; exact .refl _ _
          · cases h
            exact ⟨fun k => get_addToOverloads _ _ _ _ (by rw [ho]; rfl), id, fun _ => id, by simp⟩

theorem visitAll_keeps {c : Nat} {σ : St} {base : Nat} {n : Str} {st st' : MI} {ps : List Meth}
    (h : foldPy (visit c (σ c).nonpublic base n) st ps = .ok st') (hn : n ∈ keys st.found) (k : Str) :
    Keeps st st' k (if k = n ∧ (Dict.get st.own n).isSome = false then (ps.filter (taken σ c)).map (base, ·) else []) := by
  have key := foldPy_inv (f := visit c (σ c).nonpublic base n)
    (fun pre s => Keeps st s k (if k = n ∧ (Dict.get st.own n).isSome = false
      then (pre.filter (taken σ c)).map (base, ·) else []))
    (by
      intro pre a s s' hP hf
      have hv := visit_keeps hf (hP.mono n hn) k
      have := hP.trans hv
      rw [hP.own n] at this
      convert this using 1
      by_cases hk : k = n
      · by_cases ho : (Dict.get st.own n).isSome = false
        · by_cases ht : taken σ c a = true
          · simp [hk, ho, ht]
          · simp [hk, ho, ht]
        · simp [ho]
      · simp [hk])
    ps [] st st' (by simpa using Keeps.refl st k) h
  simpa using key

theorem visitOverload_keeps {c : Nat} {σ : St} {base : Nat} {st st' : MI} {o : Str × List Meth}
    (h : visitOverload c (σ c).nonpublic base st o = .ok st') (k : Str) :
    Keeps st st' k (if k = o.1 ∧ isSpecial k = false ∧ (Dict.get st.own k).isSome = false
      then (o.2.filter (taken σ c)).map (base, ·) else []) := by
  unfold visitOverload at h
  split at h
  · rename_i hs
    cases h
    rw [if_neg (by rintro ⟨rfl, h', -⟩; rw [hs] at h'; cases h')]
    exact .refl _ _
  · rename_i hs
    have hk := keys_touch st.found o.1
    have h1 : Keeps st { st with found := touch st.found o.1 } k [] :=
      ⟨fun _ => rfl, hk.2.1, hk.2.2, by simpa using get_touch st.found o.1 k⟩
    have h2 := h1.trans (visitAll_keeps h hk.1 k)
    convert h2 using 1
    by_cases hko : k = o.1
    · subst hko
      simp [hs]
    · simp [hko]

theorem visitBase_keeps {c : Nat} {σ : St} {base : Nat} {st st' : MI}
    (h : visitBase c σ st base = .ok st') (k : Str) :
    Keeps st st' k (if isSpecial k = false ∧ (Dict.get st.own k).isSome = false
      then (offered σ c base k).map (base, ·) else []) := by
  unfold visitBase at h
  have key := foldPy_inv (f := visitOverload c (σ c).nonpublic base)
    (fun pre s => Keeps st s k (if isSpecial k = false ∧ (Dict.get st.own k).isSome = false
      then ((((pre.filter (fun o => o.1 = k)).flatMap (·.2)).filter (taken σ c))).map (base, ·) else []))
    (by
      intro pre a s s' hP hf
      have := hP.trans (visitOverload_keeps hf k)
      rw [hP.own k] at this
      convert this using 1
      by_cases hc : isSpecial k = false ∧ (Dict.get st.own k).isSome = false
      · by_cases hk : k = a.1
        · subst hk; simp [hc, List.filter_append]
        · simp [hc, hk, List.filter_append, Ne.symm hk]
      · rw [if_neg hc, if_neg hc, if_neg (fun h => hc h.2)]; rfl)
    (σ base).methods [] st st' (by simpa using Keeps.refl st k) h
  have e : offered σ c base k =
      (((σ base).methods.filter (fun o => o.1 = k)).flatMap (·.2)).filter (taken σ c) := rfl
  rw [e]
  simpa using key

theorem collect_keeps {h : Hier} {c : Nat} {σ : St} {st : MI} (he : collect h σ c = .ok st) (k : Str) :
    Keeps { own := (σ c).methods } st k (if isSpecial k = false ∧ (Dict.get (σ c).methods k).isSome = false
      then (h.mro c).tail.flatMap (fun d => (offered σ c d k).map (d, ·)) else []) := by
  unfold collect at he
  have key := foldPy_inv (f := visitBase c σ)
    (fun pre s => Keeps { own := (σ c).methods } s k (if isSpecial k = false ∧ (Dict.get (σ c).methods k).isSome = false
      then pre.flatMap (fun d => (offered σ c d k).map (d, ·)) else []))
    (by
      intro pre a s s' hP hf
      have := hP.trans (visitBase_keeps hf k)
      rw [hP.own k] at this
      convert this using 1
      by_cases hc : isSpecial k = false ∧ (Dict.get (σ c).methods k).isSome = false
      · simp only [if_pos hc, List.flatMap_append, List.flatMap_cons, List.flatMap_nil, List.append_nil]
      · rw [if_neg hc, if_neg hc, if_neg hc]; rfl)
    (h.mro c).tail [] _ st (by simpa using Keeps.refl { own := (σ c).methods } k) he
  simpa using key

theorem classesOf_le_one : ∀ (ws : List (Nat × Meth)),
    (classesOf ws).length ≤ 1 ↔ ∀ a ∈ ws, ∀ b ∈ ws, a.1 = b.1 := by
  have grow : ∀ (ws : List (Nat × Meth)) (cs : List Nat), ∃ l, ws.foldl
      (fun cs w => if w.1 ∈ cs then cs else cs ++ [w.1]) cs = cs ++ l ∧
      (l = [] ↔ ∀ w ∈ ws, w.1 ∈ cs) := by
    intro ws
    induction ws with
    | nil => intro cs; exact ⟨[], by simp, by simp⟩
    | cons w ws ih =>
      intro cs
      rw [List.foldl_cons]
      by_cases hw : w.1 ∈ cs
      · rw [if_pos hw]
        obtain ⟨l, h1, h2⟩ := ih cs
        refine ⟨l, h1, ?_⟩
        rw [h2]
        simp [hw]
      · rw [if_neg hw]
        obtain ⟨l, h1, h2⟩ := ih (cs ++ [w.1])
        refine ⟨[w.1] ++ l, by rw [h1, List.append_assoc], ?_⟩
        simp [hw]
  intro ws
  cases ws with
  | nil => simp [classesOf]
  | cons w ws =>
    unfold classesOf
    rw [List.foldl_cons]
    simp only [List.not_mem_nil, if_false, List.nil_append]
    obtain ⟨l, h1, h2⟩ := grow ws [w.1]
    rw [h1]
    constructor
    · intro hl
      have hl : l = [] := by
        cases l with
        | nil => rfl
        | cons x xs => simp at hl
      have := h2.1 hl
      intro a ha b hb
      have hall : ∀ x ∈ w :: ws, x.1 = w.1 := by
        intro x hx
        rcases List.mem_cons.1 hx with rfl | hx
        · rfl
        · simpa using this x hx
      rw [hall a ha, hall b hb]
    · intro hall
      have : l = [] := h2.2 (fun x hx => by
        simpa using hall x (by simp [hx]) w (by simp))
      rw [this]; simp

/-- **C69, exact contents.**  If the collection succeeds, a class hands on exactly the names that are
not special, that it does not define itself, and that a single one of its ancestors offers; the entry
is made of that ancestor's methods (as often as the ancestor is met). -/
theorem C69_exact (h : Hier) (σ : St) (c : Nat) (st : MI) (he : collect h σ c = .ok st)
    (gen : Str → Bool) (n : Str) (ws : List (Nat × Meth)) :
    (n, ws) ∈ reexports gen st ↔
      isSpecial n = false ∧ Dict.get (σ c).methods n = none ∧ gen n = true ∧
      ws = (h.mro c).tail.flatMap (fun d => (offered σ c d n).map (d, ·)) ∧
      ∃ k ∈ (h.mro c).tail, offered σ c k n ≠ [] ∧
        ∀ d ∈ (h.mro c).tail, d ≠ k → offered σ c d n = [] := by
  have hK := collect_keeps he n
  have hnd : (keys st.found).Nodup := hK.nodup (by simp [keys])
  have hget : ∀ x, (n, x) ∈ st.found → (Dict.get st.found n).getD [] = x := by
    intro x hx
    generalize st.found = f at hnd hx
    clear hK
    induction f with
    | nil => cases hx
    | cons q r ih =>
      obtain ⟨a, b⟩ := q
      simp only [keys, List.map_cons, List.nodup_cons] at hnd
      unfold Dict.get
      by_cases ha : a = n
      · rw [if_pos ha]
        rcases List.mem_cons.1 hx with hq | hr
        · cases hq; rfl
        · exact absurd (List.mem_map.2 ⟨(n, x), hr, rfl⟩) (by rw [← ha]; exact hnd.1)
      · rw [if_neg ha]
        rcases List.mem_cons.1 hx with hq | hr
        · cases hq; exact absurd rfl ha
        · exact ih hnd.2 hr
  have hadd := hK.added
  rw [show Dict.get ({ own := (σ c).methods } : MI).found n = none from rfl] at hadd
  simp only [Option.getD_none, List.nil_append] at hadd
  have single : ∀ (l : List Nat),
      (l.flatMap (fun d => (offered σ c d n).map (d, ·)) ≠ [] ∧
        ∀ a ∈ l.flatMap (fun d => (offered σ c d n).map (d, ·)),
        ∀ b ∈ l.flatMap (fun d => (offered σ c d n).map (d, ·)), a.1 = b.1) ↔
      ∃ k ∈ l, offered σ c k n ≠ [] ∧ ∀ d ∈ l, d ≠ k → offered σ c d n = [] := by
    intro l
    constructor
    · rintro ⟨h1, h2⟩
      obtain ⟨x, hx⟩ := List.exists_mem_of_ne_nil _ h1
      have hx0 := hx
      obtain ⟨k, hk, hx⟩ := List.mem_flatMap.1 hx
      obtain ⟨p, hp, rfl⟩ := List.mem_map.1 hx
      refine ⟨k, hk, List.ne_nil_of_mem hp, fun d hd hne => ?_⟩
      by_contra hcon
      obtain ⟨q, hq⟩ := List.exists_mem_of_ne_nil _ hcon
      exact hne (h2 (d, q) (List.mem_flatMap.2 ⟨d, hd, List.mem_map.2 ⟨q, hq, rfl⟩⟩) _ hx0)
    · rintro ⟨k, hk, hne, hu⟩
      obtain ⟨q, hq⟩ := List.exists_mem_of_ne_nil _ hne
      refine ⟨List.ne_nil_of_mem (List.mem_flatMap.2 ⟨k, hk, List.mem_map.2 ⟨q, hq, rfl⟩⟩), ?_⟩
      have hall : ∀ a ∈ l.flatMap (fun d => (offered σ c d n).map (d, ·)), a.1 = k := by
        intro a ha
        obtain ⟨d, hd, ha⟩ := List.mem_flatMap.1 ha
        obtain ⟨p, hp, rfl⟩ := List.mem_map.1 ha
        by_contra hcon
        rw [hu d hd hcon] at hp
        cases hp
      intro a ha b hb
      rw [hall a ha, hall b hb]
  unfold reexports
  rw [List.mem_filter]
  constructor
  · rintro ⟨hm, hf⟩
    have hx := hget _ hm
    rw [hadd] at hx
    simp only at hf
    split at hf
    · cases hf
    · rename_i hne
      split at hf
      · cases hf
      · rename_i hc
        by_cases hcond : isSpecial n = false ∧ (Dict.get (σ c).methods n).isSome = false
        · rw [if_pos hcond] at hx
          refine ⟨hcond.1, by simpa using hcond.2, hf, hx.symm, (single _).1 ⟨by rw [hx]; exact hne, ?_⟩⟩
          rw [hx]
          exact (classesOf_le_one ws).1 (by simpa using hc)
        · rw [if_neg hcond] at hx
          exact absurd hx.symm hne
  · rintro ⟨h1, h2, h3, h4, h5⟩
    rw [if_pos ⟨h1, by rw [h2]; rfl⟩, ← h4] at hadd
    obtain ⟨hne, hall⟩ := (single _).2 h5
    rw [← h4] at hne hall
    refine ⟨?_, ?_⟩
    · cases hg : Dict.get st.found n with
      | none => rw [hg] at hadd; exact absurd hadd.symm hne
      | some v => rw [hg] at hadd; simp only [Option.getD_some] at hadd; rw [← hadd]; exact Dict.get_mem hg
    · simp only
      rw [if_neg hne, if_neg (by simpa using (classesOf_le_one ws).2 hall), h3]

/-! ## What Python finds, and whether the pointer fits -/

/-- The name is in the method table of the class: its own method, generated (cppclass.py:2398-2408),
or handed on from the bases (2411-2412).  `ownGen`, `miGen` tell which overload sets could be
generated. -/
def InTable (h : Hier) (σ : St) (ownGen miGen : Nat → Str → Bool) (c : Nat) (n : Str) : Prop :=
  (isSpecial n = false ∧ (Dict.get (σ c).methods n).isSome ∧ ownGen c n = true) ∨
  (2 ≤ (h.bases c).length ∧ ∃ st ws, collect h σ c = .ok st ∧ (n, ws) ∈ reexports (miGen c) st)

/-- `Finds c n k`: looking up attribute `n` of an instance of class `c` may give the method of the
table of class `k`.  Python searches the class, then its bases; with several bases any ancestor whose
table has the name is allowed here (Python picks one of them).
All classes are generated from one state `σ`: additions to the overload sets of `self.methods` made
while other classes are generated (cppclass.py:2373, `MI.own`) add no names. -/
inductive Finds (h : Hier) (σ : St) (ownGen miGen : Nat → Str → Bool) (n : Str) : Nat → Nat → Prop where
  | here {c} : InTable h σ ownGen miGen c n → Finds h σ ownGen miGen n c c
  | base {c b k} : ¬ InTable h σ ownGen miGen c n → h.bases c = [b] → Finds h σ ownGen miGen n b k →
      Finds h σ ownGen miGen n c k
  | bases {c k} : ¬ InTable h σ ownGen miGen c n → 2 ≤ (h.bases c).length → k ∈ (h.mro c).tail →
      InTable h σ ownGen miGen k n → Finds h σ ownGen miGen n c k

/-- The subobject of class `k` is at the start of an object of class `c` (the first base comes first
in the object): a pointer to the object is a pointer to it. -/
inductive AtStart (h : Hier) : Nat → Nat → Prop where
  | refl (c) : AtStart h c c
  | first {c b k} : (h.bases c).head? = some b → AtStart h b k → AtStart h c k

/-- Everything could be generated, and in classes with several bases every name that the class does
not define itself is defined by a single ancestor and not redeclared as non-public. -/
structure Clear (h : Hier) (σ : St) (ownGen miGen : Nat → Str → Bool) : Prop where
  collected : ∀ c, 2 ≤ (h.bases c).length → ∃ st, collect h σ c = .ok st
  own : ∀ c n, ownGen c n = true
  mi : ∀ c n, miGen c n = true
  one : ∀ c n, 2 ≤ (h.bases c).length → Dict.get (σ c).methods n = none →
    ∀ d ∈ (h.mro c).tail, ∀ e ∈ (h.mro c).tail, (Dict.get (σ d).methods n).isSome →
      (Dict.get (σ e).methods n).isSome → d = e
  visible : ∀ c n, 2 ≤ (h.bases c).length → ∀ d ∈ (h.mro c).tail, (Dict.get (σ d).methods n).isSome →
    offered σ c d n ≠ []

theorem mro_cons (h : Hier) (c : Nat) : ∃ l, h.mro c = c :: l := by
  unfold Hier.mro; rw [Hier.mroLoop]; exact ⟨_, rfl⟩

theorem tail_ancestor {h : Hier} {c d : Nat} (hd : d ∈ (h.mro c).tail) : Ancestor h d c :=
  (C33_mro_mem h c d).1 (List.mem_of_mem_tail hd)

theorem ancestor_le {h : Hier} {c d : Nat} (hd : Ancestor h d c) : d ≤ c := by
  obtain ⟨n, hp⟩ := hd
  induction hp with
  | refl => exact Nat.le_refl _
  | step _ hb ih => exact Nat.le_trans (Nat.le_of_lt (h.acyclic _ _ hb)) ih

theorem path_trans {h : Hier} {a b c : Nat} {n m : Nat} (h1 : Path h n a b) (h2 : Path h m b c) :
    Path h (n + m) a c := by
  induction h2 with
  | refl => exact h1
  | step _ hb ih => exact .step (ih h1) hb

theorem offered_some {σ : St} {c d : Nat} {n : Str} (ho : offered σ c d n ≠ []) :
    (Dict.get (σ d).methods n).isSome = true := by
  by_contra hcon
  apply ho
  have : (σ d).methods.filter (fun o => o.1 = n) = [] := by
    generalize (σ d).methods = l at hcon
    induction l with
    | nil => rfl
    | cons q r ih =>
      obtain ⟨a, b⟩ := q
      unfold Dict.get at hcon
      by_cases ha : a = n
      · rw [if_pos ha] at hcon; simp at hcon
      · rw [if_neg ha] at hcon
        rw [List.filter_cons]
        simp only [ha, decide_false, Bool.false_eq_true, if_false]
        exact ih hcon
  unfold offered
  rw [this]
  rfl

theorem head_self {h : Hier} {c d : Nat} (hd : Ancestor h d c) (hne : d ≠ c) : d ∈ (h.mro c).tail := by
  obtain ⟨l, hl⟩ := mro_cons h c
  have := (C33_mro_mem h c d).2 hd
  rw [hl] at this ⊢
  rcases List.mem_cons.1 this with rfl | hm
  · exact absurd rfl hne
  · exact hm

/-- **C69 (partial: clear hierarchies).**  Whatever method Python finds on an instance is one whose
wrapper takes the instance's pointer for what it is: a method in the table of the class itself or of
an ancestor that lies at the start of the object. -/
theorem C69_right_object_partial (h : Hier) (σ : St) (ownGen miGen : Nat → Str → Bool)
    (hc : Clear h σ ownGen miGen) (n : Str) (c k : Nat) (hf : Finds h σ ownGen miGen n c k) :
    AtStart h c k := by
  induction hf with
  | here _ => exact .refl _
  | base _ hb _ ih => exact .first (by rw [hb]; rfl) ih
  | @bases c k hno hlen hk hin =>
    exfalso
    apply hno
    -- some ancestor of `c` defines the name itself
    obtain ⟨e, hea, hes, hsp⟩ : ∃ e, Ancestor h e c ∧ (Dict.get (σ e).methods n).isSome ∧ isSpecial n = false := by
      rcases hin with ⟨h1, h2, -⟩ | ⟨-, st, ws, h2, h3⟩
      · exact ⟨k, tail_ancestor hk, h2, h1⟩
      · obtain ⟨h1, -, -, -, e, he, ho, -⟩ := (C69_exact h σ k st h2 (miGen k) n ws).1 h3
        refine ⟨e, ?_, offered_some ho, h1⟩
        obtain ⟨i, hi⟩ := tail_ancestor hk
        obtain ⟨j, hj⟩ := tail_ancestor he
        exact ⟨i + j, path_trans hi hj⟩
    cases ho : Dict.get (σ c).methods n with
    | some ws => exact .inl ⟨hsp, by rw [ho]; rfl, hc.own c n⟩
    | none =>
      have hne : e ≠ c := by rintro rfl; rw [ho] at hes; cases hes
      have het := head_self hea hne
      obtain ⟨st, hst⟩ := hc.collected c hlen
      refine .inr ⟨hlen, st, _, hst, (C69_exact h σ c st hst (miGen c) n _).2
        ⟨hsp, ho, hc.mi c n, rfl, e, het, hc.visible c n hlen e het hes, fun d hd hde => ?_⟩⟩
      by_contra hcon
      exact hde (hc.one c n hlen ho d hd e het (offered_some hcon) hes)

/-! ## Counterexamples -/

/-- `X`, `A`, `B(A)`, `C(X, B)` = 0, 1, 2, 3. -/
def side : Hier where
  bases c := match c with
    | 2 => [1]
    | 3 => [0, 2]
    | _ => []
  acyclic c b hb := by
    match c with
    | 0 => simp at hb
    | 1 => simp at hb
    | 2 => simp at hb; omega
    | 3 => simp at hb; omega
    | n + 4 => simp at hb

theorem side_mro : side.mro 3 = [3, 0, 2, 1] := by
  simp [Hier.mro, Hier.mroLoop, Hier.fresh, side]

/-- A method `foo()`. -/
def fooMeth : Meth := { sig := ⟨"foo".toList, [], false⟩, owner := 0, isVirtual := true }

/-- `A::foo` and its overrider `B::foo`, registered. -/
def overridden : St := mrun side (fresh (fun _ => false) (fun _ => false)) [.add 1 fooMeth, .add 2 fooMeth]

theorem not_atStart_side : ¬ AtStart side 3 2 := by
  intro ha
  cases ha with
  | first hb hk =>
    cases hb
    cases hk with
    | first hb _ => cases hb

/-- **C69, an overridden method.**  `C(X, B)` where `B` overrides a method of its base `A`: two
ancestors define it, so `C` hands on neither; Python finds the method of `B` and calls its wrapper
with a pointer to the whole object, which starts with `X`. -/
theorem C69_override_counterexample :
    Finds side overridden (fun _ _ => true) (fun _ _ => true) "foo".toList 3 2 ∧ ¬ AtStart side 3 2 := by
  refine ⟨.bases ?_ (by decide) (by rw [side_mro]; simp) ?_, not_atStart_side⟩
  · rintro (⟨-, h2, -⟩ | ⟨-, st, ws, h2, h3⟩)
    · exact absurd h2 (by decide +kernel)
    · obtain ⟨-, -, -, -, k, hk, -, hu⟩ := (C69_exact _ _ _ _ h2 _ _ _).1 h3
      rw [side_mro] at hu hk
      by_cases h1 : k = 1
      · exact absurd (hu 2 (by simp) (by omega)) (by decide +kernel)
      · exact absurd (hu 1 (by simp) (by omega)) (by decide +kernel)
  · exact .inl ⟨by decide +kernel, by decide +kernel, rfl⟩

/-- `B::foo` only, redeclared as a private method in `C`. -/
def hiddenSt : St := mrun side (fresh (fun _ => false) (fun _ => false))
  [.add 2 fooMeth, .add 3 { fooMeth with vis := .priv }]

/-- **C69, a method made private.**  It is not handed on, but Python still finds it on `B`, and calls
it with the wrong pointer. -/
theorem C69_private_counterexample :
    Finds side hiddenSt (fun _ _ => true) (fun _ _ => true) "foo".toList 3 2 ∧ ¬ AtStart side 3 2 := by
  refine ⟨.bases ?_ (by decide) (by rw [side_mro]; simp) ?_, not_atStart_side⟩
  · rintro (⟨-, h2, -⟩ | ⟨-, st, ws, h2, h3⟩)
    · exact absurd h2 (by decide +kernel)
    · obtain ⟨-, -, -, -, k, hk, hne, -⟩ := (C69_exact _ _ _ _ h2 _ _ _).1 h3
      rw [side_mro] at hk
      simp only [List.tail_cons, List.mem_cons, List.not_mem_nil, or_false] at hk
      rcases hk with rfl | rfl | rfl <;> exact hne (by decide +kernel)
  · exact .inl ⟨by decide +kernel, by decide +kernel, rfl⟩

/-- A function added as method `foo` of `C`, and the method `foo` of `B`. -/
def functionSt : St := mrun side (fresh (fun _ => false) (fun _ => false))
  [.add 2 fooMeth, .addFunction 3 ⟨"foo".toList, ["C &".toList], false⟩]

/-- **C69, functions as methods.**  If a class with several bases has a function added as a method
under the name of a base's method, generating the class raises `AttributeError`. -/
theorem C69_function_counterexample : collect side functionSt 3 = .error .attributeError := by
  have hb : (match collect side functionSt 3 with
    | .error e => decide (e = .attributeError) | .ok _ => false) = true := by decide +kernel
  split at hb
  · rename_i e he; rw [he, of_decide_eq_true hb]
  · cases hb

/-- **C69, special methods** are never handed on, whatever the bases offer. -/
theorem C69_special_never (h : Hier) (σ : St) (c : Nat) (st : MI) (he : collect h σ c = .ok st)
    (gen : Str → Bool) (n : Str) (hs : isSpecial n = true) : ∀ ws, (n, ws) ∉ reexports gen st := by
  intro ws hm
  have := ((C69_exact h σ c st he gen n ws).1 hm).1
  rw [hs] at this
  cases this

/-! ## What is added to the class's own overload sets -/

theorem foldPy_mem {S A : Type} {f : S → A → PyRes S} (P : S → Prop) : ∀ (l : List A) (s s' : S),
    (∀ a ∈ l, ∀ s s', P s → f s a = .ok s' → P s') → P s → foldPy f s l = .ok s' → P s'
  | [], s, s', _, hp, h => by cases h; exact hp
  | a :: as, s, s', hs, hp, h => by
    unfold foldPy at h
    cases hf : f s a with
    | error e => rw [hf] at h; cases h
    | ok s1 =>
      rw [hf] at h
      exact foldPy_mem P as s1 s' (fun b hb => hs b (List.mem_cons_of_mem _ hb))
        (hs a List.mem_cons_self s s1 hp hf) h

theorem get_addToOverloads_eq (d : List (Str × List Meth)) (n k : Str) (m : Meth) :
    Dict.get (addToOverloads d n m) k =
      if k = n then some ((Dict.get d n).getD [] ++ [m]) else Dict.get d k := by
  induction d with
  | nil =>
    unfold addToOverloads Dict.get
    by_cases hk : k = n
    · subst hk; simp
    · rw [if_neg (fun e => hk e.symm), if_neg hk]; rfl
  | cons q r ih =>
    obtain ⟨a, b⟩ := q
    unfold addToOverloads
    by_cases ha : a = n
    · subst ha
      simp only [if_true, Dict.get]
      by_cases hk : a = k
      · subst hk; simp
      · rw [if_neg hk, if_neg (fun e => hk e.symm), if_neg hk]
    · rw [if_neg ha]
      simp only [Dict.get, if_neg ha]
      by_cases hk : a = k
      · subst hk; rw [if_pos rfl, if_neg ha, if_pos rfl]
      · rw [if_neg hk, if_neg hk, ih]

/-- The additions to the overload set of `n`: methods of ancestors that `c` may hand on, made methods of
`c`, none with the signature of another method in the set. -/
def Grown (h : Hier) (σ : St) (c : Nat) (own : List (Str × List Meth)) : Prop :=
  ∀ n ws', Dict.get own n = some ws' → ∃ ws add, Dict.get (σ c).methods n = some ws ∧ ws' = ws ++ add ∧
    (∀ a ∈ add, a.owner = c ∧ isSpecial n = false ∧ (∀ l ∈ ws, l.sig ≠ a.sig) ∧
      ∃ d ∈ (h.mro c).tail, ∃ p ∈ offered σ c d n, a = { p with owner := c }) ∧
    (add.map Meth.sig).Nodup

theorem visit_grown {h : Hier} {σ : St} {c d : Nat} {n : Str} {st st' : MI} {p : Meth}
    (hd : d ∈ (h.mro c).tail) (hn : isSpecial n = false)
    (hp : p ∈ ((σ d).methods.filter (fun o => o.1 = n)).flatMap (·.2))
    (hg : Grown h σ c st.own) (hv : visit c (σ c).nonpublic d n st p = .ok st') : Grown h σ c st'.own := by
  unfold visit at hv
  split at hv
  · cases hv; exact hg
  · rename_i hvis
    have hvis := Decidable.not_not.1 hvis
    cases ha : anyMatches p (σ c).nonpublic with
    | error e => rw [ha] at hv; cases hv
    | ok b =>
      rw [ha] at hv
      cases b with
      | true => cases hv; exact hg
      | false =>
        have hb := anyMatches_ok ha
        dsimp only at hv
        cases ho : Dict.get st.own n with
        | none => rw [ho] at hv; cases hv; exact hg
        | some ws1 =>
          rw [ho] at hv
          dsimp only at hv
          cases hm : anyMatches p ws1 with
          | error e => rw [hm] at hv; cases hv
          | ok b =>
            rw [hm] at hv
            cases b with
            | true => cases hv; exact hg
            | false =>
              cases hv
              have hno := anyMatches_ok hm
              intro k ws' hk
              rw [get_addToOverloads_eq] at hk
              split at hk
              · rename_i e
                subst e
                obtain ⟨ws, add, h1, h2, h3, h4⟩ := hg k ws1 ho
                rw [ho] at hk
                have hk := (Option.some.inj hk).symm
                simp only [Option.getD_some] at hk
                have hne : ∀ l ∈ ws ++ add, l.sig ≠ p.sig := by
                  intro l hl he
                  have := (List.any_eq_false.1 hno.symm) l (h2 ▸ hl)
                  simp [he] at this
                refine ⟨ws, add ++ [{ p with owner := c }], h1, by rw [hk, h2, List.append_assoc], ?_, ?_⟩
                · intro a hain
                  rcases List.mem_append.mp hain with hain | hain
                  · exact h3 a hain
                  · rw [List.mem_singleton.mp hain]
                    refine ⟨rfl, hn, fun l hl => hne l (List.mem_append_left _ hl), d, hd, p, ?_, rfl⟩
                    refine List.mem_filter.mpr ⟨hp, decide_eq_true ⟨hvis, fun l hl he => ?_⟩⟩
                    have := (List.any_eq_false.1 hb.symm) l hl
                    simp [he] at this
                · rw [List.map_append]
                  refine List.nodup_append.mpr ⟨h4, by simp, ?_⟩
                  intro x hx y hy hxy
                  obtain ⟨l, hl, rfl⟩ := List.mem_map.mp hx
                  simp only [List.map_cons, List.map_nil, List.mem_singleton] at hy
                  exact hne l (List.mem_append_right _ hl) (hxy.trans hy)
              · exact hg k ws' hk

/-- **C69, own overload sets.**  Collecting the methods of the bases adds to the overload sets of the
class itself, behind its own methods: each addition is a method that an ancestor offers, made a method
of this class, and no two additions, and no addition and an own method, have the same signature. -/
theorem C69_own_sets (h : Hier) (σ : St) (c : Nat) (st : MI) (he : collect h σ c = .ok st) :
    Grown h σ c st.own := by
  refine foldPy_mem (P := fun s => Grown h σ c s.own) _ _ _ ?_ ?_ he
  · intro d hd s s' hg hf
    refine foldPy_mem (P := fun s => Grown h σ c s.own) _ _ _ ?_ hg hf
    intro o ho s s' hg hf
    unfold visitOverload at hf
    split at hf
    · cases hf; exact hg
    · rename_i hs
      refine foldPy_mem (P := fun s => Grown h σ c s.own) _ { s with found := touch s.found o.1 } _ ?_ hg hf
      intro p hp s s' hg hf
      exact visit_grown hd (by simpa using hs)
        (List.mem_flatMap.mpr ⟨o, List.mem_filter.mpr ⟨ho, by simp⟩, hp⟩) hg hf
  · intro n ws' hw
    exact ⟨ws', [], hw, by simp, by simp, by simp⟩

def lateSt : St := mrun side (fresh (fun _ => false) (fun _ => false))
  [.add 2 { fooMeth with sig := ⟨"foo".toList, ["int".toList], false⟩ }, .add 3 fooMeth]

/-- The additions come after the class's own methods have been written (cppclass.py:2398-2414), so they
are never written: `B::foo(int)` beside `C::foo()` in `C(X, B)` is neither in the table nor among the
wrappers of `C::foo`. -/
theorem C69_late_counterexample :
    ∃ (σ : St) (st : MI), collect side σ 3 = .ok st ∧
      (Dict.get (σ 3).methods "foo".toList).map List.length = some 1 ∧
      (Dict.get st.own "foo".toList).map List.length = some 2 ∧
      reexports (fun _ => true) st = [] := by
  have hb : (match collect side lateSt 3 with
    | .error _ => false
    | .ok st => decide ((Dict.get (lateSt 3).methods "foo".toList).map List.length = some 1 ∧
        (Dict.get st.own "foo".toList).map List.length = some 2 ∧
        (reexports (fun _ => true) st).map (·.1) = [])) = true := by decide +kernel
  split at hb
  · cases hb
  · rename_i st hs
    obtain ⟨h1, h2, h3⟩ := of_decide_eq_true hb
    exact ⟨lateSt, st, hs, h1, h2, List.map_eq_nil_iff.mp h3⟩

/-! Non-vacuity: `X::bar` and `B::foo` in `C(X, B)` are both handed on. -/

def barMeth : Meth := { sig := ⟨"bar".toList, ["int".toList], true⟩, owner := 0 }

def clearSt : St := mrun side (fresh (fun _ => false) (fun _ => false)) [.add 0 barMeth, .add 2 fooMeth]

theorem collect_clearSt : ∃ st, collect side clearSt 3 = .ok st ∧
    (reexports (fun _ => true) st).map (fun e => (e.1, e.2.map (·.1))) =
      [("bar".toList, [0]), ("foo".toList, [2])] := by
  have hb : (match collect side clearSt 3 with
    | .error _ => false
    | .ok st => decide ((reexports (fun _ => true) st).map (fun e => (e.1, e.2.map (·.1))) =
      [("bar".toList, [0]), ("foo".toList, [2])])) = true := by decide +kernel
  split at hb
  · cases hb
  · rename_i st hs; exact ⟨st, hs, of_decide_eq_true hb⟩

example : Clear side clearSt (fun _ _ => true) (fun _ _ => true) := by
  have hlen : ∀ c, 2 ≤ (side.bases c).length → c = 3 := by
    intro c hc
    match c with
    | 0 => simp [side] at hc
    | 1 => simp [side] at hc
    | 2 => simp [side] at hc
    | 3 => rfl
    | n + 4 => simp [side] at hc
  have hm : ∀ d n, (Dict.get (clearSt d).methods n).isSome →
      (d = 0 ∧ n = "bar".toList) ∨ (d = 2 ∧ n = "foo".toList) := by
    intro d n hs
    by_cases h0 : d = 0
    · subst h0
      rw [show (clearSt 0).methods = [("bar".toList, [{ barMeth with owner := 0 }])] by decide +kernel] at hs
      unfold Dict.get at hs
      split at hs
      · rename_i e; exact .inl ⟨rfl, e.symm⟩
      · cases hs
    · by_cases h2 : d = 2
      · subst h2
        rw [show (clearSt 2).methods = [("foo".toList, [{ fooMeth with owner := 2 }])] by decide +kernel] at hs
        unfold Dict.get at hs
        split at hs
        · rename_i e; exact .inr ⟨rfl, e.symm⟩
        · cases hs
      · have : (clearSt d).methods = [] := by
          simp [clearSt, mrun, mstep, addMethodObj, St.put, getHelper, h0, h2, barMeth, fooMeth, fresh]
        rw [this] at hs; cases hs
  refine ⟨fun c hc => ?_, fun _ _ => rfl, fun _ _ => rfl, ?_, ?_⟩
  · rw [hlen c hc]; obtain ⟨st, h, -⟩ := collect_clearSt; exact ⟨st, h⟩
  · intro c n _ _ d _ e _ h1 h2
    rcases hm d n h1 with ⟨a, b⟩ | ⟨a, b⟩ <;> rcases hm e n h2 with ⟨a', b'⟩ | ⟨a', b'⟩
    · rw [a, a']
    · rw [b] at b'; exact absurd b' (by decide)
    · rw [b] at b'; exact absurd b' (by decide)
    · rw [a, a']
  · intro c n hc d _ h1
    rw [hlen c hc]
    rcases hm d n h1 with ⟨rfl, rfl⟩ | ⟨rfl, rfl⟩ <;> decide +kernel

end Verif.CppClass
