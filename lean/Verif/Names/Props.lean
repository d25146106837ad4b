import Mathlib.Tactic.IntervalCases
import Verif.Names.Model
import Verif.Utils.Props

/-!
# C57 (qualified C++ names), C58 (enum constants), C59 (C symbols)
-/
namespace Verif.Names
open Verif

/-! ## Specification -/

/-- An instance of a template, as it is written in C++. -/
def instanceName (name : Str) (targs : List Str) : Str :=
  match targs with
  | [] => name
  | t :: ts => name ++ "< ".toList ++ pyJoin ", ".toList (t :: ts) ++ " >".toList

/-- The scope of a declaration at namespace level: the foreign namespace if there is one, otherwise
the namespaces of the modules. -/
def scopeOf (path : List Str) (foreign : Str) : List Str := if foreign = [] then path else [foreign]

/-- The qualified C++ name of a class, by components: namespaces, enclosing classes, the class. -/
def ClassDecl.qualified : ClassDecl → List Str
  | .top path foreign name targs => scopeOf path foreign ++ [instanceName name targs]
  | .nested outer name targs => outer.qualified ++ [instanceName name targs]

/-- Namespace names: not empty, no colon. -/
def PathOk (path : List Str) : Prop := ∀ p ∈ path, p ≠ [] ∧ ':' ∉ p

def ClassDecl.Ok : ClassDecl → Prop
  | .top path _ _ _ => PathOk path
  | .nested outer _ _ => outer.Ok

/-! ## Joining and splitting -/

theorem pyJoin_snoc (sep : Str) (l : List Str) (x : Str) (h : l ≠ []) :
    pyJoin sep (l ++ [x]) = pyJoin sep l ++ sep ++ x := by
  induction l with
  | nil => exact absurd rfl h
  | cons a l ih =>
    cases l with
    | nil => simp [pyJoin]
    | cons b l =>
      have := ih (by simp)
      simp only [List.cons_append, pyJoin] at this ⊢
      rw [this]
      simp [List.append_assoc]

theorem splitColons_append : ∀ (p : Str), ':' ∉ p → ∀ r, Module.splitColons (p ++ r) =
    match Module.splitColons r with
      | [] => [p]
      | l :: ls => (p ++ l) :: ls := by
  intro p
  induction p with
  | nil =>
    intro _ r
    cases hr : Module.splitColons r with
    | nil =>
      exfalso
      revert hr
      unfold Module.splitColons
      split
      · simp
      · simp
      · split <;> simp
    | cons l ls => simp [hr]
  | cons c cs ih =>
    intro hp r
    simp only [List.mem_cons, not_or] at hp
    have hc : c ≠ ':' := fun h => hp.1 h.symm
    have : Module.splitColons (c :: cs ++ r) = match Module.splitColons (cs ++ r) with
        | [] => [[c]]
        | l :: ls => (c :: l) :: ls := by
      rw [List.cons_append]
      generalize cs ++ r = l
      conv => lhs; unfold Module.splitColons
      split
      · next h => cases h
      · next h => cases h; exact absurd rfl hc
      · next h => cases h; rfl
    rw [this, ih hp.2 r]
    cases Module.splitColons r <;> rfl

theorem splitColons_join (parts : List Str) (hne : parts ≠ []) (hp : ∀ p ∈ parts, ':' ∉ p) :
    Module.splitColons (pyJoin dcolon parts) = parts := by
  induction parts with
  | nil => exact absurd rfl hne
  | cons p ps ih =>
    have h1 := hp p (by simp)
    cases ps with
    | nil =>
      have := splitColons_append p h1 []
      simpa [pyJoin, Module.splitColons] using this
    | cons q qs =>
      have h2 := ih (by simp) (fun x hx => hp x (by simp [hx]))
      simp only [pyJoin, List.append_assoc] at h2 ⊢
      rw [splitColons_append p h1]
      have : Module.splitColons (dcolon ++ pyJoin dcolon (q :: qs)) = [] :: (q :: qs) := by
        show Module.splitColons (':' :: ':' :: pyJoin dcolon (q :: qs)) = _
        rw [Module.splitColons, ih (by simp) (fun x hx => hp x (by simp [hx]))]
      rw [this]
      simp

theorem prefix_ok {path : List Str} (h : PathOk path) : namespacePrefix path = pyJoin dcolon path := by
  unfold namespacePrefix
  rw [if_neg]
  intro hh
  cases path with
  | nil => cases hh
  | cons p ps =>
    have hp : p = dcolon := by simpa using hh
    have := (h p (by simp)).2
    rw [hp] at this
    exact this (by decide)

theorem join_ne {path : List Str} (h : PathOk path) (hne : path ≠ []) :
    pyJoin dcolon path ≠ [] ∧ pyJoin dcolon path ≠ dcolon := by
  cases path with
  | nil => exact absurd rfl hne
  | cons p ps =>
    obtain ⟨h1, h2⟩ := h p (by simp)
    cases p with
    | nil => exact absurd rfl h1
    | cons c cs =>
      have hc : c ≠ ':' := fun e => h2 (by simp [e])
      have : ∃ t, pyJoin dcolon ((c :: cs) :: ps) = c :: t := by
        cases ps with
        | nil => exact ⟨cs, rfl⟩
        | cons q qs => exact ⟨cs ++ dcolon ++ pyJoin dcolon (q :: qs), rfl⟩
      obtain ⟨t, ht⟩ := this
      rw [ht]
      refine ⟨by simp, ?_⟩
      intro h
      have : c = ':' := by
        have := congrArg List.head? h
        simpa [dcolon] using this
      exact hc this

theorem inNamespace_ok {path : List Str} (h : PathOk path) (name : Str) :
    inNamespace (namespacePrefix path) name = pyJoin dcolon (path ++ [name]) := by
  rw [prefix_ok h]
  unfold inNamespace
  by_cases hne : path = []
  · subst hne; rfl
  · obtain ⟨h1, h2⟩ := join_ne h hne
    rw [if_neg h1, if_neg h2, pyJoin_snoc _ _ _ hne]

theorem suffix_instance (name : Str) (targs : List Str) :
    name ++ templateSuffix targs = instanceName name targs := by
  cases targs <;> simp [templateSuffix, instanceName]

theorem qualified_ne (c : ClassDecl) : c.qualified ≠ [] := by
  cases c <;> simp [ClassDecl.qualified]

/-! ## C57 -/

/-- C57: the name generated code uses for a class is its qualified C++ name. -/
theorem C57_class (c : ClassDecl) (h : c.Ok) : c.fullName = pyJoin "::".toList c.qualified := by
  induction c with
  | top path foreign name targs =>
    simp only [ClassDecl.fullName, ClassDecl.qualified, scopeOf]
    by_cases hf : foreign = []
    · rw [if_neg (by simp [hf]), if_pos hf, inNamespace_ok h]
      by_cases hne : path = []
      · subst hne
        simp [pyJoin, suffix_instance]
      · rw [pyJoin_snoc _ _ _ hne, List.append_assoc, suffix_instance, pyJoin_snoc _ _ _ hne]
        rfl
    · rw [if_pos hf, if_neg hf, List.append_assoc, suffix_instance]
      rfl
  | nested outer name targs ih =>
    simp only [ClassDecl.fullName, ClassDecl.qualified]
    rw [ih h, pyJoin_snoc _ _ _ (qualified_ne outer)]
    simp only [pyJoin]
    rw [List.append_assoc, suffix_instance]
    rfl

/-- C57: the same for the function that a wrapper calls. -/
theorem C57_function (path : List Str) (foreign name : Str) (targs : List Str) (h : PathOk path) :
    functionName path foreign name targs =
      pyJoin "::".toList (scopeOf path foreign ++ [instanceName name targs]) := by
  unfold functionName scopeOf
  by_cases hf : foreign = []
  · rw [if_neg (by simp [hf]), if_pos hf, prefix_ok h]
    by_cases hne : path = []
    · subst hne
      simp [pyJoin, suffix_instance]
    · rw [if_pos (join_ne h hne).1, pyJoin_snoc _ _ _ hne, List.append_assoc, suffix_instance]
      rfl
  · rw [if_pos hf, if_neg hf, List.append_assoc, suffix_instance]
    simp [pyJoin, dcolon]

/-- C57: exceptions, and enums that are not given a namespace of their own. -/
theorem C57_exception_enum (e : ExcDecl) (n : EnumDecl) (he : PathOk e.path) (hn : PathOk n.path)
    (ho : ∀ c, e.outer = some c → c.Ok) (ho' : ∀ c, n.outer = some c → c.Ok) :
    e.fullName = pyJoin "::".toList ((match e.outer with
      | none => scopeOf e.path e.foreign
      | some c => c.qualified) ++ [e.name]) ∧
    n.fullName = pyJoin "::".toList ((match n.outer with
      | none => n.path
      | some c => c.qualified) ++ [n.name]) := by
  constructor
  · unfold ExcDecl.fullName
    cases h : e.outer with
    | none =>
      simp only [scopeOf]
      by_cases hf : e.foreign = []
      · rw [if_neg (by simp [hf]), if_pos hf, inNamespace_ok he]; rfl
      · rw [if_pos hf, if_neg hf]; simp [pyJoin, dcolon]
    | some c =>
      simp only
      rw [pyJoin_snoc _ _ _ (qualified_ne c), C57_class c (ho c h)]
      rfl
  · unfold EnumDecl.fullName
    cases h : n.outer with
    | none => simp only; rw [inNamespace_ok hn]; rfl
    | some c =>
      simp only
      rw [pyJoin_snoc _ _ _ (qualified_ne c), C57_class c (ho' c h)]
      rfl

/-- C57: two classes with the same full name have the same qualified name, when no component
contains a colon (no qualified template arguments). -/
theorem C57_distinct (c d : ClassDecl) (hc : c.Ok) (hd : d.Ok)
    (hc' : ∀ x ∈ c.qualified, ':' ∉ x) (hd' : ∀ x ∈ d.qualified, ':' ∉ x)
    (h : c.fullName = d.fullName) : c.qualified = d.qualified := by
  rw [C57_class c hc, C57_class d hd] at h
  have h1 := splitColons_join c.qualified (qualified_ne c) hc'
  have h2 := splitColons_join d.qualified (qualified_ne d) hd'
  rw [← h1, ← h2]
  exact congrArg _ h

example : (ClassDecl.nested (.top ["ns".toList, "sub".toList] [] "Map".toList ["int".toList, "A::B".toList])
    "Iter".toList []).fullName = "ns::sub::Map< int, A::B >::Iter".toList ∧
    PathOk ["ns".toList, "sub".toList] := by
  refine ⟨by decide, ?_⟩
  intro p hp
  simp only [List.mem_cons, List.not_mem_nil, or_false] at hp
  rcases hp with rfl | rfl <;> decide

/-! ## C58 -/

/-- The C++ scope the enumerators of an enum live in. -/
def EnumDecl.scope (e : EnumDecl) : List Str :=
  match e.outer with
  | none => e.path ++ (if e.cppNamespace = [] then [] else [e.cppNamespace])
  | some c => c.qualified

def EnumVal.name : EnumVal → Str
  | .plain n => n
  | .expr n _ => n

/-- The C++ expression for an enumerator: the one given, or its qualified name. -/
def EnumDecl.expected (e : EnumDecl) (v : EnumVal) : Str :=
  match v with
  | .expr _ x => x
  | .plain n => pyJoin "::".toList (e.scope ++ [e.valuesPrefix ++ n])

def ConstStmt.name : ConstStmt → Str
  | .onModule n _ => n
  | .onClass _ n _ => n

def ConstStmt.expr : ConstStmt → Str
  | .onModule _ x => x
  | .onClass _ _ x => x

/-- The namespace a constant is put in: the module, or the type object of a class. -/
def ConstStmt.place : ConstStmt → Option ClassDecl
  | .onModule .. => none
  | .onClass c .. => some c

/-- C58 (partial: an enum inside a class has no value prefix): one constant per enumerator, in
order, of the enumerator's name and with its C++ value, on the module or on the enclosing class. -/
theorem C58_constants_partial (e : EnumDecl) (hi : e.imported = false) (hp : PathOk e.path)
    (ho : ∀ c, e.outer = some c → c.Ok ∧ e.valuesPrefix = []) :
    e.generate.map ConstStmt.name = e.values.map EnumVal.name ∧
    e.generate.map ConstStmt.expr = e.values.map e.expected ∧
    ∀ s ∈ e.generate, s.place = e.outer := by
  have hns : ∀ x, pyJoin dcolon (((if namespacePrefix e.path = [] then [] else [namespacePrefix e.path]) ++
      (if e.cppNamespace = [] then [] else [e.cppNamespace])) ++ [x]) =
      pyJoin "::".toList (e.path ++ (if e.cppNamespace = [] then [] else [e.cppNamespace]) ++ [x]) := by
    intro x
    rw [prefix_ok hp]
    by_cases hne : e.path = []
    · simp [hne, pyJoin, dcolon]
    · rw [if_neg (join_ne hp hne).1]
      by_cases hc : e.cppNamespace = []
      · simp only [hc, if_true, List.append_nil]
        rw [pyJoin_snoc _ _ _ hne]; rfl
      · simp only [hc, if_false]
        rw [pyJoin_snoc _ (e.path ++ [e.cppNamespace]) _ (by simp), pyJoin_snoc _ _ _ hne]
        simp [pyJoin, dcolon]
  unfold EnumDecl.generate
  rw [hi]
  cases h : e.outer with
  | none =>
    simp only [Bool.false_eq_true, if_false]
    refine ⟨?_, ?_, ?_⟩
    · rw [List.map_map]
      apply List.map_congr_left
      intro v _
      cases v <;> rfl
    · rw [List.map_map]
      apply List.map_congr_left
      intro v _
      cases v with
      | expr n x => rfl
      | plain n =>
        simp only [Function.comp, ConstStmt.expr, EnumDecl.expected, EnumDecl.scope, h]
        exact hns _
    · intro s hs
      obtain ⟨v, -, rfl⟩ := List.mem_map.mp hs
      cases v <;> rfl
  | some c =>
    obtain ⟨hc, hpre⟩ := ho c h
    simp only [Bool.false_eq_true, if_false]
    refine ⟨?_, ?_, ?_⟩
    · rw [List.map_map]
      apply List.map_congr_left
      intro v _
      cases v <;> rfl
    · rw [List.map_map]
      apply List.map_congr_left
      intro v _
      cases v with
      | expr n x => rfl
      | plain n =>
        simp only [Function.comp, ConstStmt.expr, EnumDecl.expected, EnumDecl.scope, h, hpre, List.nil_append]
        rw [pyJoin_snoc _ _ _ (qualified_ne c), C57_class c hc]
        rfl
    · intro s hs
      obtain ⟨v, -, rfl⟩ := List.mem_map.mp hs
      cases v <;> rfl

/-- C58: an enum imported from another module defines nothing here. -/
theorem C58_imported (e : EnumDecl) (h : e.imported = true) : e.generate = [] := by
  simp [EnumDecl.generate, h]

/-- C58 fails for an enum inside a class with a value prefix: the prefix is dropped, the generated
code names an enumerator that does not exist. -/
theorem C58_prefix_counterexample :
    let e : EnumDecl :=
      { name := "Color".toList, values := [.plain "RED".toList], valuesPrefix := "COLOR_".toList
        outer := some (.top [] [] "Pen".toList []), path := [] }
    e.generate.map ConstStmt.expr = ["Pen::RED".toList] ∧
      e.values.map e.expected = ["Pen::COLOR_RED".toList] := by decide

/-- C57 fails for an enum with a namespace of its own: its values are qualified with that namespace,
its type is not. -/
theorem C57_enum_namespace_counterexample :
    let e : EnumDecl :=
      { name := "Color".toList, values := [.plain "RED".toList], cppNamespace := "gfx".toList
        path := ["ns".toList] }
    e.generate.map ConstStmt.expr = ["ns::gfx::RED".toList] ∧ e.fullName = "ns::Color".toList := by decide

example : (
          { name := "Color".toList, values := [.plain "RED".toList, .expr "BLUE".toList "42".toList]
            valuesPrefix := "C_".toList, path := ["ns".toList] } : EnumDecl).generate =
    [.onModule "RED".toList "ns::C_RED".toList, .onModule "BLUE".toList "42".toList] := by decide

/-! ## C59 -/

theorem makeUpper_ident {s : Str} (h : ∀ c ∈ s, Utils.identChar c = true) :
    ∀ c ∈ makeUpper s, Utils.identChar c = true := by
  cases s with
  | nil => exact h
  | cons c s =>
    simp only [makeUpper]
    split
    · rename_i hl
      intro x hx
      rcases List.mem_cons.mp hx with rfl | hx
      · simp only [Char.isLower, Bool.and_eq_true, decide_eq_true_eq] at hl
        have h1 : c.val.toNat ≥ 97 := hl.1
        have h2 : c.val.toNat ≤ 122 := hl.2
        have hmem : c ∈ "abcdefghijklmnopqrstuvwxyz".toList := by
          have hv : c = Char.ofNat c.val.toNat := by
            exact (Char.ofNat_toNat c).symm
          have : ∀ n, 97 ≤ n → n ≤ 122 → Char.ofNat n ∈ "abcdefghijklmnopqrstuvwxyz".toList := by
            intro n a b
            interval_cases n <;> decide
          rw [hv]
          exact this _ h1 h2
        have : ∀ d ∈ "abcdefghijklmnopqrstuvwxyz".toList, Utils.identChar d.toUpper = true := by decide
        exact this c hmem
      · exact h x (List.mem_cons_of_mem _ hx)
    · exact h

theorem splitColons_chars : ∀ (s : Str), ∀ p ∈ Module.splitColons s, ∀ c ∈ p, c ∈ s
  | [], p, hp, c, hc => by
    simp [Module.splitColons] at hp; subst hp; cases hc
  | [x], p, hp, c, hc => by
    unfold Module.splitColons at hp
    simp [Module.splitColons] at hp
    subst hp; exact hc
  | x :: y :: r, p, hp, c, hc => by
    unfold Module.splitColons at hp
    split at hp
    · rename_i h; cases h
    · rename_i r' h
      cases h
      rcases List.mem_cons.mp hp with rfl | hp
      · cases hc
      · exact List.mem_cons_of_mem _ (List.mem_cons_of_mem _ (splitColons_chars _ p hp c hc))
    · rename_i x' r' _ h
      cases h
      cases hs : Module.splitColons (y :: r) with
      | nil =>
        rw [hs] at hp
        simp at hp; subst hp
        rcases List.mem_cons.mp hc with rfl | hc
        · simp
        · cases hc
      | cons l ls =>
        rw [hs] at hp
        rcases List.mem_cons.mp hp with rfl | hp
        · rcases List.mem_cons.mp hc with rfl | hc
          · simp
          · exact List.mem_cons_of_mem _ (splitColons_chars (y :: r) l (by rw [hs]; simp) c hc)
        · exact List.mem_cons_of_mem _ (splitColons_chars (y :: r) p (by rw [hs]; exact List.mem_cons_of_mem _ hp) c hc)

theorem flatten_ident {s : Str} (h : ∀ c ∈ s, Utils.identChar c = true ∨ Utils.knownPunct c = true) :
    ∀ c ∈ flatten s, Utils.identChar c = true := by
  intro c hc
  unfold flatten at hc
  obtain ⟨t, ht, hc⟩ := List.mem_flatten.mp hc
  obtain ⟨p, hp, rfl⟩ := List.mem_map.mp ht
  refine makeUpper_ident ?_ c hc
  exact (Utils.C26_identifier p).1 (fun x hx => h x (splitColons_chars s p hp x hx))

theorem pyJoin_chars (sep : Str) : ∀ (l : List Str) (P : Char → Prop), (∀ c ∈ sep, P c) →
    (∀ s ∈ l, ∀ c ∈ s, P c) → ∀ c ∈ pyJoin sep l, P c
  | [], _, _, _ => by simp [pyJoin]
  | [s], P, _, h => by simpa [pyJoin] using h s (by simp)
  | s :: t :: l, P, hs, h => by
    intro c hc
    simp only [pyJoin, List.mem_append] at hc
    rcases hc with (hc | hc) | hc
    · exact h s (by simp) c hc
    · exact hs c hc
    · exact pyJoin_chars sep (t :: l) P hs (fun x hx => h x (List.mem_cons_of_mem _ hx)) c hc

/-- C59: the C symbols made for a class are identifiers, for every class whose C++ name is made of
identifier characters and the punctuation mangling knows (all of it that occurs in class names and
template arguments, but not `[`, `]`, `-`, …). -/
theorem C59_identifier (pre : Str) (hpre : ∀ c ∈ pre, Utils.identChar c = true) (c : ClassDecl)
    (hn : ∀ x ∈ c.bareFullName, Utils.identChar x = true ∨ Utils.knownPunct x = true)
    (ht : ∀ t ∈ c.targs, ∀ x ∈ t, Utils.identChar x = true ∨ Utils.knownPunct x = true) :
    (∀ x ∈ c.pystruct pre, Utils.identChar x = true) ∧ (∀ x ∈ c.pytypestruct pre, Utils.identChar x = true) ∧
      (∀ x ∈ c.metaclassName, Utils.identChar x = true) := by
  have hm : ∀ x ∈ c.mangledFullName, Utils.identChar x = true := by
    intro x hx
    unfold ClassDecl.mangledFullName at hx
    rcases List.mem_append.mp hx with hx | hx
    · exact flatten_ident hn x hx
    · unfold mangledTemplate at hx
      split at hx
      · cases hx
      · rcases List.mem_append.mp hx with hx | hx
        · exact (by decide : ∀ x ∈ "__".toList, Utils.identChar x = true) x hx
        · refine pyJoin_chars _ _ (fun c => Utils.identChar c = true) (by decide) ?_ x hx
          intro s hs y hy
          obtain ⟨t, ht', rfl⟩ := List.mem_map.mp hs
          exact flatten_ident (ht t ht') y hy
  have hpy : ∀ x ∈ "Py".toList, Utils.identChar x = true := by decide
  refine ⟨?_, ?_, ?_⟩
  · intro x hx
    simp only [ClassDecl.pystruct, List.mem_append] at hx
    rcases hx with (hx | hx) | hx
    · exact hpy x hx
    · exact hpre x hx
    · exact hm x hx
  · intro x hx
    simp only [ClassDecl.pytypestruct, List.mem_append] at hx
    rcases hx with ((hx | hx) | hx) | hx
    · exact hpy x hx
    · exact hpre x hx
    · exact hm x hx
    · exact (by decide : ∀ x ∈ "_Type".toList, Utils.identChar x = true) x hx
  · intro x hx
    simp only [ClassDecl.metaclassName, List.mem_append] at hx
    rcases hx with hx | hx
    · exact hm x hx
    · exact (by decide : ∀ x ∈ "Meta".toList, Utils.identChar x = true) x hx

theorem no_colon_of_ident {a : Str} (h : ∀ c ∈ a, Utils.identChar c = true) : ':' ∉ a := by
  intro hc
  exact absurd (h _ hc) (by decide)

/-- C59 (partial: classes that are no templates, with plain names, in the same namespace): two of
them share a symbol only if their names are the same or differ in the case of the first letter. -/
theorem C59_distinct_partial (pre : Str) (path : List Str) (a b : Str) (hp : PathOk path)
    (ha : ∀ c ∈ a, Utils.identChar c = true) (hb : ∀ c ∈ b, Utils.identChar c = true)
    (h : (ClassDecl.top path [] a []).pystruct pre = (ClassDecl.top path [] b []).pystruct pre ∨
      (ClassDecl.top path [] a []).pytypestruct pre = (ClassDecl.top path [] b []).pytypestruct pre) :
    a.tail = b.tail ∧ (a.head? = b.head? ∨ a.head?.map Char.toUpper = b.head?.map Char.toUpper) := by
  have hm : (ClassDecl.top path [] a []).mangledFullName = (ClassDecl.top path [] b []).mangledFullName := by
    rcases h with h | h
    · exact List.append_cancel_left h
    · exact List.append_cancel_left (List.append_cancel_right h)
  have key : ∀ x : Str, (∀ c ∈ x, Utils.identChar c = true) → (ClassDecl.top path [] x []).mangledFullName =
      (path.map (fun s => makeUpper (Utils.mangleName s))).flatten ++ makeUpper x := by
    intro x hx
    simp only [ClassDecl.mangledFullName, ClassDecl.bareFullName, ClassDecl.targs, mangledTemplate, if_true,
      List.append_nil, ne_eq, not_true_eq_false, if_false]
    rw [inNamespace_ok hp]
    unfold flatten
    rw [splitColons_join _ (by simp) ?_]
    · rw [List.map_append, List.flatten_append]
      simp [(Utils.C26_identifier x).2.1 hx]
    · intro p hp'
      rcases List.mem_append.mp hp' with hp' | hp'
      · exact (hp p hp').2
      · rw [List.mem_singleton.mp hp']; exact no_colon_of_ident hx
  rw [key a ha, key b hb] at hm
  have hm := List.append_cancel_left hm
  cases a with
  | nil =>
    cases b with
    | nil => simp
    | cons d b => simp only [makeUpper] at hm; split at hm <;> cases hm
  | cons c a =>
    cases b with
    | nil => simp only [makeUpper] at hm; split at hm <;> cases hm
    | cons d b =>
      have up : ∀ x : Char, x.isLower = false → (x.toUpper = x) := by
        intro x hx
        unfold Char.toUpper
        simp only [Char.isLower] at hx
        simp only [dite_eq_right_iff]
        intro hh
        exfalso
        have : ¬ (x.val ≥ 97 ∧ x.val ≤ 122) := by simpa using hx
        exact this hh
      simp only [makeUpper] at hm
      simp only [List.tail_cons, List.head?_cons, Option.map_some, Option.some.injEq]
      split at hm <;> split at hm <;> simp only [List.cons.injEq] at hm
      · exact ⟨hm.2, .inr hm.1⟩
      · rename_i h2
        exact ⟨hm.2, .inr (by rw [hm.1, up d (by simpa using h2)])⟩
      · rename_i h1 _
        exact ⟨hm.2, .inr (by rw [← hm.1, up c (by simpa using h1)])⟩
      · exact ⟨hm.2, .inl hm.1⟩

/-- C59 (what is mangled): the struct and type names are made from the qualified C++ name, enclosing
namespaces and classes included, and the template arguments. -/
theorem C59_qualified (c : ClassDecl) : c.fullName = c.bareFullName ++ templateSuffix c.targs := by
  cases c <;> rfl

/-- C59 fails in general: classes that differ in the case of the first letter, a class in a namespace
and one outside, and a template instance and a plain class share their symbols. -/
theorem C59_clash_counterexample :
    (ClassDecl.top [] [] "point".toList []).pystruct [] = (ClassDecl.top [] [] "Point".toList []).pystruct [] ∧
    (ClassDecl.top ["a".toList] [] "Bc".toList []).pystruct [] = (ClassDecl.top [] [] "aBc".toList []).pystruct [] ∧
    (ClassDecl.top [] [] "A".toList ["b".toList]).pystruct [] = (ClassDecl.top [] [] "A__B".toList []).pystruct [] := by
  decide

example : (ClassDecl.nested (.top ["ns".toList] [] "Map".toList ["int".toList]) "iter".toList []).pytypestruct "Foo".toList =
    "PyFooNsMap__lt___int___gt__Iter_Type".toList := by decide

end Verif.Names
