import Verif.Parser.PygenCalls

/-!
# C85: what Python reads in a generated script is the call that was written

`Line.text` is the text `castxmlparser` writes for a registration call; `readLine` reads text as Python does and says
which call it makes.  Keyword arguments are written in alphabetic order, so "the same call" means the same function
applied to the same positional arguments and the same set of keyword arguments.
-/
namespace Verif.Pygen
open Verif

/-- The same keyword arguments, in any order. -/
def Kw.Same (a b : Kw) : Prop := a.Perm b

/-- The same type or parameter. -/
def Spec.Same (a b : Spec) : Prop := a.args = b.args ∧ Kw.Same a.kw b.kw

/-- The same list of parameters. -/
inductive SameParams : List Spec → List Spec → Prop where
  | nil : SameParams [] []
  | cons {a b : Spec} {l m : List Spec} : a.Same b → SameParams l m → SameParams (a :: l) (b :: m)

/-- The same call. -/
inductive Line.Same : Line → Line → Prop where
  | func {m name ret ret' ps ps' kw kw'} : Spec.Same ret ret' → SameParams ps ps' → Kw.Same kw kw' →
      Line.Same (.func m name ret ps kw) (.func m name ret' ps' kw')
  | asMethod {c name ret ret' ps ps' custom} : Spec.Same ret ret' → SameParams ps ps' →
      Line.Same (.asMethod c name ret ps custom) (.asMethod c name ret' ps' custom)
  | asCtor {c name ret ret' ps ps'} : Spec.Same ret ret' → SameParams ps ps' →
      Line.Same (.asCtor c name ret ps) (.asCtor c name ret' ps')
  | ctor {ps ps' kw kw'} : SameParams ps ps' → Kw.Same kw kw' → Line.Same (.ctor ps kw) (.ctor ps' kw')
  | copyCtor : Line.Same .copyCtor .copyCtor
  | attr {st name ret ret' c} : Spec.Same ret ret' → Line.Same (.attr st name ret c) (.attr st name ret' c)
  | type {e name kw kw'} : Kw.Same kw kw' → Line.Same (.type e name kw) (.type e name kw')
  | enum {name vs o i} : Line.Same (.enum name vs o i) (.enum name vs o i)
  | conv {c o} : Line.Same (.conv c o) (.conv c o)
  | typedef {c n} : Line.Same (.typedef c n) (.typedef c n)
  | alias {a b} : Line.Same (.alias a b) (.alias a b)
  | container {name e e' kw kw'} : Spec.Same e e' → Kw.Same kw kw' →
      Line.Same (.container name none e kw) (.container name none e' kw')
  | map {name k k' e e' kw kw'} : Spec.Same k k' → Spec.Same e e' → Kw.Same kw kw' →
      Line.Same (.container name (some k) e kw) (.container name (some k') e' kw')
  | binop {op ret l r r'} : Spec.Same r r' → Line.Same (.binop op ret l r) (.binop op ret l r')
  | inplace {op r r'} : Spec.Same r r' → Line.Same (.inplace op r) (.inplace op r')
  | unop {op} : Line.Same (.unop op) (.unop op)
  | cmp {op} : Line.Same (.cmp op) (.cmp op)
  | stream : Line.Same .stream .stream

theorem Spec.norm_same (s : Spec) : s.Same s.norm := ⟨rfl, (sortKw_perm s.kw).symm⟩

theorem norm_sameParams : ∀ l : List Spec, SameParams l (l.map Spec.norm)
  | [] => .nil
  | s :: l => .cons s.norm_same (norm_sameParams l)

theorem Line.norm_same (l : Line) : l.Same l.norm := by
  cases l with
  | func => exact .func (Spec.norm_same _) (norm_sameParams _) (sortKw_perm _).symm
  | asMethod => exact .asMethod (Spec.norm_same _) (norm_sameParams _)
  | asCtor => exact .asCtor (Spec.norm_same _) (norm_sameParams _)
  | ctor => exact .ctor (norm_sameParams _) (sortKw_perm _).symm
  | copyCtor => exact .copyCtor
  | attr => exact .attr (Spec.norm_same _)
  | type => exact .type (sortKw_perm _).symm
  | enum => exact .enum
  | conv => exact .conv
  | typedef => exact .typedef
  | «alias» => exact .alias
  | container name key =>
    cases key with
    | none => exact .container (Spec.norm_same _) (sortKw_perm _).symm
    | some k => exact .map (Spec.norm_same _) (Spec.norm_same _) (sortKw_perm _).symm
  | binop => exact .binop (Spec.norm_same _)
  | inplace => exact .inplace (Spec.norm_same _)
  | unop => exact .unop
  | cmp => exact .cmp
  | stream => exact .stream

/-- Every call that can be written is read back as the same call, whatever names, types and values occur in it
(quotes, line breaks and characters beyond ASCII included), and whatever characters Python takes to be printable. -/
theorem C85_script_line (pr : Char → Bool) (l : Line) (h : l.Ok) : ∃ l', readLine (l.text pr) = some l' ∧ l.Same l' :=
  ⟨l.norm, by rw [readLine_expr pr (Line.expr_wf h) (Line.expr_text pr h), Line.expr_eval h], l.norm_same⟩

/-- A text stands for one call only. -/
theorem C85_unambiguous (pr : Char → Bool) (l m : Line) (hl : l.Ok) (hm : m.Ok) (h : l.text pr = m.text pr) :
    ∃ k, l.Same k ∧ m.Same k := by
  have e1 : readLine (l.text pr) = some l.norm := by
    rw [readLine_expr pr (Line.expr_wf hl) (Line.expr_text pr hl), Line.expr_eval hl]
  have e2 : readLine (m.text pr) = some m.norm := by
    rw [readLine_expr pr (Line.expr_wf hm) (Line.expr_text pr hm), Line.expr_eval hm]
  rw [h, e2] at e1
  exact ⟨l.norm, l.norm_same, Option.some.inj e1 ▸ m.norm_same⟩

/-- The repr of a string is read back as that string, and what follows it is left alone. -/
theorem C85_string (pr : Char → Bool) (s rest : Str) : readLit (reprStr pr s ++ rest) = some (s, rest) :=
  readLit_repr pr s rest

theorem lookup_iff {kw : Kw} (hd : (kw.map (·.1)).Nodup) (k : Str) (v : PyVal) : kw.lookup k = some v ↔ (k, v) ∈ kw := by
  induction kw with
  | nil => simp
  | cons p r ih =>
    obtain ⟨a, b⟩ := p
    rw [List.map_cons, List.nodup_cons] at hd
    rw [List.lookup_cons, List.mem_cons]
    by_cases hk : k = a
    · subst hk
      rw [beq_self_eq_true]
      constructor
      · intro h; exact Or.inl (by rw [Option.some.inj h])
      · rintro (h | h)
        · rw [(Prod.mk.inj h).2]
        · exact absurd (List.mem_map.mpr ⟨_, h, rfl⟩) hd.1
    · rw [beq_eq_false_iff_ne.mpr hk]
      constructor
      · intro h; exact Or.inr ((ih hd.2).mp h)
      · rintro (h | h)
        · exact absurd (Prod.mk.inj h).1 hk
        · exact (ih hd.2).mpr h

/-- The keyword arguments keep their values: each name is looked up with the same result. -/
theorem C85_keywords {kw kw' : Kw} (h : Kw.Same kw kw') (hd : (kw.map (·.1)).Nodup) (k : Str) :
    kw'.lookup k = kw.lookup k := by
  have hd' : (kw'.map (·.1)).Nodup := (h.map _).nodup_iff.mp hd
  have : ∀ v, kw'.lookup k = some v ↔ kw.lookup k = some v := fun v => by
    rw [lookup_iff hd, lookup_iff hd']
    exact h.symm.mem_iff
  cases e : kw.lookup k with
  | some v => exact (this v).mpr e
  | none =>
    cases e' : kw'.lookup k with
    | none => rfl
    | some v => rw [(this v).mp e'] at e; cases e

/-! ## Concrete cases -/

def exampleLine : Line :=
  .func true "do it's".toList ⟨["char const *".toList], [("caller_owns_return".toList, .bool true)]⟩
    [⟨["int".toList, "n\n".toList], [("default_value".toList, .str "\"é\"".toList), ("custodian".toList, .int (-1))]⟩]
    [("throw".toList, .refs ["Err".toList, "ns::Err2".toList]), ("is_const".toList, .bool true),
      ("template_parameters".toList, .strs ["T<int>".toList])]

theorem exampleLine_ok : exampleLine.Ok := by
  refine ⟨?_, ?_, ?_⟩
  · intro p hp
    rw [List.mem_singleton.mp hp]
    exact ⟨by unfold Ident; decide, trivial⟩
  · intro s hs
    rw [List.mem_singleton.mp hs]
    intro p hp
    rcases List.mem_cons.mp hp with rfl | hp
    · exact ⟨by unfold Ident; decide, trivial⟩
    · rw [List.mem_singleton.mp hp]
      exact ⟨by unfold Ident; decide, trivial⟩
  · intro p hp
    rcases List.mem_cons.mp hp with rfl | hp
    · exact ⟨by unfold Ident; decide, List.cons_ne_nil _ _, Or.inl rfl⟩
    rcases List.mem_cons.mp hp with rfl | hp
    · exact ⟨by unfold Ident; decide, trivial⟩
    · rw [List.mem_singleton.mp hp]
      exact ⟨by unfold Ident; decide, trivial⟩

example : ∃ l', readLine (exampleLine.text (fun _ => true)) = some l' ∧ exampleLine.Same l' :=
  C85_script_line _ _ exampleLine_ok

/-- The text itself, to compare with what the program prints. -/
example : (Line.attr true "x'".toList ⟨["int".toList], []⟩ false).text (fun _ => true) =
    "cls.add_static_attribute(\"x'\", 'int', is_const=False)".toList := by decide +kernel

/-- Classes other than under `throw` and `parent` cannot be in a list: Python could not read the result. -/
example : readLine ((Line.type false "A".toList [("friends".toList, .refs ["B".toList])]).text (fun _ => true)) = none := by
  decide +kernel

end Verif.Pygen
