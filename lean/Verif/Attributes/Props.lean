import Verif.Attributes.Model
import Verif.Wrapper.ForwardFlow
import Verif.Wrapper.Exec

/-!
# C75, C77, C78, C79: attribute tables, reading, assigning and deleting attributes
-/
namespace Verif.Attr
open Verif Verif.Wrap Verif.Flow Verif.Params Verif.DeclScope Verif.Utils

/-! ## The table -/

theorem attempt_ok {X : Type} {handler : Handler X} {x : X} {n : Str} {r : PyRes W} {l : List Fn}
    (h : attempt handler x n r = .ok l) :
    (∃ w, r = .ok w ∧ l = [⟨n, w⟩]) ∨ ((∀ w, r ≠ .ok w) ∧ l = []) := by
  cases r with
  | ok w =>
    left
    have e : callWithErrorHandling handler defaultHandled x (Except.ok w) = .ok w := by
      cases handler <;> rfl
    unfold attempt at h
    rw [e] at h
    exact ⟨w, rfl, (Except.ok.inj h).symm⟩
  | error e =>
    right
    refine ⟨(by intro w hw; cases hw), ?_⟩
    have : ∃ e', callWithErrorHandling handler defaultHandled x (Except.error e : PyRes W) = .error e' := by
      unfold callWithErrorHandling
      split
      · exact ⟨_, rfl⟩
      · dsimp only
        split
        · split <;> exact ⟨_, rfl⟩
        · exact ⟨_, rfl⟩
    obtain ⟨e', he⟩ := this
    unfold attempt at h
    rw [he] at h
    cases e' <;> first | exact (Except.ok.inj h).symm | cases h

/-- What the loop does with one attribute, given the heap it meets. -/
structure Made (c : Cls) (hd : Heap) (d : Decl) (g s : List Fn) : Prop where
  getter : (∃ w, getterBody hd d = .ok w ∧ g = [⟨getterName c d, w⟩]) ∨
    ((∀ w, getterBody hd d ≠ .ok w) ∧ g = [])
  setter : (d.isConst = false ∧ ∃ w, (setterBody c hd d).2 = .ok w ∧ s = [⟨setterName c d, w⟩]) ∨
    ((d.isConst = true ∨ ∀ w, (setterBody c hd d).2 ≠ .ok w) ∧ s = [])

theorem genOne_ok {handler : Handler (Bool × Decl)} {c : Cls} {o o' : Out} {d : Decl}
    (h : genOne handler c o d = .ok o') :
    ∃ g s, Made c o.heap d g s ∧ d.name ∉ o.rows.map Prod.fst ∧
      o' = { heap := (genSetter handler c o.heap d).1, fns := o.fns ++ g ++ s
             rows := o.rows ++ [(d.name, ⟨pyName d, g.head?.map Fn.name, s.head?.map Fn.name⟩)] } := by
  unfold genOne at h
  cases hg : attempt handler (false, d) (getterName c d) (getterBody o.heap d) with
  | error e => rw [hg] at h; cases h
  | ok g =>
    rw [hg] at h
    dsimp only at h
    cases hs : (genSetter handler c o.heap d).2 with
    | error e => rw [hs] at h; cases h
    | ok s =>
      rw [hs] at h
      dsimp only at h
      split at h
      · cases h
      · rename_i hn
        refine ⟨g, s, ⟨attempt_ok hg, ?_⟩, hn, (Except.ok.inj h).symm⟩
        unfold genSetter at hs
        by_cases hc : d.isConst = true
        · rw [if_pos hc] at hs
          exact Or.inr ⟨Or.inl hc, (Except.ok.inj hs).symm⟩
        · rw [if_neg hc] at hs
          have hc : d.isConst = false := by simpa using hc
          rcases attempt_ok hs with ⟨w, h1, h2⟩ | ⟨h1, h2⟩
          · exact Or.inl ⟨hc, w, h1, h2⟩
          · exact Or.inr ⟨Or.inr h1, h2⟩

/-- Rows and functions correspond: row by row, with the heap met by each attribute. -/
inductive Tables (c : Cls) : List Decl → List Row → List Fn → Prop
  | nil : Tables c [] [] []
  | cons {d ds rows fns hd g s} : Made c hd d g s → Tables c ds rows fns →
      Tables c (d :: ds) (⟨pyName d, g.head?.map Fn.name, s.head?.map Fn.name⟩ :: rows) (g ++ s ++ fns)

theorem genLoop_ok {handler : Handler (Bool × Decl)} {c : Cls} : ∀ {ds : List Decl} {o o' : Out},
    genLoop handler c o ds = .ok o' →
    ∃ rows fns, Tables c ds (rows.map Prod.snd) fns ∧ o'.rows = o.rows ++ rows ∧ o'.fns = o.fns ++ fns ∧
      rows.map Prod.fst = ds.map Decl.name ∧ (ds.map Decl.name).Nodup ∧
      ∀ d ∈ ds, d.name ∉ o.rows.map Prod.fst
  | [], o, o', h => by
    cases h
    exact ⟨[], [], .nil, by simp, by simp, rfl, List.nodup_nil, by simp⟩
  | d :: ds, o, o', h => by
    unfold genLoop at h
    cases h1 : genOne handler c o d with
    | error e => rw [h1] at h; cases h
    | ok o1 =>
      rw [h1] at h
      obtain ⟨g, s, hm, hn, ho⟩ := genOne_ok h1
      obtain ⟨rows, fns, ht, hr, hf, hk, hd, hall⟩ := genLoop_ok h
      subst ho
      refine ⟨(d.name, ⟨pyName d, g.head?.map Fn.name, s.head?.map Fn.name⟩) :: rows, g ++ s ++ fns,
        .cons hm ht, by rw [hr]; simp, by rw [hf]; simp, by simp [hk], ?_, ?_⟩
      · rw [List.map_cons, List.nodup_cons]
        refine ⟨?_, hd⟩
        intro hin
        obtain ⟨e, he, hen⟩ := List.mem_map.mp hin
        exact hall e he (by simp [hen])
      · intro e he
        rcases List.mem_cons.mp he with rfl | he
        · exact hn
        · intro hin
          exact hall e he (by
            obtain ⟨p, hp, hpe⟩ := List.mem_map.mp hin
            exact List.mem_map.mpr ⟨p, List.mem_append_left _ hp, hpe⟩)

/-- C75 at one attribute: its row shows a getter exactly if the getter's code could be generated, a
setter exactly if the attribute is not constant and the setter's code could be generated. -/
def RowOk (c : Cls) (d : Decl) (r : Row) : Prop :=
  r.pyName = pyName d ∧
  ∃ hd : Heap,
    (r.getter = none ∨ r.getter = some (getterName c d)) ∧
    (r.getter.isSome = true ↔ ∃ w, getterBody hd d = .ok w) ∧
    (r.setter = none ∨ r.setter = some (setterName c d)) ∧
    (r.setter.isSome = true ↔ d.isConst = false ∧ ∃ w, (setterBody c hd d).2 = .ok w)

theorem made_row {c : Cls} {hd : Heap} {d : Decl} {g s : List Fn} (h : Made c hd d g s) :
    RowOk c d ⟨pyName d, g.head?.map Fn.name, s.head?.map Fn.name⟩ ∧
      (g ++ s).map Fn.name = (g.head?.map Fn.name).toList ++ (s.head?.map Fn.name).toList := by
  obtain ⟨hg, hs⟩ := h
  have hgs : (g.head?.map Fn.name = none ∨ g.head?.map Fn.name = some (getterName c d)) ∧
      ((g.head?.map Fn.name).isSome = true ↔ ∃ w, getterBody hd d = .ok w) ∧
      g.map Fn.name = (g.head?.map Fn.name).toList := by
    rcases hg with ⟨w, h1, rfl⟩ | ⟨h1, rfl⟩
    · exact ⟨Or.inr rfl, by simp [h1], rfl⟩
    · refine ⟨Or.inl rfl, ?_, rfl⟩
      simp only [List.head?_nil, Option.map_none, Option.isSome_none, Bool.false_eq_true, false_iff]
      rintro ⟨w, hw⟩; exact h1 w hw
  have hss : (s.head?.map Fn.name = none ∨ s.head?.map Fn.name = some (setterName c d)) ∧
      ((s.head?.map Fn.name).isSome = true ↔ d.isConst = false ∧ ∃ w, (setterBody c hd d).2 = .ok w) ∧
      s.map Fn.name = (s.head?.map Fn.name).toList := by
    rcases hs with ⟨h0, w, h1, rfl⟩ | ⟨h1, rfl⟩
    · exact ⟨Or.inr rfl, by simp [h0, h1], rfl⟩
    · refine ⟨Or.inl rfl, ?_, rfl⟩
      simp only [List.head?_nil, Option.map_none, Option.isSome_none, Bool.false_eq_true, false_iff]
      rintro ⟨h0, w, hw⟩
      rcases h1 with h1 | h1
      · rw [h1] at h0; cases h0
      · exact h1 w hw
  exact ⟨⟨rfl, hd, hgs.1, hgs.2.1, hss.1, hss.2.1⟩, by rw [List.map_append, hgs.2.2, hss.2.2]⟩

theorem tables_spec {c : Cls} {ds : List Decl} {rows : List Row} {fns : List Fn} (h : Tables c ds rows fns) :
    List.Forall₂ (RowOk c) ds rows ∧
      fns.map Fn.name = rows.flatMap (fun r => r.getter.toList ++ r.setter.toList) := by
  induction h with
  | nil => exact ⟨.nil, rfl⟩
  | cons hm _ ih =>
    obtain ⟨h1, h2⟩ := made_row hm
    refine ⟨.cons h1 ih.1, ?_⟩
    rw [List.map_append, h2, ih.2]
    rfl

/-- **C75.**  If generating an attribute table is not stopped by an error, then no attribute name
was declared twice; there is no table exactly if there are no attributes; otherwise the table has one
row per declared attribute, in the order of declaration and under the name given for Python, with a
getter exactly if its code could be generated, and a setter exactly if the attribute is not constant
and its code could be generated; and the functions written are exactly those the table refers to. -/
theorem C75_table (handler : Handler (Bool × Decl)) (c : Cls) (h h' : Heap) (ds : List Decl) (fns : List Fn)
    (tbl : Option (List Row)) (hr : genTable handler c h ds = .ok (h', fns, tbl)) :
    (ds.map Decl.name).Nodup ∧ (tbl = none ↔ ds = []) ∧
    List.Forall₂ (RowOk c) ds (tbl.getD []) ∧
    fns.map Fn.name = (tbl.getD []).flatMap (fun r => r.getter.toList ++ r.setter.toList) := by
  unfold genTable at hr
  cases hl : genLoop handler c { heap := h } ds with
  | error e => rw [hl] at hr; cases hr
  | ok o =>
    rw [hl] at hr
    have hr := Except.ok.inj hr
    simp only [Prod.mk.injEq] at hr
    obtain ⟨-, hf, ht⟩ := hr
    obtain ⟨rows, fns', hT, h1, h2, h3, h4, -⟩ := genLoop_ok hl
    simp only [List.nil_append] at h1 h2
    have hsp := tables_spec hT
    have hd : tbl.getD [] = rows.map Prod.snd := by
      rw [← ht]
      split
      · rename_i he
        have : rows = [] := by
          subst he
          simpa using h3
        simp [this]
      · rw [h1]; rfl
    refine ⟨h4, ?_, by rw [hd]; exact hsp.1, by rw [hd, ← hf, h2]; exact hsp.2⟩
    rw [← ht]
    split <;> simp [*]

/-- C75 (duplicates): two attributes of the same name in one table make generation fail. -/
theorem C75_duplicate (handler : Handler (Bool × Decl)) (c : Cls) (h : Heap) (ds : List Decl)
    (hd : ¬ (ds.map Decl.name).Nodup) : ∃ e, genTable handler c h ds = .error e := by
  cases hr : genTable handler c h ds with
  | error e => exact ⟨e, rfl⟩
  | ok r => exact absurd (C75_table handler c h r.1 ds r.2.1 r.2.2 hr).1 hd

/-- C75 (constants): a constant attribute has no setter. -/
theorem C75_constant (c : Cls) (d : Decl) (r : Row) (h : RowOk c d r) (hc : d.isConst = true) :
    r.setter = none := by
  obtain ⟨-, hd, -, -, h3, h4⟩ := h
  rcases h3 with h3 | h3
  · exact h3
  · rw [h3, hc] at h4
    simp at h4

theorem attempt_accept {X : Type} {handler : X → PyErr → Bool} {x : X} {n : Str} {r : PyRes W}
    (hr : ∀ e, r = .error e → defaultHandled e = true ∧ handler x e = true) :
    ∃ l, attempt (some handler) x n r = .ok l := by
  cases r with
  | ok w => exact ⟨_, rfl⟩
  | error e =>
    obtain ⟨h1, h2⟩ := hr e rfl
    refine ⟨[], ?_⟩
    simp [attempt, callWithErrorHandling, h1, h2]

/-- C75 (nothing stopped): an attribute whose code can not be generated is left without a getter or
setter but does not stop the others, if the error handler accepts the errors: with different names,
the table is written. -/
theorem C75_skipped (handler : Bool × Decl → PyErr → Bool) (c : Cls) (h : Heap) (ds : List Decl)
    (hn : (ds.map Decl.name).Nodup)
    (hg : ∀ hd, ∀ d ∈ ds, ∀ e, getterBody hd d = .error e → defaultHandled e = true ∧ handler (false, d) e = true)
    (hs : ∀ hd, ∀ d ∈ ds, ∀ e, (setterBody c hd d).2 = .error e →
      defaultHandled e = true ∧ handler (true, d) e = true) :
    ∃ r, genTable (some handler) c h ds = .ok r := by
  have main : ∀ (ds : List Decl) (o : Out), (ds.map Decl.name).Nodup →
      (∀ d ∈ ds, d.name ∉ o.rows.map Prod.fst) →
      (∀ hd, ∀ d ∈ ds, ∀ e, getterBody hd d = .error e → defaultHandled e = true ∧ handler (false, d) e = true) →
      (∀ hd, ∀ d ∈ ds, ∀ e, (setterBody c hd d).2 = .error e →
        defaultHandled e = true ∧ handler (true, d) e = true) →
      ∃ o', genLoop (some handler) c o ds = .ok o' := by
    intro ds
    induction ds with
    | nil => intro o _ _ _ _; exact ⟨o, rfl⟩
    | cons d ds ih =>
      intro o hn hnew hg hs
      rw [List.map_cons, List.nodup_cons] at hn
      obtain ⟨g, hga⟩ := attempt_accept (n := getterName c d) (handler := handler) (x := (false, d))
        (hg o.heap d List.mem_cons_self)
      have hsa : ∃ s, (genSetter (some handler) c o.heap d).2 = .ok s := by
        unfold genSetter
        split
        · exact ⟨_, rfl⟩
        · exact attempt_accept (n := setterName c d) (handler := handler) (x := (true, d))
            (hs o.heap d List.mem_cons_self)
      obtain ⟨s, hsa⟩ := hsa
      have h1 : ∃ o1, genOne (some handler) c o d = .ok o1 ∧
          o1.rows.map Prod.fst = o.rows.map Prod.fst ++ [d.name] := by
        unfold genOne
        rw [hga]
        dsimp only
        rw [hsa]
        dsimp only
        rw [if_neg (hnew d List.mem_cons_self)]
        exact ⟨_, rfl, by simp⟩
      obtain ⟨o1, h1, h2⟩ := h1
      unfold genLoop
      rw [h1]
      refine ih o1 hn.2 (fun x hx hin => ?_) (fun hd x hx => hg hd x (List.mem_cons_of_mem _ hx))
        (fun hd x hx => hs hd x (List.mem_cons_of_mem _ hx))
      rw [h2, List.mem_append, List.mem_singleton] at hin
      rcases hin with hin | hin
      · exact hnew x (List.mem_cons_of_mem _ hx) hin
      · exact hn.1 (List.mem_map.mpr ⟨x, hx, hin⟩)
  obtain ⟨o, ho⟩ := main ds { heap := h } hn (by simp) hg hs
  unfold genTable
  rw [ho]
  exact ⟨_, rfl⟩

theorem attempt_none {X : Type} {x : X} {n : Str} {r : PyRes W} {l : List Fn} (hr : r ≠ .error .skipWrapper)
    (h : attempt (none : Handler X) x n r = .ok l) : ∃ w, r = .ok w := by
  cases r with
  | ok w => exact ⟨w, rfl⟩
  | error e =>
    unfold attempt callWithErrorHandling at h
    cases e <;> first | exact absurd rfl hr | cases h

/-- C75 (nothing lost): with no error handler in place, and code generators that do not raise
`SkipWrapper` themselves, every attribute can be read and every attribute that is not constant can be
written, or generation fails. -/
theorem C75_complete (c : Cls) (h h' : Heap) (ds : List Decl) (fns : List Fn) (tbl : Option (List Row))
    (hr : genTable none c h ds = .ok (h', fns, tbl))
    (hg : ∀ hd, ∀ d ∈ ds, getterBody hd d ≠ .error .skipWrapper)
    (hs : ∀ hd, ∀ d ∈ ds, (setterBody c hd d).2 ≠ .error .skipWrapper) :
    List.Forall₂ (fun d r => r = ⟨pyName d, some (getterName c d),
      if d.isConst then none else some (setterName c d)⟩) ds (tbl.getD []) := by
  have main : ∀ (ds : List Decl) (o o' : Out), genLoop none c o ds = .ok o' →
      (∀ hd, ∀ d ∈ ds, getterBody hd d ≠ .error .skipWrapper) →
      (∀ hd, ∀ d ∈ ds, (setterBody c hd d).2 ≠ .error .skipWrapper) →
      ∃ rows, o'.rows = o.rows ++ rows ∧ (rows = [] ↔ ds = []) ∧
        List.Forall₂ (fun d r => r = ⟨pyName d, some (getterName c d),
          if d.isConst then none else some (setterName c d)⟩) ds (rows.map Prod.snd) := by
    intro ds
    induction ds with
    | nil => intro o o' h _ _; cases h; exact ⟨[], by simp, by simp, .nil⟩
    | cons d ds ih =>
      intro o o' h hg hs
      unfold genLoop at h
      cases h1 : genOne none c o d with
      | error e => rw [h1] at h; cases h
      | ok o1 =>
        rw [h1] at h
        obtain ⟨rows, e1, -, e2⟩ := ih o1 o' h (fun hd x hx => hg hd x (List.mem_cons_of_mem _ hx))
          (fun hd x hx => hs hd x (List.mem_cons_of_mem _ hx))
        have hkey : o1.rows = o.rows ++ [(d.name, ⟨pyName d, some (getterName c d),
            if d.isConst then none else some (setterName c d)⟩)] := by
          unfold genOne at h1
          cases hga : attempt none (false, d) (getterName c d) (getterBody o.heap d) with
          | error e => rw [hga] at h1; cases h1
          | ok g =>
            rw [hga] at h1
            dsimp only at h1
            cases hsa : (genSetter none c o.heap d).2 with
            | error e => rw [hsa] at h1; cases h1
            | ok s =>
              rw [hsa] at h1
              dsimp only at h1
              split at h1
              · cases h1
              · obtain ⟨w, hw⟩ := attempt_none (hg o.heap d List.mem_cons_self) hga
                have eg : g = [⟨getterName c d, w⟩] := by
                  rcases attempt_ok hga with ⟨w', h2, h3⟩ | ⟨h2, -⟩
                  · rw [hw] at h2; cases h2; exact h3
                  · exact absurd hw (h2 w)
                have es : s.head?.map Fn.name = if d.isConst then none else some (setterName c d) := by
                  unfold genSetter at hsa
                  by_cases hc : d.isConst = true
                  · rw [if_pos hc] at hsa
                    rw [if_pos hc, ← Except.ok.inj hsa]; rfl
                  · rw [if_neg hc] at hsa
                    obtain ⟨w', hw'⟩ := attempt_none (hs o.heap d List.mem_cons_self) hsa
                    rw [if_neg hc]
                    rcases attempt_ok hsa with ⟨w2, h2, h3⟩ | ⟨h2, -⟩
                    · rw [h3]; rfl
                    · exact absurd hw' (h2 w')
                have h1 := (Except.ok.inj h1).symm
                rw [h1, eg, es]
                rfl
        refine ⟨(d.name, ⟨pyName d, some (getterName c d),
            if d.isConst then none else some (setterName c d)⟩) :: rows, by rw [e1, hkey]; simp, by simp, ?_⟩
        exact .cons rfl e2
  unfold genTable at hr
  cases hl : genLoop none c { heap := h } ds with
  | error e => rw [hl] at hr; cases hr
  | ok o =>
    rw [hl] at hr
    have hr := Except.ok.inj hr
    simp only [Prod.mk.injEq] at hr
    obtain ⟨rows, h1, h2, h3⟩ := main ds _ o hl hg hs
    simp only [List.nil_append] at h1
    rw [← hr.2.2]
    split
    · rename_i he
      subst he
      exact .nil
    · rw [h1]; exact h3

/-! ## The heap -/

theorem put_ne {h : Heap} {i j : Nat} {o : Obj} (hij : j ≠ i) : (h.put i o) j = h j := if_neg hij
theorem put_self {h : Heap} {i : Nat} {o : Obj} : (h.put i o) i = o := if_pos rfl

theorem genSetter_frame (handler : Handler (Bool × Decl)) (c : Cls) (h : Heap) (d : Decl) {j : Nat}
    (hj : j ≠ d.rv) : (genSetter handler c h d).1 j = h j := by
  unfold genSetter
  split
  · rfl
  · unfold setterBody
    split
    · rfl
    · split
      · rfl
      · exact put_ne hj

/-- What the object of an attribute must hold when its functions are generated. -/
def Holds (c : Cls) (h0 : Heap) (d : Decl) (o : Obj) : Prop :=
  o.type = (h0 d.rv).type ∧ o.value = getterValue c d

theorem genLoop_fns {handler : Handler (Bool × Decl)} {c : Cls} {h0 : Heap} : ∀ {ds : List Decl} {o o' : Out},
    genLoop handler c o ds = .ok o' → (ds.map Decl.rv).Nodup → (∀ d ∈ ds, Holds c h0 d (o.heap d.rv)) →
    (∀ j, j ∉ ds.map Decl.rv → o'.heap j = o.heap j) ∧
    ∀ f ∈ o'.fns, f ∈ o.fns ∨ ∃ d ∈ ds, ∃ hd : Heap, Holds c h0 d (hd d.rv) ∧
      ((f.name = getterName c d ∧ getterBody hd d = .ok f.body) ∨
       (f.name = setterName c d ∧ d.isConst = false ∧ (setterBody c hd d).2 = .ok f.body))
  | [], o, o', h, _, _ => by
    cases h
    exact ⟨fun _ _ => rfl, fun f hf => Or.inl hf⟩
  | d :: ds, o, o', h, hnd, hh => by
    unfold genLoop at h
    cases h1 : genOne handler c o d with
    | error e => rw [h1] at h; cases h
    | ok o1 =>
      rw [h1] at h
      obtain ⟨g, s, hm, -, ho⟩ := genOne_ok h1
      rw [List.map_cons, List.nodup_cons] at hnd
      have hhd := hh d List.mem_cons_self
      have hframe : ∀ j, j ≠ d.rv → o1.heap j = o.heap j := by
        intro j hj; rw [ho]; exact genSetter_frame handler c o.heap d hj
      obtain ⟨i1, i2⟩ := genLoop_fns (o := o1) h hnd.2 (by
        intro e he
        rw [hframe e.rv (fun hee => hnd.1 (by rw [← hee]; exact List.mem_map.mpr ⟨e, he, rfl⟩))]
        exact hh e (List.mem_cons_of_mem _ he))
      refine ⟨?_, ?_⟩
      · intro j hj
        simp only [List.map_cons, List.mem_cons, not_or] at hj
        rw [i1 j hj.2, hframe j hj.1]
      · intro f hf
        rcases i2 f hf with hf | ⟨e, he, hd, h2, h3⟩
        · rw [ho] at hf
          simp only [List.append_assoc, List.mem_append] at hf
          rcases hf with hf | hf | hf
          · exact Or.inl hf
          · right
            rcases hm.getter with ⟨w, hw, rfl⟩ | ⟨-, rfl⟩
            · have := List.mem_singleton.mp hf
              subst this
              exact ⟨d, List.mem_cons_self, o.heap, hhd, Or.inl ⟨rfl, hw⟩⟩
            · cases hf
          · right
            rcases hm.setter with ⟨hc, w, hw, rfl⟩ | ⟨-, rfl⟩
            · have := List.mem_singleton.mp hf
              subst this
              exact ⟨d, List.mem_cons_self, o.heap, hhd, Or.inr ⟨rfl, hc, hw⟩⟩
            · cases hf
        · exact Or.inr ⟨e, List.mem_cons_of_mem _ he, hd, h2, h3⟩

/-- The declarations that are not refused: a setter for a constant attribute is. -/
def accepted (d : Decl) : Bool := !(d.isConst && d.access.setter.isSome)

theorem add_frame (c : Cls) (s : St) (d : Decl) {j : Nat} (hj : j ≠ d.rv) : (add c s d).1.heap j = s.heap j := by
  unfold add
  dsimp only
  split
  · dsimp only
    split
    · exact put_ne hj
    · rw [put_ne hj, put_ne hj]
  · split <;> exact put_ne hj

theorem add_holds (c : Cls) (h0 : Heap) (s : St) (d : Decl) (ht : (s.heap d.rv).type = (h0 d.rv).type) :
    Holds c h0 d ((add c s d).1.heap d.rv) := by
  unfold add
  dsimp only
  split
  · dsimp only
    split
    · rw [put_self]; exact ⟨ht, rfl⟩
    · rw [put_self, put_self]; exact ⟨ht, rfl⟩
  · split <;> (dsimp only; rw [put_self]; exact ⟨ht, rfl⟩)

theorem add_lists (c : Cls) (s : St) (d : Decl) :
    (add c s d).1.inst = s.inst ++ (if accepted d ∧ d.access ≠ .static then [d] else []) ∧
    (add c s d).1.stat = s.stat ++ (if d.access = .static then [d] else []) := by
  unfold add
  dsimp only
  cases ha : d.access with
  | static => simp
  | member g st => cases hc : d.isConst <;> cases st <;> simp [accepted, ha, hc, Access.setter]
  | custom g ga st sa => cases hc : d.isConst <;> cases st <;> simp [accepted, ha, hc, Access.setter]

theorem addAll_lists (c : Cls) : ∀ (ds : List Decl) (s : St),
    (addAll c s ds).inst = s.inst ++ ds.filter (fun d => accepted d ∧ d.access ≠ .static) ∧
    (addAll c s ds).stat = s.stat ++ ds.filter (fun d => d.access = .static)
  | [], s => by simp [addAll]
  | d :: ds, s => by
    obtain ⟨h1, h2⟩ := addAll_lists c ds (add c s d).1
    obtain ⟨h3, h4⟩ := add_lists c s d
    constructor
    · show (addAll c (add c s d).1 ds).inst = _
      rw [h1, h3, List.filter_cons]
      split <;> simp_all
    · show (addAll c (add c s d).1 ds).stat = _
      rw [h2, h4, List.filter_cons]
      split <;> simp_all

theorem addAll_holds (c : Cls) (h0 : Heap) : ∀ (ds : List Decl) (s : St), (ds.map Decl.rv).Nodup →
    (∀ d ∈ ds, (s.heap d.rv).type = (h0 d.rv).type) →
    (∀ j, j ∉ ds.map Decl.rv → (addAll c s ds).heap j = s.heap j) ∧
    ∀ d ∈ ds, Holds c h0 d ((addAll c s ds).heap d.rv)
  | [], s, _, _ => ⟨fun _ _ => rfl, by simp⟩
  | d :: ds, s, hnd, ht => by
    rw [List.map_cons, List.nodup_cons] at hnd
    have hne : ∀ e ∈ ds, e.rv ≠ d.rv := fun e he hee =>
      hnd.1 (by rw [← hee]; exact List.mem_map.mpr ⟨e, he, rfl⟩)
    obtain ⟨i1, i2⟩ := addAll_holds c h0 ds (add c s d).1 hnd.2 (by
      intro e he
      rw [add_frame c s d (hne e he)]
      exact ht e (List.mem_cons_of_mem _ he))
    refine ⟨?_, ?_⟩
    · intro j hj
      simp only [List.map_cons, List.mem_cons, not_or] at hj
      show (addAll c (add c s d).1 ds).heap j = _
      rw [i1 j hj.2, add_frame c s d hj.1]
    · intro e he
      show Holds c h0 e ((addAll c (add c s d).1 ds).heap e.rv)
      rcases List.mem_cons.mp he with rfl | he
      · rw [i1 _ hnd.1]
        exact add_holds c h0 s e (ht e List.mem_cons_self)
      · exact i2 e he

/-- Every function written for the attributes of a class that do not share `ReturnValue` objects. -/
theorem genClass_fns (handler : Handler (Bool × Decl)) (c : Cls) (h0 : Heap) (ds : List Decl)
    (hnd : (ds.map Decl.rv).Nodup) (fns : List Fn) (t1 t2 : Option (List Row))
    (hr : genClass handler c (addAll c { heap := h0 } ds) = .ok (fns, t1, t2)) :
    ∀ f ∈ fns, ∃ d ∈ ds, ∃ hd : Heap, Holds c h0 d (hd d.rv) ∧
      ((f.name = getterName c d ∧ getterBody hd d = .ok f.body) ∨
       (f.name = setterName c d ∧ d.isConst = false ∧ (setterBody c hd d).2 = .ok f.body)) := by
  obtain ⟨l1, l2⟩ := addAll_lists c ds { heap := h0 }
  obtain ⟨-, hh⟩ := addAll_holds c h0 ds { heap := h0 } hnd (fun _ _ => rfl)
  generalize hS : addAll c { heap := h0 } ds = S at l1 l2 hh hr
  simp only [List.nil_append] at l1 l2
  have hsub1 : ∀ d ∈ S.inst, d ∈ ds := fun d hd => (List.mem_filter.mp (l1 ▸ hd)).1
  have hsub2 : ∀ d ∈ S.stat, d ∈ ds := fun d hd => (List.mem_filter.mp (l2 ▸ hd)).1
  have hnd1 : (S.inst.map Decl.rv).Nodup := by
    rw [l1]; exact hnd.sublist (List.filter_sublist.map _)
  have hnd2 : (S.stat.map Decl.rv).Nodup := by
    rw [l2]; exact hnd.sublist (List.filter_sublist.map _)
  have hinj : ∀ {l : List Decl}, (l.map Decl.rv).Nodup → ∀ a ∈ l, ∀ b ∈ l, a.rv = b.rv → a = b := by
    intro l
    induction l with
    | nil => intro _ a ha; cases ha
    | cons x l ih =>
      intro hn a ha b hb hab
      rw [List.map_cons, List.nodup_cons] at hn
      rcases List.mem_cons.mp ha with rfl | ha1 <;> rcases List.mem_cons.mp hb with rfl | hb1
      · rfl
      · exact absurd (List.mem_map.mpr ⟨b, hb1, hab.symm⟩) hn.1
      · exact absurd ((List.mem_map (l := l)).mpr ⟨a, ha1, hab⟩) hn.1
      · exact ih hn.2 a ha1 b hb1 hab
  unfold genClass genTable at hr
  cases hl1 : genLoop handler c { heap := S.heap } S.inst with
  | error e => rw [hl1] at hr; cases hr
  | ok o1 =>
    rw [hl1] at hr
    dsimp only at hr
    cases hl2 : genLoop handler c { heap := o1.heap } S.stat with
    | error e => rw [hl2] at hr; cases hr
    | ok o2 =>
      rw [hl2] at hr
      have hr := Except.ok.inj hr
      simp only [Prod.mk.injEq] at hr
      obtain ⟨fr1, f1⟩ := genLoop_fns (h0 := h0) hl1 hnd1 (fun d hd => hh d (hsub1 d hd))
      obtain ⟨-, f2⟩ := genLoop_fns (h0 := h0) hl2 hnd2 (by
        intro d hd
        show Holds c h0 d (o1.heap d.rv)
        rw [fr1 d.rv ?_]
        · exact hh d (hsub2 d hd)
        · intro hin
          obtain ⟨e, he, hee⟩ := List.mem_map.mp hin
          have := hinj hnd e (hsub1 e he) d (hsub2 d hd) hee
          subst this
          have h1 := (List.mem_filter.mp (l1 ▸ he)).2
          have h2 := (List.mem_filter.mp (l2 ▸ hd)).2
          simp only [decide_eq_true_eq] at h1 h2
          exact h1.2 h2)
      intro f hf
      rw [← hr.1] at hf
      rcases List.mem_append.mp hf with hf | hf
      · rcases f1 f hf with hf | ⟨d, hd, h⟩
        · cases hf
        · exact ⟨d, hsub1 d hd, h⟩
      · rcases f2 f hf with hf | ⟨d, hd, h⟩
        · cases hf
        · exact ⟨d, hsub2 d hd, h⟩

end Verif.Attr
