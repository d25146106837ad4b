import Verif.CppClass.FunctionMethods
import Mathlib.Data.List.Nodup

/-!
# C126: functions added to a class as methods: specification and proofs
-/
namespace Verif.FnMethods
open Verif

/-! ## Specification -/

/-- The Python name the user chose: the custom name, or else the function's own (mangled) name. -/
def Item.pyName : Item → Str
  | .method m => m.name
  | .function d => (d.customName).getD (Utils.getMangledName d.name d.targs)

/-- The Python arguments fit these C++ parameters, one by one. -/
def Fit {A : Type} (accepts : Str → A → Bool) (ps : List Param) (as : List A) : Prop :=
  List.Forall₂ (fun p a => accepts p.ctype a = true) ps as

/-- The Python arguments of `o.name(...)` fit: for a function all parameters but the first. -/
def Item.Fits {A : Type} (accepts : Str → A → Bool) (i : Item) (as : List A) : Prop :=
  match i with
  | .method m => Fit accepts m.params as
  | .function d => Fit accepts d.params.tail as

/-- The C++ function, written out: its namespace or else the module's, its name, its template arguments. -/
def written (M : Module) (d : Decl) : Str :=
  let q := if d.ns ≠ [] then d.ns ++ "::".toList else if M.ns ≠ [] then M.ns ++ "::".toList else []
  let t := if d.targs = [] then [] else "< ".toList ++ pyJoin ", ".toList d.targs ++ " >".toList
  q ++ d.name ++ t

/-- Nothing in a declaration claims a parameter for the object; that is up to the class. -/
def Item.Plain : Item → Prop
  | .method m => ∀ p ∈ m.params, p.fromSelf = false
  | .function d => ∀ p ∈ d.params, p.fromSelf = false

/-- The first parameter takes the object's address rather than the object. -/
def Decl.byAddress (d : Decl) : Bool :=
  match d.params with
  | { cls := some (_, .pointer), .. } :: _ => true
  | _ => false

/-! ## Proofs: the table of methods -/

def get (t : Table) (k : Option Str) : List Entry :=
  match t.find? (fun x => x.1 = k) with
  | none => []
  | some x => x.2

theorem get_enter (k k' : Option Str) (e : Entry) : ∀ t : Table,
    get (enter k e t) k' = if k = k' then get t k' ++ [e] else get t k'
  | [] => by
    by_cases h : k = k' <;> simp [enter, get, h]
  | (k0, es) :: t => by
    have ih := get_enter k k' e t
    by_cases h0 : k0 = k
    · subst h0
      by_cases h : k0 = k' <;> simp [enter, get, h]
    · have he : enter k e ((k0, es) :: t) = (k0, es) :: enter k e t := by simp [enter, h0]
      rw [he]
      by_cases h1 : k0 = k'
      · subst h1
        rw [if_neg (fun h => h0 h.symm)]
        simp [get]
      · have a1 : get ((k0, es) :: enter k e t) k' = get (enter k e t) k' := by simp [get, h1]
        have a2 : get ((k0, es) :: t) k' = get t k' := by simp [get, h1]
        rw [a1, a2, ih]

theorem enter_keys (k : Option Str) (e : Entry) : ∀ t : Table,
    (enter k e t).map (·.1) = if k ∈ t.map (·.1) then t.map (·.1) else t.map (·.1) ++ [k]
  | [] => by simp [enter]
  | (k0, es) :: t => by
    have ih := enter_keys k e t
    by_cases h0 : k0 = k
    · simp [enter, h0]
    · have he : enter k e ((k0, es) :: t) = (k0, es) :: enter k e t := by simp [enter, h0]
      rw [he]
      have hk : ¬ k = k0 := fun h => h0 h.symm
      simp only [List.map_cons, List.mem_cons, hk, false_or, ih]
      split <;> simp

theorem enter_nodup {k : Option Str} {e : Entry} {t : Table} (h : (t.map (·.1)).Nodup) :
    ((enter k e t).map (·.1)).Nodup := by
  rw [enter_keys]
  split
  · exact h
  · rename_i hk
    rw [List.nodup_append]
    refine ⟨h, by simp, ?_⟩
    intro a ha b hb hab
    simp at hb
    subst hb
    subst hab
    exact hk ha

/-- The key and the entry an item leads to. -/
def Item.keyed (M : Module) (c : Cls) : Item → Except Err (Option Str × Entry)
  | .method m => .ok (some m.name, .method m)
  | .function d =>
    match adopt M c d.make with
    | .error e => .error e
    | .ok f => .ok (d.make.customName, .function f)

theorem addItem_keyed {M : Module} {c : Cls} {t t' : Table} {i : Item} (h : addItem M c t i = .ok t') :
    ∃ k e, i.keyed M c = .ok (k, e) ∧ t' = enter k e t := by
  cases i with
  | method m => cases h; exact ⟨_, _, rfl, rfl⟩
  | function d =>
    unfold addItem at h
    unfold Item.keyed
    dsimp only at h ⊢
    cases ha : adopt M c d.make with
    | error e => rw [ha] at h; cases h
    | ok f => rw [ha] at h; cases h; exact ⟨_, _, rfl, rfl⟩

/-- The entries under a key that a list of items leads to. -/
def under (M : Module) (c : Cls) (k : Option Str) (items : List Item) : List Entry :=
  items.filterMap fun i =>
    match i.keyed M c with
    | .ok (k', e) => if k' = k then some e else none
    | .error _ => none

theorem addAll_get {M : Module} {c : Cls} {k : Option Str} : ∀ {items : List Item} {t t' : Table},
    addAll M c t items = .ok t' → (t.map (·.1)).Nodup →
      get t' k = get t k ++ under M c k items ∧ (t'.map (·.1)).Nodup ∧ ∀ i ∈ items, ∃ x, i.keyed M c = .ok x
  | [], t, t', h, hn => by cases h; exact ⟨by simp [under], hn, by simp⟩
  | i :: is, t, t', h, hn => by
    unfold addAll at h
    cases ha : addItem M c t i with
    | error e => rw [ha] at h; cases h
    | ok t1 =>
      rw [ha] at h
      obtain ⟨k1, e, hk, rfl⟩ := addItem_keyed ha
      obtain ⟨h1, h2, h3⟩ := addAll_get (k := k) h (enter_nodup hn)
      refine ⟨?_, h2, ?_⟩
      · rw [h1, get_enter]
        have hu : under M c k (i :: is) = (if k1 = k then [e] else []) ++ under M c k is := by
          by_cases hkk : k1 = k <;> simp [under, hk, hkk]
        rw [hu]
        split <;> simp
      · intro j hj
        rcases List.mem_cons.1 hj with rfl | hj
        · exact ⟨_, hk⟩
        · exact h3 j hj

/-! ## Proofs: the generated code -/

theorem convertAll_parsed (structOf : Nat → Str) (self : Option Str) : ∀ ps : List Param, (∀ p ∈ ps, p.fromSelf = false) →
    convertAll structOf self ps = .ok (ps.map (fun p => .parsed p.ctype))
  | [], _ => rfl
  | p :: ps, h => by
    have hp : convert structOf self p = .ok (.parsed p.ctype) := by
      have hf : p.fromSelf = false := h p (by simp)
      unfold convert
      split <;> simp [hf]
    simp only [convertAll, hp, convertAll_parsed structOf self ps (fun q hq => h q (by simp [hq])), List.map_cons]

theorem bind_parsed {O A : Type} (accepts : Str → A → Bool) (o : O) : ∀ (ps : List Param) (as : List A),
    Fit accepts ps as → bind accepts o (ps.map (fun p => .parsed p.ctype)) as = some (as.map .arg)
  | [], _, h => by cases h; rfl
  | p :: ps, _, h => by
    cases h with
    | cons h1 h2 => simp [bind, h1, bind_parsed accepts o ps _ h2]

theorem bind_unfit {O A : Type} (accepts : Str → A → Bool) (o : O) : ∀ (ps : List Param) (as : List A),
    ¬ Fit accepts ps as → bind accepts o (ps.map (fun p => .parsed p.ctype)) as = none
  | [], [], h => absurd List.Forall₂.nil h
  | [], _ :: _, _ => rfl
  | p :: ps, [], _ => rfl
  | p :: ps, a :: as, h => by
    simp only [List.map_cons, bind]
    by_cases ha : accepts p.ctype a = true
    · rw [if_pos ha, bind_unfit accepts o ps as (fun hf => h (List.Forall₂.cons ha hf))]
      rfl
    · rw [if_neg ha]

/-- What `adopt` does to a declaration that nothing marks yet. -/
theorem adopt_spec {M : Module} {c : Cls} {d : Decl} {f : Fn} (h : adopt M c d.make = .ok f) :
    ∃ p ps form, d.params = p :: ps ∧ p.cls = some (c.id, form) ∧ f.params = { p with fromSelf := true } :: ps ∧
      f.selfStruct = some c.pystruct ∧ f.callee = written M d ∧ f.base = some (symbol M.pre d.make.mangled) := by
  unfold adopt at h
  have hp : d.make.params = d.params := rfl
  rw [hp] at h
  cases hd : d.params with
  | nil => rw [hd] at h; cases h
  | cons p ps =>
    rw [hd] at h
    dsimp only at h
    cases hc : p.cls with
    | none => rw [hc] at h; cases h
    | some x =>
      obtain ⟨k, form⟩ := x
      rw [hc] at h
      dsimp only at h
      by_cases hk : k = c.id
      · rw [if_neg (fun hn => hn hk)] at h
        subst hk
        cases h
        exact ⟨p, ps, form, rfl, hc, by simp [hc], rfl, rfl, rfl⟩
      · rw [if_pos hk] at h; cases h

/-- The wrapper of a function added to the class. -/
theorem function_wrapper {M : Module} {c : Cls} {d : Decl} {f : Fn} {structOf : Nat → Str} {w : Wrapper}
    (ha : adopt M c d.make = .ok f) (hs : structOf c.id = c.pystruct) (hplain : (Item.function d).Plain)
    (hw : (Entry.function f).wrapper structOf c = .ok w) :
    w.self = some c.pystruct ∧ w.target = .function (written M d) ∧
      w.args = .object c.pystruct (!d.byAddress) :: d.params.tail.map (fun p => .parsed p.ctype) := by
  obtain ⟨p, ps, form, hd, hc, hf, hself, hcal, -⟩ := adopt_spec ha
  have hps : ∀ q ∈ ps, q.fromSelf = false := fun q hq => hplain q (by rw [hd]; simp [hq])
  unfold Entry.wrapper at hw
  dsimp only at hw
  rw [hf, hself, hcal] at hw
  unfold convertAll at hw
  rw [convertAll_parsed _ _ ps hps] at hw
  have hb : d.byAddress = (decide (form = Form.pointer)) := by
    unfold Decl.byAddress
    rw [hd]
    obtain ⟨ct, cl, fs⟩ := p
    dsimp only at hc
    subst hc
    cases form <;> rfl
  rw [hb, hd]
  cases form <;> simp [convert, hc, hs] at hw <;> subst hw <;> simp

theorem method_wrapper {c : Cls} {m : Method} {structOf : Nat → Str} {w : Wrapper} (hplain : (Item.method m).Plain)
    (hw : (Entry.method m).wrapper structOf c = .ok w) : w.args = m.params.map (fun p => .parsed p.ctype) := by
  unfold Entry.wrapper at hw
  dsimp only at hw
  rw [convertAll_parsed _ _ _ hplain] at hw
  cases hw
  rfl

theorem overload_mem (base : Str) (ws : List Wrapper) : ({ name := base, tries := ws } : CFun) ∈ overload base ws := by
  unfold overload
  split <;> simp

/-- The C name under which an entry is found. -/
def baseOf (es : List Entry) : Str := (es.head?.map Entry.base).getD []

theorem generate_row {structOf : Nat → Str} {c : Cls} {n : Str} (hsp : special (some n) = false) (hnone : n ≠ "None".toList) :
    ∀ {t : Table} {g : Code}, generate structOf c t = .ok g → (t.map (·.1)).Nodup → get t (some n) ≠ [] →
      g.rows.find? (fun r => r.name = n) = some { name := n, cname := baseOf (get t (some n)) } ∧
      ∃ ws, wrappers structOf c (get t (some n)) = .ok ws ∧
        ({ name := baseOf (get t (some n)), tries := ws } : CFun) ∈ g.funs
  | [], g, _, _, hne => absurd rfl hne
  | (k, es) :: t, g, h, hn, hne => by
    unfold generate at h
    cases hw : wrappers structOf c es with
    | error e => rw [hw] at h; cases h
    | ok ws =>
      rw [hw] at h
      cases hg : generate structOf c t with
      | error e => rw [hg] at h; cases h
      | ok r =>
        rw [hg] at h
        cases h
        by_cases hk : k = some n
        · subst hk
          have hget : get ((some n, es) :: t) (some n) = es := by simp [get]
          rw [hget]
          refine ⟨?_, ws, hw, ?_⟩
          · simp [hsp, keyText, baseOf]
          · exact List.mem_append.2 (Or.inl (overload_mem _ _))
        · have hget : get ((k, es) :: t) (some n) = get t (some n) := by simp [get, hk]
          rw [hget] at hne ⊢
          obtain ⟨h1, ws', h2, h3⟩ := generate_row hsp hnone hg (List.nodup_cons.1 hn).2 hne
          refine ⟨?_, ws', h2, List.mem_append.2 (Or.inr h3)⟩
          have hkt : keyText k ≠ n := by
            cases k with
            | none => exact fun h => hnone h.symm
            | some m => exact fun h => hk (by rw [← h]; rfl)
          by_cases hs : special k = true
          · simp only [hs, if_true, List.nil_append]; exact h1
          · simp only [Bool.not_eq_true] at hs
            simp [hs, hkt, h1]

theorem link_unique {funs : List CFun} {g : CFun} (hn : (funs.map (·.name)).Nodup) (hg : g ∈ funs) :
    link funs g.name = some g := by
  have h : funs.filter (fun x => decide (x.name = g.name)) = [g] := by
    induction funs with
    | nil => cases hg
    | cons a l ih =>
      have hn' := List.nodup_cons.1 hn
      rcases List.mem_cons.1 hg with rfl | hg
      · have hl : l.filter (fun x => decide (x.name = g.name)) = [] := by
          rw [List.filter_eq_nil_iff]
          intro x hx hxe
          exact hn'.1 (List.mem_map.2 ⟨x, hx, of_decide_eq_true hxe⟩)
        simp [hl]
      · have ha : a.name ≠ g.name := fun he => hn'.1 (List.mem_map.2 ⟨g, hg, he.symm⟩)
        simp [ha, ih hn'.2 hg]
  unfold link
  rw [h]

/-- Walking along the entries under `n`. -/
theorem tryAll_entries {O A : Type} {accepts : Str → A → Bool} {o : O} {as : List A} {M : Module} {c : Cls}
    {structOf : Nat → Str} {n : Str} {d : Decl} {v : Outcome O A} {ws2 : List Wrapper}
    (hs : structOf c.id = c.pystruct) (h2 : tryAll accepts o as ws2 = v) :
    ∀ (pre : List Item) (ws1 : List Wrapper), (∀ i ∈ pre, i.Plain) → (∀ i ∈ pre, i.pyName = n → ¬ i.Fits accepts as) →
      wrappers structOf c (under M c (some n) pre) = .ok ws1 → tryAll accepts o as (ws1 ++ ws2) = v
  | [], ws1, _, _, hw => by
    have : ws1 = [] := by cases hw; rfl
    subst this; exact h2
  | i :: pre, ws1, hp, hf, hw => by
    have hp' : ∀ j ∈ pre, j.Plain := fun j hj => hp j (by simp [hj])
    have hf' : ∀ j ∈ pre, j.pyName = n → ¬ j.Fits accepts as := fun j hj => hf j (by simp [hj])
    cases hk : i.keyed M c with
    | error e =>
      have hu : under M c (some n) (i :: pre) = under M c (some n) pre := by simp [under, hk]
      rw [hu] at hw
      exact tryAll_entries (n := n) (d := d) hs h2 pre ws1 hp' hf' hw
    | ok x =>
      obtain ⟨k, e⟩ := x
      by_cases hkn : k = some n
      · subst hkn
        have hu : under M c (some n) (i :: pre) = e :: under M c (some n) pre := by simp [under, hk]
        rw [hu] at hw
        unfold wrappers at hw
        cases hwe : e.wrapper structOf c with
        | error x => rw [hwe] at hw; cases hw
        | ok w =>
          rw [hwe] at hw
          dsimp only at hw
          cases hwr : wrappers structOf c (under M c (some n) pre) with
          | error x => rw [hwr] at hw; cases hw
          | ok ws =>
            rw [hwr] at hw
            cases hw
            have ih := tryAll_entries (n := n) (d := d) hs h2 pre ws hp' hf' hwr
            have hnone : bind accepts o w.args as = none := by
              cases i with
              | method m =>
                cases hk
                rw [method_wrapper (hp _ (by simp)) hwe]
                exact bind_unfit _ _ _ _ (hf (.method m) (by simp) rfl)
              | function d' =>
                unfold Item.keyed at hk
                dsimp only at hk
                cases ha : adopt M c d'.make with
                | error x => rw [ha] at hk; cases hk
                | ok f =>
                  rw [ha] at hk
                  have hcn : d'.make.customName = some n := congrArg Prod.fst (Except.ok.inj hk)
                  have he : e = .function f := (congrArg Prod.snd (Except.ok.inj hk)).symm
                  subst he
                  rw [(function_wrapper ha hs (hp _ (by simp)) hwe).2.2]
                  have hname : (Item.function d').pyName = n := by
                    unfold Fn.customName at hcn
                    split at hcn
                    · rename_i hne
                      have := Option.some.inj hcn
                      rw [← this]
                      simp only [Item.pyName, Decl.make]
                      cases d'.customName <;> rfl
                    · cases hcn
                  have := bind_unfit accepts o d'.params.tail as (hf (.function d') (by simp) hname)
                  simp only [bind, this, Option.map_none]
            show tryAll accepts o as (w :: (ws ++ ws2)) = v
            unfold tryAll
            rw [hnone]
            exact ih
      · have hu : under M c (some n) (i :: pre) = under M c (some n) pre := by simp [under, hk, hkn]
        rw [hu] at hw
        exact tryAll_entries (n := n) (d := d) hs h2 pre ws1 hp' hf' hw

theorem wrappers_append {structOf : Nat → Str} {c : Cls} : ∀ {es es' : List Entry} {ws : List Wrapper},
    wrappers structOf c (es ++ es') = .ok ws →
      ∃ a b, wrappers structOf c es = .ok a ∧ wrappers structOf c es' = .ok b ∧ ws = a ++ b
  | [], es', ws, h => ⟨[], ws, rfl, h, rfl⟩
  | e :: es, es', ws, h => by
    rw [List.cons_append] at h
    unfold wrappers at h
    cases hw : e.wrapper structOf c with
    | error x => rw [hw] at h; cases h
    | ok w =>
      rw [hw] at h
      dsimp only at h
      cases hr : wrappers structOf c (es ++ es') with
      | error x => rw [hr] at h; cases h
      | ok r =>
        rw [hr] at h
        cases h
        obtain ⟨a, b, ha, hb, rfl⟩ := wrappers_append hr
        exact ⟨w :: a, b, by simp [wrappers, hw, ha], hb, rfl⟩

theorem customName_of {d : Decl} {n : Str} (hc : d.customName = some n) (hn : n ≠ Utils.getMangledName d.name d.targs) :
    d.make.customName = some n := by
  have hm : d.make.mangled = n := by simp [Decl.make, hc]
  unfold Fn.customName
  rw [hm]
  exact if_pos hn

theorem under_append (M : Module) (c : Cls) (k : Option Str) (a b : List Item) :
    under M c k (a ++ b) = under M c k a ++ under M c k b := by simp [under, List.filterMap_append]

/-! ## Properties -/

/-- **C126, calling.**  Functions and methods are added to a class in any order, and the class is generated.  A function
given a Python name of its own, `n`, can be called as `o.n(...)`: if the arguments fit its parameters after the first,
and no item added before it under that name fits them, the C++ function is called, with the object `o` (or its
address, as its first parameter says) and then the arguments in order.  The C names of the output have to differ from
each other (`C126_two_classes_counterexample`). -/
theorem C126_called_partial {O A : Type} (accepts : Str → A → Bool) (M : Module) (c : Cls) (structOf : Nat → Str)
    (hs : structOf c.id = c.pystruct) (before after : List Item) (d : Decl) (n : Str) (t : Table) (g : Code) (others : List CFun)
    (o : O) (as : List A)
    (hadd : addAll M c [] (before ++ .function d :: after) = .ok t) (hgen : generate structOf c t = .ok g)
    (hplain : ∀ i ∈ before ++ .function d :: after, i.Plain)
    (hcustom : d.customName = some n) (hown : n ≠ Utils.getMangledName d.name d.targs)
    (hspecial : special (some n) = false) (hnone : n ≠ "None".toList)
    (hdistinct : ((others ++ g.funs).map (·.name)).Nodup)
    (hfit : (Item.function d).Fits accepts as) (hfirst : ∀ i ∈ before, i.pyName = n → ¬ i.Fits accepts as) :
    call accepts (others ++ g.funs) g.rows n o as =
      .calls (.function (written M d)) (.object o c.pystruct (!d.byAddress) :: as.map .arg) := by
  obtain ⟨hget, hnd, hok⟩ := addAll_get (k := some n) hadd (by simp)
  have hget' : get t (some n) = under M c (some n) (before ++ .function d :: after) := by rw [hget]; simp [get]
  obtain ⟨⟨k, e⟩, hk⟩ := hok (.function d) (by simp)
  have hk' := hk
  unfold Item.keyed at hk
  dsimp only at hk
  cases ha : adopt M c d.make with
  | error x => rw [ha] at hk; cases hk
  | ok f =>
    rw [ha, customName_of hcustom hown] at hk
    cases hk
    have hu : under M c (some n) (.function d :: after) = .function f :: under M c (some n) after := by
      have : (Item.function d).keyed M c = .ok (some n, .function f) := by
        unfold Item.keyed; dsimp only; rw [ha, customName_of hcustom hown]
      simp [under, List.filterMap_cons, this]
    rw [under_append, hu] at hget'
    obtain ⟨hrow, ws, hw, hmem⟩ := generate_row hspecial hnone hgen hnd (by rw [hget']; simp)
    unfold call
    rw [hrow]
    dsimp only
    rw [link_unique (g := ({ name := baseOf (get t (some n)), tries := ws } : CFun)) hdistinct
      (List.mem_append.2 (Or.inr hmem))]
    dsimp only
    rw [hget'] at hw
    obtain ⟨ws1, ws2, h1, h2, rfl⟩ := wrappers_append hw
    refine tryAll_entries (n := n) (d := d) hs ?_ before ws1 (fun i hi => hplain i (by simp [hi])) hfirst h1
    unfold wrappers at h2
    cases hwf : (Entry.function f).wrapper structOf c with
    | error x => rw [hwf] at h2; cases h2
    | ok w =>
      rw [hwf] at h2
      dsimp only at h2
      cases hr : wrappers structOf c (under M c (some n) after) with
      | error x => rw [hr] at h2; cases h2
      | ok r =>
        rw [hr] at h2
        cases h2
        obtain ⟨-, htar, hargs⟩ := function_wrapper ha hs (hplain (.function d) (by simp)) hwf
        unfold tryAll
        rw [hargs, htar]
        have := bind_parsed accepts o d.params.tail as hfit
        simp only [bind, this, Option.map_some]

/-- **C126, derived classes.**  On an instance of a derived class, along whose ancestors no class before this one has
a method of that name, the call does the same. -/
theorem C126_inherited_partial {O A : Type} (accepts : Str → A → Bool) (funs : List CFun) (rows : List Row) (n : Str) (o : O)
    (as : List A) (r : Row) (hr : r ∈ rows) (hn : r.name = n) : ∀ (before after : List (List Row)),
    (∀ t ∈ before, ∀ r ∈ t, r.name ≠ n) →
      callAlong accepts funs (before ++ rows :: after) n o as = call accepts funs rows n o as
  | [], after, _ => by
    have : rows.any (fun x => decide (x.name = n)) = true := List.any_eq_true.2 ⟨r, hr, by simp [hn]⟩
    simp [callAlong, this]
  | b :: bs, after, h => by
    have hb : b.any (fun x => decide (x.name = n)) = false := by
      rw [List.any_eq_false]
      intro x hx hd
      exact h b (by simp) x hx (of_decide_eq_true hd)
    show callAlong accepts funs (b :: (bs ++ rows :: after)) n o as = _
    unfold callAlong
    rw [hb]
    exact C126_inherited_partial accepts funs rows n o as r hr hn bs after (fun t ht => h t (by simp [ht]))

/-- **C126, what is refused.**  A function is accepted exactly if its first parameter is of this very class. -/
theorem C126_accepted (M : Module) (c : Cls) (t : Table) (d : Decl) :
    (∃ t', addItem M c t (.function d) = .ok t') ↔ ∃ p ps form, d.params = p :: ps ∧ p.cls = some (c.id, form) := by
  constructor
  · rintro ⟨t', h⟩
    obtain ⟨k, e, hk, -⟩ := addItem_keyed h
    unfold Item.keyed at hk
    dsimp only at hk
    cases ha : adopt M c d.make with
    | error x => rw [ha] at hk; cases hk
    | ok f =>
      obtain ⟨p, ps, form, h1, h2, -⟩ := adopt_spec ha
      exact ⟨p, ps, form, h1, h2⟩
  · rintro ⟨p, ps, form, h1, h2⟩
    have ha : ∃ f, adopt M c d.make = .ok f := by
      unfold adopt
      have hp : d.make.params = d.params := rfl
      rw [hp, h1]
      dsimp only
      rw [h2]
      dsimp only
      rw [if_neg (fun hn => hn rfl)]
      exact ⟨_, rfl⟩
    obtain ⟨f, ha⟩ := ha
    simp only [addItem, ha]
    exact ⟨_, rfl⟩

/-- **C126 fails without a name of its own.**  A function added without a custom name, or with its own name as custom
name, cannot be called under that name: its entry in the method table is called `None`, because the getter of
`custom_name` (function.py:99-103) is what names it (cppclass.py:1438). -/
theorem C126_unnamed_counterexample {O A : Type} (accepts : Str → A → Bool) (M : Module) (c : Cls) (structOf : Nat → Str)
    (d : Decl) (t : Table) (g : Code) (funs : List CFun) (o : O) (as : List A)
    (hname : d.customName = none ∨ d.customName = some (Utils.getMangledName d.name d.targs))
    (hnone : (Item.function d).pyName ≠ "None".toList)
    (hadd : addAll M c [] [.function d] = .ok t) (hgen : generate structOf c t = .ok g) :
    call accepts funs g.rows (Item.function d).pyName o as = .attributeError ∧ g.rows.map (·.name) = ["None".toList] := by
  have hcn : d.make.customName = none := by
    unfold Fn.customName
    rw [if_neg]
    intro h
    apply h
    rcases hname with h1 | h1 <;> simp [Decl.make, h1]
  unfold addAll addItem at hadd
  dsimp only at hadd
  cases ha : adopt M c d.make with
  | error x => rw [ha] at hadd; cases hadd
  | ok f =>
    rw [ha, hcn] at hadd
    cases hadd
    unfold generate at hgen
    dsimp only [enter] at hgen
    cases hw : wrappers structOf c [.function f] with
    | error x => rw [hw] at hgen; cases hgen
    | ok ws =>
      rw [hw] at hgen
      dsimp only [generate] at hgen
      cases hgen
      refine ⟨?_, rfl⟩
      have hf : ∀ b : Str, List.find? (fun r : Row => decide (r.name = (Item.function d).pyName))
          [{ name := "None".toList, cname := b }] = none := by
        intro b
        rw [List.find?_eq_none]
        intro r hr
        rw [List.mem_singleton.1 hr]
        exact fun h => hnone (of_decide_eq_true h).symm
      unfold call
      have hf' := hf ((([Entry.function f].head?).map Entry.base).getD [])
      exact (congrArg (fun x : Option Row => match x with
        | none => (Outcome.attributeError : Outcome O A)
        | some r => match link funs r.cname with
          | none => .attributeError
          | some g => tryAll accepts o as g.tries) hf')

/-- **C126 fails for two classes.**  Functions added under the same name to two classes of a module get the same C
name, which names the module and the method but not the class (function.py:175-176): the method tables cannot refer to
either. -/
theorem C126_two_classes_counterexample (M : Module) (c c' : Cls) (structOf : Nat → Str) (d d' : Decl) (n : Str)
    (t t' : Table) (g g' : Code) (hc : d.customName = some n) (hc' : d'.customName = some n)
    (hspecial : special d.make.customName = false)
    (hadd : addAll M c [] [.function d] = .ok t) (hadd' : addAll M c' [] [.function d'] = .ok t')
    (hgen : generate structOf c t = .ok g) (hgen' : generate structOf c' t' = .ok g') :
    compiles (g.funs ++ g'.funs) (g.rows ++ g'.rows) = false := by
  have key : ∀ (c : Cls) (d : Decl) (t : Table) (g : Code), d.customName = some n → addAll M c [] [.function d] = .ok t →
      generate structOf c t = .ok g → ∃ w, g.funs = [{ name := symbol M.pre n, tries := [w] }] ∧
        g.rows = if special d.make.customName then [] else [{ name := keyText d.make.customName, cname := symbol M.pre n }] := by
    intro c d t g hc hadd hgen
    unfold addAll addItem at hadd
    dsimp only at hadd
    cases ha : adopt M c d.make with
    | error x => rw [ha] at hadd; cases hadd
    | ok f =>
      rw [ha] at hadd
      cases hadd
      obtain ⟨-, -, -, -, -, -, -, -, hb⟩ := adopt_spec ha
      have hm : d.make.mangled = n := by simp [Decl.make, hc]
      rw [hm] at hb
      unfold generate at hgen
      dsimp only [enter] at hgen
      unfold wrappers at hgen
      cases hw : (Entry.function f).wrapper structOf c with
      | error x => rw [hw] at hgen; cases hgen
      | ok w =>
        rw [hw] at hgen
        dsimp only [wrappers, generate] at hgen
        cases hgen
        exact ⟨w, by simp [overload, Entry.base, hb], by simp [Entry.base, hb]⟩
  obtain ⟨w, h1, h2⟩ := key c d t g hc hadd hgen
  obtain ⟨w', h1', -⟩ := key c' d' t' g' hc' hadd' hgen'
  rw [hspecial] at h2
  unfold compiles
  rw [h1, h1', h2]
  simp [link]

/-- **C126 fails for classes with several bases.**  The copy such a class makes of a function it inherits as a method
is a wrapper that uses `self` without declaring it: `clone` (function.py:112-128) drops what
`add_function_as_method` had set. -/
theorem C126_several_bases_counterexample (M : Module) (c derived : Cls) (structOf : Nat → Str) (d : Decl) (f : Fn) (w : Wrapper)
    (ha : adopt M c d.make = .ok f) (hw : (Entry.function f.clone).wrapper structOf derived = .ok w) :
    w.compiles = false := by
  obtain ⟨p, ps, form, hd, hc, hf, -⟩ := adopt_spec ha
  unfold Entry.wrapper at hw
  dsimp only at hw
  have h1 : f.clone.params = { p with fromSelf := true } :: ps := hf
  have h2 : f.clone.selfStruct = none := rfl
  rw [h1, h2] at hw
  unfold convertAll at hw
  cases hr : convertAll structOf none ps with
  | error x => rw [hr] at hw; cases form <;> simp [convert, hc] at hw
  | ok r =>
    rw [hr] at hw
    cases form <;> simp [convert, hc] at hw <;> subst hw <;> simp [Wrapper.compiles]

/-- ... and it calls the function without its namespace and template arguments. -/
theorem C126_copied_callee_counterexample :
    ∃ (M : Module) (c : Cls) (d : Decl) (f : Fn), adopt M c d.make = .ok f ∧ f.clone.callee ≠ written M d :=
  ⟨{ pre := "m".toList }, { id := 0, pystruct := "PyC".toList },
   { name := "f".toList, ns := "a".toList, customName := some "g".toList, params := [{ ctype := "C &".toList, cls := some (0, .reference) }] },
   _, rfl, by decide +kernel⟩

/-! ## Non-vacuity -/

def exClass : Cls := { id := 0, pystruct := "PyC".toList }
def exMod : Module := { pre := "m".toList, ns := "lib".toList }
def exSelf (f : Form) : Param := { ctype := "C".toList, cls := some (0, f) }
def exInt : Param := { ctype := "int".toList }

def exDecl : Decl :=
  { name := "c_get".toList, targs := ["int".toList], customName := some "get".toList, params := [exSelf .pointer, exInt, exInt] }

def exItems : List Item :=
  [.method { label := 7, name := "get".toList, base := "_wrap_PyC_get".toList, params := [exInt] },
   .method { label := 8, name := "put".toList, base := "_wrap_PyC_put".toList, params := [] },
   .function exDecl, .function { name := "c_len".toList, customName := some "size".toList, params := [exSelf .reference] }]

instance : (i : Item) → Decidable i.Plain
  | .method m => inferInstanceAs (Decidable (∀ p ∈ m.params, p.fromSelf = false))
  | .function d => inferInstanceAs (Decidable (∀ p ∈ d.params, p.fromSelf = false))

def exAccepts (_ : Str) (a : Nat) : Bool := a < 10

/-- Method and function under one name: two arguments go to the function, one to the method, three to neither. -/
example : ∃ t g, addAll exMod exClass [] exItems = .ok t ∧ generate (fun _ => "PyC".toList) exClass t = .ok g ∧
    (∀ i ∈ exItems, i.Plain) ∧ (g.funs.map (·.name)).Nodup ∧ compiles g.funs g.rows = true ∧
    g.rows.map (·.name) = ["get", "put", "size"].map String.toList ∧
    call exAccepts g.funs g.rows "get".toList () [1, 2] =
      .calls (.function "lib::c_get< int >".toList) [.object () "PyC".toList false, .arg 1, .arg 2] ∧
    call exAccepts g.funs g.rows "get".toList () [1] = .calls (.method 7) [.arg 1] ∧
    call exAccepts g.funs g.rows "get".toList () [1, 2, 3] = .typeError ∧
    call exAccepts g.funs g.rows "size".toList () [] =
      .calls (.function "lib::c_len".toList) [.object () "PyC".toList true] ∧
    call exAccepts g.funs g.rows "c_get".toList () [1, 2] = .attributeError :=
  ⟨_, _, rfl, rfl, by decide +kernel⟩

/-- The same items without the custom names. -/
example : ∃ t g, addAll exMod exClass [] [.function { exDecl with customName := none }] = .ok t ∧
    generate (fun _ => "PyC".toList) exClass t = .ok g ∧ g.rows.map (·.name) = ["None".toList] :=
  ⟨_, _, rfl, rfl, by decide +kernel⟩

/-- Two classes, each with a function called `get`. -/
example : ∃ t g t' g', addAll exMod exClass [] [.function exDecl] = .ok t ∧ generate (fun _ => "PyC".toList) exClass t = .ok g ∧
    addAll exMod { id := 1, pystruct := "PyD".toList } []
      [.function { name := "d_get".toList, customName := some "get".toList, params := [{ ctype := "D".toList, cls := some (1, .value) }] }] = .ok t' ∧
    generate (fun _ => "PyD".toList) { id := 1, pystruct := "PyD".toList } t' = .ok g' ∧
    compiles g.funs g.rows = true ∧ compiles g'.funs g'.rows = true ∧ compiles (g.funs ++ g'.funs) (g.rows ++ g'.rows) = false :=
  ⟨_, _, _, _, rfl, rfl, rfl, rfl, by decide +kernel⟩

/-- A function that belongs to another class is refused. -/
example : addAll exMod exClass [] [.function { name := "f".toList, params := [exInt, exSelf .value] }] = .error .assertion := rfl

end Verif.FnMethods
