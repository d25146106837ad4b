import Verif.Parser.Members
import Verif.Parser.PygenRoundTrip
import Verif.Parser.AnnotationsProps

/-!
# C86: running the script registers what was registered while scanning

`scanClass` and `scanFunction` change the module in memory (`acts`) and write a script (`items`).  `replay` is what a
call in a script does: a type that cannot be resolved makes it skip the call, because scripts install an error handler
(castxmlparser.py:798-806), and a virtual method is then recorded as one that cannot be wrapped.
-/
namespace Verif.Scan
open Verif Verif.Pygen
open Verif.Annot (ODict)

/-- Changes of the module, in order. -/
def acts (evs : List Ev) : List Act := evs.filterMap (fun e => match e with
  | .act a => some a
  | _ => none)

/-- The lines of the script, in order. -/
def items (evs : List Ev) : List Item := evs.filterMap (fun e => match e with
  | .item i => some i
  | _ => none)

/-- What is warned about. -/
def warnings (evs : List Ev) : List Warn := evs.filterMap (fun e => match e with
  | .warn w => some w
  | _ => none)

/-- All parameters can be resolved. -/
def allPar (env : Env) (ps : List Spec) : Bool := ps.all (fun p => env.par p = .ok)

/-- `kwargs.get('is_virtual', False)`. -/
def isVirtual (kw : Kw) : Bool := kw.lookup "is_virtual".toList = some (.bool true)

/-- The call in a line: `add_method` (cppclass.py:1551-1573), `add_constructor` (1657-1663), attributes (1702-1715 and
1770-1784), operators (858-882 and similar), `add_function` (module.py:407-413), `add_function_as_method` (1581-1586),
`add_function_as_constructor` (1682-1687). -/
def replayLine (env : Env) (l : Line) : List Act :=
  match l with
  | .func true _ ret ps kw =>
    if env.ret ret = .ok ∧ allPar env ps = true then
      (if env.add l = .ok then [.reg l] else [])
    else if isVirtual kw then [.dummy l] else []
  | .func false _ ret ps _ => if env.ret ret = .ok ∧ allPar env ps = true then [.reg l] else []
  | .asMethod _ _ ret ps _ => if env.ret ret = .ok ∧ allPar env ps = true then [.reg l] else []
  | .asCtor _ _ ret ps => if env.ret ret = .ok ∧ allPar env ps = true then [.reg l] else []
  | .ctor ps _ => if allPar env ps = true then [.reg l] else []
  | .attr _ _ ret _ => if env.ret ret = .ok then [.reg l] else []
  | .binop _ _ _ r => if env.par r = .ok then [.reg l] else []
  | .inplace _ r => if env.par r = .ok then [.reg l] else []
  | _ => [.reg l]

/-- A line of the script. -/
def replay (env : Env) : Item → List Act
  | .line l => replayLine env l
  | .comment _ => []
  | .cannot _ => [.cannot]
  | .helperOff => [.helperOff]

/-- Running a script. -/
def run (env : Env) (is : List Item) : List Act := is.flatMap (replay env)

/-- Registrations, as opposed to marks about virtual methods that cannot be wrapped. -/
def isReg : Act → Bool
  | .reg _ => true
  | _ => false

/-! ## Projections -/

theorem acts_append (a b : List Ev) : acts (a ++ b) = acts a ++ acts b := List.filterMap_append
theorem items_append (a b : List Ev) : items (a ++ b) = items a ++ items b := List.filterMap_append
theorem run_append (env : Env) (a b : List Item) : run env (a ++ b) = run env a ++ run env b := List.flatMap_append

theorem acts_warns (l : List Warn) : acts (warns l) = [] := by
  induction l with
  | nil => rfl
  | cons a l ih => exact ih

theorem items_warns (l : List Warn) : items (warns l) = [] := by
  induction l with
  | nil => rfl
  | cons a l ih => exact ih

theorem acts_item (i : Item) (l : List Ev) : acts (.item i :: l) = acts l := rfl
theorem acts_act (a : Act) (l : List Ev) : acts (.act a :: l) = a :: acts l := rfl
theorem acts_warn (w : Warn) (l : List Ev) : acts (.warn w :: l) = acts l := rfl
theorem items_item (i : Item) (l : List Ev) : items (.item i :: l) = i :: items l := rfl
theorem items_act (a : Act) (l : List Ev) : items (.act a :: l) = items l := rfl
theorem items_warn (w : Warn) (l : List Ev) : items (.warn w :: l) = items l := rfl
theorem acts_nil : acts [] = [] := rfl
theorem items_nil : items [] = [] := rfl
theorem run_nil (env : Env) : run env [] = [] := rfl
theorem run_cons (env : Env) (i : Item) (l : List Item) : run env (i :: l) = replay env i ++ run env l := List.flatMap_cons

theorem comment_run {env : Env} {g : Anns} {c : List Ev} (h : comment g = .ok c) : acts c = [] ∧ run env (items c) = [] := by
  unfold comment at h
  split at h
  · cases h; exact ⟨rfl, rfl⟩
  · cases h
  · cases h; exact ⟨rfl, rfl⟩

theorem makeParams_iff {env : Env} {ps : List Spec} {r : Bool × List Warn} (h : makeParams env ps = .ok r) :
    r.1 = allPar env ps := by
  induction ps generalizing r with
  | nil => cases h; rfl
  | cons s l ih =>
    rw [makeParams] at h
    split at h
    · rename_i hs
      rw [ih h, allPar, allPar, List.all_cons, hs]
      simp
    · rename_i hs
      cases hm : makeParams env l with
      | error e => rw [hm] at h; cases h
      | ok q => rw [hm] at h; cases h; simp [allPar, hs]
    · cases h

theorem makeParams_warn {env : Env} {ps : List Spec} {r : Bool × List Warn} (h : makeParams env ps = .ok r)
    (hr : r.1 = false) : ∃ s, Warn.type s ∈ r.2 := by
  induction ps generalizing r with
  | nil => cases h; cases hr
  | cons s l ih =>
    rw [makeParams] at h
    split at h
    · exact ih h hr
    · cases hm : makeParams env l with
      | error e => rw [hm] at h; cases h
      | ok q => rw [hm] at h; cases h; exact ⟨s, List.mem_cons_self⟩
    · cases h

theorem makeParams'_iff {env : Env} {ps : List Spec} {r : Bool × List Warn} (h : makeParams' env ps = .ok r) :
    r.1 = allPar env ps := by
  induction ps generalizing r with
  | nil => cases h; rfl
  | cons s l ih =>
    rw [makeParams'] at h
    split at h
    · rename_i hs
      rw [ih h, allPar, allPar, List.all_cons, hs]
      simp
    · rename_i hs
      cases h
      simp [allPar, hs]
    · cases h

/-- A result made in two steps. -/
theorem bind_ok {α β : Type} {x : PyRes α} {f : α → PyRes β} {b : β} (h : x.bind f = .ok b) :
    ∃ a, x = .ok a ∧ f a = .ok b := by
  cases x with
  | error e => cases h
  | ok a => exact ⟨a, rfl, h⟩

theorem map_ok {α β : Type} {x : PyRes α} {f : α → β} {b : β} (h : x.map f = .ok b) : ∃ a, x = .ok a ∧ f a = b := by
  cases x with
  | error e => cases h
  | ok a => exact ⟨a, rfl, Except.ok.inj h⟩

/-! ## Methods -/

/-- The marks a method leaves in memory, and the ones running its line leaves. -/
structure Marks (mem scr : List Act) : Prop where
  mem : ∀ a ∈ mem, isReg a = false
  scr : ∀ a ∈ scr, isReg a = false

theorem filter_marks {l : List Act} (h : ∀ a ∈ l, isReg a = false) : l.filter isReg = [] := by
  rw [List.filter_eq_nil_iff]
  intro a ha
  simp [h a ha]

/-- Registering a method: either the line does the same, or the types cannot be resolved and both sides only have
marks. -/
theorem addMethod_cases {env : Env} {d : MethodDecl} {name : Str} {ret : Spec} {ps : List Spec} {kw : Kw} {evs : List Ev}
    (h : addMethod env d name ret ps kw = .ok evs) :
    (env.ret ret = .ok ∧ allPar env ps = true ∧
      replayLine env (.func true name ret ps kw) ++ run env (items evs) = acts evs) ∨
    ((∃ s, Ev.warn (.type s) ∈ evs) ∧ items evs = [] ∧
      acts evs = (if d.virt = .pure then [.cannot, .helperOff] else []) ∧
      replayLine env (.func true name ret ps kw) = (if isVirtual kw then [.dummy (.func true name ret ps kw)] else [])) := by
  unfold addMethod at h
  simp only at h
  split at h
  · cases h
  · rename_i hr
    cases h
    right
    refine ⟨⟨ret, List.mem_cons_self⟩, ?_, ?_, ?_⟩
    · rw [items_warn]; split <;> rfl
    · rw [acts_warn]; split <;> rfl
    · rw [replayLine, if_neg (by rw [hr]; simp)]
  · rename_i hr
    obtain ⟨r, hm, h⟩ := bind_ok h
    have hp := makeParams_iff hm
    split at h
    · rename_i h1
      rw [h1] at hp
      left
      refine ⟨hr, hp.symm, ?_⟩
      rw [replayLine, if_pos ⟨hr, hp.symm⟩]
      split at h
      · rename_i ha
        cases h
        rw [if_pos ha]; rfl
      · cases h
      · rename_i ha
        cases h
        rw [if_neg (by rw [ha]; simp)]
        split <;> rfl
    · rename_i h1
      have h1 : r.1 = false := by simpa using h1
      rw [h1] at hp
      cases h
      right
      obtain ⟨s, hs⟩ := makeParams_warn hm h1
      refine ⟨⟨s, List.mem_append_left _ (List.mem_map.mpr ⟨_, hs, rfl⟩)⟩, ?_, ?_, ?_⟩
      · rw [items_append, items_warns]; split <;> rfl
      · rw [acts_append, acts_warns]; split <;> rfl
      · rw [replayLine, if_neg (by rw [← hp]; simp)]

theorem lookup_get (kw : Kw) (k : Str) : kw.lookup k = ODict.get kw k := by
  induction kw with
  | nil => rfl
  | cons p l ih =>
    obtain ⟨a, b⟩ := p
    rw [List.lookup, ODict.get]
    by_cases h : a = k
    · rw [if_pos h, h, beq_self_eq_true]
    · rw [if_neg h]
      have : (k == a) = false := by simpa using fun e => h e.symm
      rw [this]; exact ih

theorem get_setAll_ne (k : Str) (l : List (Str × PyVal)) (hk : ∀ p ∈ l, p.1 ≠ k) (kw : Kw) :
    ODict.get (setAll kw l) k = ODict.get kw k := by
  induction l generalizing kw with
  | nil => rfl
  | cons p l ih =>
    rw [setAll, List.foldl_cons]
    rw [show l.foldl (fun d p => ODict.set d p.1 p.2) (ODict.set kw p.1 p.2) = setAll (ODict.set kw p.1 p.2) l from rfl]
    rw [ih (fun q hq => hk q (List.mem_cons_of_mem _ hq)), Annot.get_set, if_neg (hk p List.mem_cons_self)]

/-- A loop never sets a key that no step sets. -/
theorem get_loop_ne {step : Str → Option Str → PyRes Effect} {k : Str}
    (hs : ∀ n v e, step n v = .ok e → ∀ p ∈ e.1, p.1 ≠ k) {anns : Anns} {kw : Kw} {ws : List Warn} {r : Kw × List Warn}
    (h : loop step anns kw ws = .ok r) : ODict.get r.1 k = ODict.get kw k := by
  induction anns generalizing kw ws with
  | nil => cases h; rfl
  | cons a l ih =>
    obtain ⟨n, v⟩ := a
    rw [loop] at h
    obtain ⟨e, he, h⟩ := bind_ok h
    rw [ih h, get_setAll_ne k _ (hs n v e he)]

theorem assign_keys {k : Str} {v : PyRes PyVal} {e : Effect} (h : assign k v = .ok e) : ∀ p ∈ e.1, p.1 = k := by
  obtain ⟨w, _, rfl⟩ := map_ok h
  intro p hp
  rw [List.mem_singleton.mp hp]

/-- The keyword arguments set by annotations of a method. -/
theorem methodStep_keys {exc : Str → Option Str} {t : Bool} {n : Str} {v : Option Str} {e : Effect}
    (h : methodStep exc t n v = .ok e) :
    ∀ p ∈ e.1, p.1 ∈ [("unblock_threads".toList : Str), "custom_name".toList, "throw".toList] := by
  unfold methodStep at h
  split at h
  · cases h; intro p hp; cases hp
  split at h
  · cases h; intro p hp; cases hp
  split at h
  · rename_i hn
    intro p hp
    rw [assign_keys h p hp, hn]
    exact List.mem_cons_self
  split at h
  · cases h
    intro p hp
    rw [List.mem_singleton.mp hp]
    exact List.mem_cons_of_mem _ List.mem_cons_self
  split at h
  · rename_i hn
    intro p hp
    rw [assign_keys h p hp, hn]
    exact List.mem_cons_of_mem _ (List.mem_cons_of_mem _ List.mem_cons_self)
  · cases h; intro p hp; cases hp

theorem functionStep_keys {exc : Str → Option Str} {n : Str} {v : Option Str} {e : Effect}
    (h : functionStep exc n v = .ok e) : ∀ p ∈ e.1, p.1 ∈ [("unblock_threads".toList : Str), "throw".toList] := by
  unfold functionStep at h
  iterate 7
    split at h
    · cases h; intro p hp; cases hp
  split at h
  · rename_i hn
    intro p hp
    rw [assign_keys h p hp, hn]
    exact List.mem_cons_self
  split at h
  · rename_i hn
    intro p hp
    rw [assign_keys h p hp, hn]
    exact List.mem_cons_of_mem _ List.mem_cons_self
  · cases h; intro p hp; cases hp

theorem get_setIf (b : Bool) (kw : Kw) (k : String) (v : PyVal) (k' : Str) :
    ODict.get (setIf b kw k v) k' = if b = true ∧ k.toList = k' then some v else ODict.get kw k' := by
  unfold setIf
  cases b
  · simp
  · rw [if_pos rfl, Annot.get_set]; simp

theorem get_setThrow_ne (kw : Kw) (t : List (Str × Option Str)) (k : Str) (hk : "throw".toList ≠ k) :
    ODict.get (setThrow kw t) k = ODict.get kw k := by
  unfold setThrow
  split
  · rfl
  · rw [Annot.get_set, if_neg hk]

theorem get_setTemplate_ne (kw : Kw) (t : Option (List Str)) (k : Str) (hk : "template_parameters".toList ≠ k) :
    ODict.get (setTemplate kw t) k = ODict.get kw k := by
  unfold setTemplate
  split
  · rw [Annot.get_set, if_neg hk]
  · rfl

theorem get_setName_ne (kw : Kw) (n : String) (v : Option Str) (k : Str) (hk : n.toList ≠ k) :
    ODict.get (setName kw n v) k = ODict.get kw k := by
  unfold setName
  split
  · rw [Annot.get_set, if_neg hk]
  · rfl

/-- A method is registered as virtual exactly if it is. -/
theorem isVirtual_methodKw (d : MethodDecl) (custom : Option Str) (kw : Kw) (h : ODict.get kw "is_virtual".toList = none) :
    isVirtual (methodKw d custom kw) = (d.virt ≠ .no) := by
  have key : ODict.get (methodKw d custom kw) "is_virtual".toList = if d.virt ≠ .no then some (.bool true) else none := by
    have h' : ODict.get (setIf d.isStatic (setIf d.isConst kw "is_const" (.bool true)) "is_static" (.bool true))
        "is_virtual".toList = none := by
      rw [get_setIf, if_neg (by rintro ⟨_, h⟩; revert h; decide), get_setIf,
        if_neg (by rintro ⟨_, h⟩; revert h; decide), h]
    unfold methodKw
    simp only
    rw [get_setIf, if_neg (by rintro ⟨_, h⟩; revert h; decide), get_setIf, if_neg (by rintro ⟨_, h⟩; revert h; decide),
      get_setName_ne _ _ _ _ (by decide), get_setTemplate_ne _ _ _ (by decide), get_setIf,
      if_neg (by rintro ⟨_, h⟩; revert h; decide), get_setIf, h']
    simp
  rw [isVirtual, lookup_get, key]
  split <;> simp_all

end Verif.Scan
