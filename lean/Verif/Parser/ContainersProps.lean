import Verif.Parser.Containers
import Mathlib.Data.List.Nodup
import Mathlib.Data.List.Induction

/-!
# C121: containers used in headers are registered

Specification: the scan meets the types and the uses of containers of a namespace, then those of its namespaces
(`NSpace.events`).  A container wanted for a use must be registered once, after its elements, if these are registered.
-/
namespace Verif.Containers
open Verif Verif.Container

/-- What the scan meets. -/
inductive Ev where
  | type (c : Nat)
  | use (u : Use)
  deriving DecidableEq, Repr

/-- Types and uses of one namespace: a class brings the uses of its members and, as a place for nested classes, those of
the functions again. -/
def own (enums : List Nat) (funs : List Use) (classes : List (Nat × List Use)) : List Ev :=
  (enums ++ classes.map (·.1)).map .type ++ (funs ++ classes.flatMap (fun c => c.2 ++ funs)).map .use

mutual
def NSpace.events : NSpace → List Ev
  | .node enums funs classes kids => own enums funs classes ++ eventsAll kids
def eventsAll : List NSpace → List Ev
  | [] => []
  | n :: l => n.events ++ eventsAll l
end

/-- Containers that can be registered: of a supported kind, and named by a typedef unless anonymous ones are enabled. -/
def Wanted (anon : Bool) (u : Use) : Prop :=
  (anon = true ∨ '<' ∉ u.name) ∧ u.std ∉ [Std.multimap, .hashMap, .hashMultimap]

/-- The uses a list of events contains. -/
def usesOf (evs : List Ev) : List Use := evs.filterMap (fun e => match e with | .use u => some u | .type _ => none)

/-! ## The scan as a walk over the events -/

def evStep (anon : Bool) (s : St) : Ev → St
  | .type c => declare s c
  | .use u => register anon s u

theorem register_queue (anon : Bool) (s : St) (u : Use) (q : List Use) :
    register anon { s with queue := q } u = { register anon s u with queue := q } := by
  unfold register
  split
  · rfl
  · split
    · rfl
    · dsimp only
      split
      · rfl
      · split <;> rfl

theorem registers_queue (anon : Bool) (us : List Use) : ∀ (s : St) (q : List Use),
    us.foldl (register anon) { s with queue := q } = { us.foldl (register anon) s with queue := q } := by
  induction us with
  | nil => intro s q; rfl
  | cons u us ih =>
    intro s q
    rw [List.foldl_cons, List.foldl_cons, register_queue, ih]

theorem declares (cs : List Nat) : ∀ (s : St), cs.foldl declare s =
    { s with types := s.types ++ cs.map .cls, script := s.script ++ cs.map (fun c => (.cls c, [])) } := by
  induction cs with
  | nil => intro s; simp
  | cons c cs ih =>
    intro s
    rw [List.foldl_cons, ih]
    simp [declare]

theorem scanClasses (funs : List Use) (cs : List (Nat × List Use)) : ∀ (s : St), cs.foldl (scanClass funs) s =
    { (cs.map (·.1)).foldl declare s with queue := s.queue ++ cs.flatMap (fun c => c.2 ++ funs) } := by
  induction cs with
  | nil => intro s; simp
  | cons c cs ih =>
    intro s
    rw [List.foldl_cons, ih]
    simp [scanClass, declare, declares]

theorem foldl_use (anon : Bool) (us : List Use) : ∀ s, (us.map Ev.use).foldl (evStep anon) s = us.foldl (register anon) s := by
  induction us with
  | nil => intro s; rfl
  | cons u us ih => intro s; rw [List.map_cons, List.foldl_cons, List.foldl_cons, ih]; rfl

theorem foldl_type (anon : Bool) (cs : List Nat) : ∀ s, (cs.map Ev.type).foldl (evStep anon) s = cs.foldl declare s := by
  induction cs with
  | nil => intro s; rfl
  | cons u us ih => intro s; rw [List.map_cons, List.foldl_cons, List.foldl_cons, ih]; rfl

theorem queue_register (anon : Bool) (s : St) (u : Use) : (register anon s u).queue = s.queue := by
  unfold register
  split
  · rfl
  · split
    · rfl
    · dsimp only
      split
      · rfl
      · split <;> rfl

theorem queue_steps (anon : Bool) (evs : List Ev) : ∀ s, (evs.foldl (evStep anon) s).queue = s.queue := by
  induction evs with
  | nil => intro s; rfl
  | cons e evs ih =>
    intro s
    rw [List.foldl_cons, ih]
    cases e with
    | type c => rfl
    | use u => exact queue_register anon s u

theorem scanOwn_eq (anon : Bool) (enums funs classes) (s : St) (hs : s.queue = []) :
    scanOwn anon enums funs classes s = (own enums funs classes).foldl (evStep anon) s := by
  unfold scanOwn own
  rw [List.foldl_append, foldl_type, foldl_use]
  dsimp only
  have e1 : classes.foldl (scanClass funs) (enums.foldl declare { s with queue := s.queue ++ funs }) =
      { (enums ++ classes.map (·.1)).foldl declare s with queue := funs ++ classes.flatMap (fun c => c.2 ++ funs) } := by
    simp [scanClasses, declares, hs]
  rw [e1]
  have hrq : ((enums ++ classes.map (·.1)).foldl declare s).queue = [] := by
    rw [← foldl_type anon, queue_steps, hs]
  generalize funs ++ classes.flatMap (fun c => c.2 ++ funs) = us
  generalize (enums ++ classes.map (·.1)).foldl declare s = r at hrq
  rw [registers_queue]
  have h3 : (us.foldl (register anon) r).queue = [] := by
    rw [← foldl_use, queue_steps, hrq]
  generalize us.foldl (register anon) r = z at h3
  cases z
  cases h3
  rfl

mutual
theorem scan_eq (anon : Bool) : ∀ (n : NSpace) (s : St), s.queue = [] →
    n.scan anon s = n.events.foldl (evStep anon) s
  | .node enums funs classes kids, s, hs => by
    rw [NSpace.scan, NSpace.events, List.foldl_append, scanOwn_eq anon enums funs classes s hs]
    exact scanAll_eq anon kids _ (by rw [queue_steps, hs])
theorem scanAll_eq (anon : Bool) : ∀ (l : List NSpace) (s : St), s.queue = [] →
    scanAll anon l s = (eventsAll l).foldl (evStep anon) s
  | [], _, _ => by rw [scanAll, eventsAll]; rfl
  | n :: l, s, hs => by
    rw [scanAll, eventsAll, List.foldl_append, scan_eq anon n s hs]
    exact scanAll_eq anon l _ (by rw [queue_steps, hs])
end

def start : St := ⟨[], [], [], []⟩

def runEv (anon : Bool) (evs : List Ev) : St := evs.foldl (evStep anon) start

theorem scanTypes_eq (anon : Bool) (n : NSpace) : scanTypes anon n = runEv anon n.events := scan_eq anon n _ rfl

theorem runEv_snoc (anon : Bool) (evs : List Ev) (e : Ev) : runEv anon (evs ++ [e]) = evStep anon (runEv anon evs) e := by
  unfold runEv; rw [List.foldl_append]; rfl

/-! ## One registration -/

theorem containerType_none (k : Std) : containerType k = none ↔ k ∈ [Std.multimap, .hashMap, .hashMultimap] := by
  cases k with
  | kind k => cases k <;> simp [containerType]
  | _ => simp [containerType]

theorem register_cases (anon : Bool) (s : St) (u : Use) :
    ((¬ Wanted anon u ∨ u.name ∈ s.tried) ∧ register anon s u = s) ∨
    (Wanted anon u ∧ u.name ∉ s.tried ∧ (u.needs.all (known s.types)) = true ∧ register anon s u =
      { s with tried := s.tried ++ [u.name], script := s.script ++ [(.cont u.name, u.needs)],
               types := s.types ++ [.cont u.name] }) ∨
    (Wanted anon u ∧ u.name ∉ s.tried ∧ (u.needs.all (known s.types)) = false ∧ register anon s u =
      { s with tried := s.tried ++ [u.name], script := s.script ++ [(.cont u.name, u.needs)] }) := by
  unfold register
  by_cases h1 : (u.name.contains '<' && !anon) = true
  · rw [if_pos h1]
    refine .inl ⟨.inl ?_, rfl⟩
    rintro ⟨h, _⟩
    rw [Bool.and_eq_true, Bool.not_eq_true'] at h1
    rcases h with h | h
    · rw [h] at h1; exact absurd h1.2 (by decide)
    · exact h (List.contains_iff_mem.mp h1.1)
  · rw [if_neg h1]
    have hw1 : anon = true ∨ '<' ∉ u.name := by
      cases anon with
      | true => exact .inl rfl
      | false =>
        refine .inr fun h => h1 ?_
        rw [List.contains_iff_mem.mpr h]; rfl
    cases hct : containerType u.std with
    | none =>
      exact .inl ⟨.inl (fun h => h.2 ((containerType_none _).mp hct)), rfl⟩
    | some ct =>
      have hw : Wanted anon u := ⟨hw1, fun h => by rw [(containerType_none _).mpr h] at hct; cases hct⟩
      dsimp only
      by_cases h2 : s.tried.contains u.name = true
      · rw [if_pos h2]
        exact .inl ⟨.inr (List.contains_iff_mem.mp h2), rfl⟩
      · rw [if_neg h2]
        have h2' : u.name ∉ s.tried := fun h => h2 (List.contains_iff_mem.mpr h)
        by_cases h3 : (u.needs.all (known s.types)) = true
        · rw [if_pos h3]
          exact .inr (.inl ⟨hw, h2', h3, rfl⟩)
        · rw [if_neg h3]
          exact .inr (.inr ⟨hw, h2', by simpa using h3, rfl⟩)

/-- The containers in a list of types. -/
def conts (l : List Ty) : List Str := l.filterMap (fun t => match t with | .cont n => some n | _ => none)

theorem mem_conts {l : List Ty} {n : Str} : n ∈ conts l ↔ Ty.cont n ∈ l := by
  unfold conts
  rw [List.mem_filterMap]
  constructor
  · rintro ⟨t, ht, h⟩
    cases t with
    | cont m => rw [← Option.some.inj h]; exact ht
    | basic => cases h
    | cls c => cases h
  · intro h
    exact ⟨_, h, rfl⟩

theorem mem_usesOf {evs : List Ev} {u : Use} : u ∈ usesOf evs ↔ Ev.use u ∈ evs := by
  unfold usesOf
  rw [List.mem_filterMap]
  constructor
  · rintro ⟨e, he, h⟩
    cases e with
    | use v => rw [← Option.some.inj h]; exact he
    | type c => cases h
  · intro h
    exact ⟨_, h, rfl⟩

/-- Everything that holds after any events. -/
structure Inv (anon : Bool) (evs : List Ev) (s : St) : Prop where
  tried : ∀ n, n ∈ s.tried ↔ ∃ u, Ev.use u ∈ evs ∧ Wanted anon u ∧ u.name = n
  classes : ∀ c, Ty.cls c ∈ s.types ↔ Ev.type c ∈ evs
  sub : ∀ n, Ty.cont n ∈ s.types → n ∈ s.tried
  nodup : (conts s.types).Nodup
  order : ∀ pre n post, s.types = pre ++ .cont n :: post →
    ∃ u, Ev.use u ∈ evs ∧ Wanted anon u ∧ u.name = n ∧ ∀ t ∈ u.needs, known pre t = true
  lines : ∀ n, n ∈ s.tried ↔ Ty.cont n ∈ s.script.map (·.1)

theorem order_snoc {l : List Ty} {x : Ty} {P : List Ty → Str → Prop}
    (h : ∀ pre n post, l = pre ++ .cont n :: post → P pre n) (hx : ∀ n, x = .cont n → P l n) :
    ∀ pre n post, l ++ [x] = pre ++ .cont n :: post → P pre n := by
  intro pre n post e
  rcases List.eq_nil_or_concat post with rfl | ⟨post', y, rfl⟩
  · have := List.append_inj' e (by simp)
    rw [← this.1]
    exact hx n (by simpa using this.2)
  · have e' : l ++ [x] = (pre ++ .cont n :: post') ++ [y] := by rw [e]; simp
    exact h pre n post' (List.append_inj' e' (by simp)).1

theorem inv (anon : Bool) (evs : List Ev) : Inv anon evs (runEv anon evs) := by
  induction evs using List.reverseRecOn with
  | nil => exact ⟨by simp [runEv, start], by simp [runEv, start], by simp [runEv, start], by simp [runEv, start, conts],
      by simp [runEv, start], by simp [runEv, start]⟩
  | append_singleton evs e ih =>
    rw [runEv_snoc]
    generalize runEv anon evs = s at ih
    cases e with
    | type c =>
      refine ⟨?_, ?_, ?_, ?_, ?_, ?_⟩
      · intro n; simpa [evStep, declare] using ih.tried n
      · intro d
        simp only [evStep, declare, List.mem_append, List.mem_singleton, Ty.cls.injEq, Ev.type.injEq, ih.classes]
      · intro n h
        refine ih.sub n ?_
        simpa [evStep, declare] using h
      · have : conts (s.types ++ [.cls c]) = conts s.types := by simp [conts]
        exact this ▸ ih.nodup
      · refine order_snoc ?_ (fun n h => by cases h)
        intro pre n post e
        obtain ⟨u, h1, h2⟩ := ih.order pre n post e
        exact ⟨u, by simp [h1], h2⟩
      · intro n
        rw [show (evStep anon s (.type c)).tried = s.tried from rfl, ih.lines]
        simp [evStep, declare]
    | use u =>
      have ht' : ∀ n, (∃ v, Ev.use v ∈ evs ++ [.use u] ∧ Wanted anon v ∧ v.name = n) ↔
          n ∈ s.tried ∨ (Wanted anon u ∧ u.name = n) := by
        intro n
        rw [ih.tried]
        constructor
        · rintro ⟨v, hv, h⟩
          rcases List.mem_append.mp hv with hv | hv
          · exact .inl ⟨v, hv, h⟩
          · have : v = u := by simpa using hv
            exact .inr (this ▸ h)
        · rintro (⟨v, hv, h⟩ | h)
          · exact ⟨v, by simp [hv], h⟩
          · exact ⟨u, by simp, h⟩
      have hmono : ∀ pre n post, s.types = pre ++ .cont n :: post →
          ∃ v, Ev.use v ∈ evs ++ [.use u] ∧ Wanted anon v ∧ v.name = n ∧ ∀ t ∈ v.needs, known pre t = true := by
        intro pre n post e
        obtain ⟨v, h1, h2⟩ := ih.order pre n post e
        exact ⟨v, by simp [h1], h2⟩
      have hcl : ∀ c, Ty.cls c ∈ s.types ↔ Ev.type c ∈ evs ++ [.use u] := by
        intro c; rw [ih.classes]; simp
      rw [show evStep anon s (.use u) = register anon s u from rfl]
      rcases register_cases anon s u with ⟨h0, e⟩ | ⟨hw, hn, hk, e⟩ | ⟨hw, hn, hk, e⟩
      · rw [e]
        refine ⟨fun n => ?_, hcl, ih.sub, ih.nodup, hmono, ih.lines⟩
        rw [ht']
        refine ⟨.inl, ?_⟩
        rintro (h | ⟨h1, h2⟩)
        · exact h
        · rcases h0 with h0 | h0
          · exact absurd h1 h0
          · exact h2 ▸ h0
      · rw [e]
        refine ⟨fun n => ?_, fun c => ?_, fun n h => ?_, ?_, ?_, fun n => ?_⟩
        · rw [ht']
          simp only [List.mem_append, List.mem_singleton]
          exact or_congr Iff.rfl ⟨fun h => ⟨hw, h.symm⟩, fun h => h.2.symm⟩
        · rw [← hcl]; simp
        · simp only [List.mem_append, List.mem_singleton, Ty.cont.injEq] at h ⊢
          exact h.imp (ih.sub n) id
        · have : conts (s.types ++ [.cont u.name]) = conts s.types ++ [u.name] := by simp [conts]
          dsimp only
          rw [this, List.nodup_append]
          refine ⟨ih.nodup, by simp, ?_⟩
          intro a ha b hb hab
          have : b = u.name := by simpa using hb
          subst this
          subst hab
          exact hn (ih.sub _ (mem_conts.mp ha))
        · refine order_snoc hmono ?_
          intro n hne
          cases hne
          exact ⟨u, by simp, hw, rfl, fun t ht => List.all_eq_true.mp hk t ht⟩
        · simp only [List.map_append, List.mem_append, List.map_cons, List.map_nil, List.mem_singleton, Ty.cont.injEq]
          rw [ih.lines]
      · rw [e]
        refine ⟨fun n => ?_, hcl, fun n h => ?_, ih.nodup, hmono, fun n => ?_⟩
        · rw [ht']
          simp only [List.mem_append, List.mem_singleton]
          exact or_congr Iff.rfl ⟨fun h => ⟨hw, h.symm⟩, fun h => h.2.symm⟩
        · exact List.mem_append_left _ (ih.sub n h)
        · simp only [List.map_append, List.mem_append, List.map_cons, List.map_nil, List.mem_singleton, Ty.cont.injEq]
          rw [ih.lines]

/-! ## The property -/

/-- **C121** No container is registered twice. -/
theorem C121_once (anon : Bool) (n : NSpace) : (conts (scanTypes anon n).types).Nodup := by
  rw [scanTypes_eq]; exact (inv anon _).nodup

/-- **C121** Every container that is registered is used, wanted, and comes after the types of its elements. -/
theorem C121_elements_first (anon : Bool) (n : NSpace) (pre : List Ty) (name : Str) (post : List Ty)
    (h : (scanTypes anon n).types = pre ++ .cont name :: post) :
    ∃ u ∈ usesOf n.events, Wanted anon u ∧ u.name = name ∧ ∀ t ∈ u.needs, t = .basic ∨ t ∈ pre := by
  rw [scanTypes_eq] at h
  obtain ⟨u, h1, h2, h3, h4⟩ := (inv anon _).order pre name post h
  refine ⟨u, mem_usesOf.mpr h1, h2, h3, fun t ht => ?_⟩
  have := h4 t ht
  unfold known at this
  rw [Bool.or_eq_true, decide_eq_true_eq, List.contains_iff_mem] at this
  exact this

theorem types_grow (anon : Bool) (s : St) (e : Ev) : ∀ t ∈ s.types, t ∈ (evStep anon s e).types := by
  intro t ht
  cases e with
  | type c => exact List.mem_append_left _ ht
  | use u =>
    rw [show evStep anon s (.use u) = register anon s u from rfl]
    rcases register_cases anon s u with ⟨_, e⟩ | ⟨_, _, _, e⟩ | ⟨_, _, _, e⟩ <;> rw [e]
    · exact ht
    · exact List.mem_append_left _ ht
    · exact ht

theorem tried_grow (anon : Bool) (s : St) (e : Ev) : ∀ t ∈ s.tried, t ∈ (evStep anon s e).tried := by
  intro t ht
  cases e with
  | type c => exact ht
  | use u =>
    rw [show evStep anon s (.use u) = register anon s u from rfl]
    rcases register_cases anon s u with ⟨_, e⟩ | ⟨_, _, _, e⟩ | ⟨_, _, _, e⟩ <;> rw [e]
    · exact ht
    · exact List.mem_append_left _ ht
    · exact List.mem_append_left _ ht

/-- Once tried, never again. -/
theorem settled (anon : Bool) (evs : List Ev) : ∀ (s : St) (name : Str), name ∈ s.tried →
    (Ty.cont name ∈ (evs.foldl (evStep anon) s).types ↔ Ty.cont name ∈ s.types) := by
  induction evs with
  | nil => intro s name _; rfl
  | cons e evs ih =>
    intro s name h
    rw [List.foldl_cons, ih _ name (tried_grow anon s e name h)]
    refine ⟨?_, types_grow anon s e _⟩
    cases e with
    | type c => intro h'; simpa [evStep, declare] using h'
    | use u =>
      rw [show evStep anon s (.use u) = register anon s u from rfl]
      rcases register_cases anon s u with ⟨_, e⟩ | ⟨_, hn, _, e⟩ | ⟨_, _, _, e⟩ <;> rw [e]
      · exact id
      · intro h'
        simp only [List.mem_append, List.mem_singleton, Ty.cont.injEq] at h'
        rcases h' with h' | rfl
        · exact h'
        · exact absurd h hn
      · exact id

/-- **C121** Exactly when a container is registered: its elements are, and before its first use (those of a namespace's
classes before all uses in that namespace). -/
theorem C121_registered_iff (anon : Bool) (n : NSpace) (u : Use) (pre post : List Ev)
    (he : n.events = pre ++ .use u :: post) (hw : Wanted anon u)
    (hfirst : ∀ v ∈ usesOf pre, Wanted anon v → v.name ≠ u.name) :
    Ty.cont u.name ∈ (scanTypes anon n).types ↔
      ∀ t ∈ u.needs, t = .basic ∨ (∃ c, t = .cls c ∧ Ev.type c ∈ pre) ∨
        (∃ m, t = .cont m ∧ Ty.cont m ∈ (scanTypes anon n).types ∧ ∃ v ∈ usesOf pre, Wanted anon v ∧ v.name = m) := by
  have hrun : scanTypes anon n = post.foldl (evStep anon) (register anon (runEv anon pre) u) := by
    rw [scanTypes_eq, he]
    unfold runEv
    rw [List.foldl_append]
    rfl
  have hi := inv anon pre
  have hnt : u.name ∉ (runEv anon pre).tried := by
    intro h
    obtain ⟨v, h1, h2, h3⟩ := (hi.tried u.name).mp h
    exact hfirst v (mem_usesOf.mpr h1) h2 h3
  have hfin : ∀ m ∈ (runEv anon pre).tried,
      (Ty.cont m ∈ (scanTypes anon n).types ↔ Ty.cont m ∈ (runEv anon pre).types) := by
    intro m hm
    have : scanTypes anon n = (Ev.use u :: post).foldl (evStep anon) (runEv anon pre) := hrun
    rw [this]
    exact settled anon _ _ m hm
  have hneeds : (u.needs.all (known (runEv anon pre).types)) = true ↔
      ∀ t ∈ u.needs, t = .basic ∨ (∃ c, t = .cls c ∧ Ev.type c ∈ pre) ∨
        (∃ m, t = .cont m ∧ Ty.cont m ∈ (scanTypes anon n).types ∧ ∃ v ∈ usesOf pre, Wanted anon v ∧ v.name = m) := by
    rw [List.all_eq_true]
    refine forall_congr' fun t => imp_congr_right fun _ => ?_
    unfold known
    rw [Bool.or_eq_true, decide_eq_true_eq, List.contains_iff_mem]
    refine or_congr Iff.rfl ?_
    cases t with
    | basic =>
      refine ⟨fun h => ?_, ?_⟩
      · exfalso
        clear hfin hrun hnt hfirst he
        revert h
        induction pre using List.reverseRecOn with
        | nil => intro h; cases h
        | append_singleton pre e ih =>
          rw [runEv_snoc]
          cases e with
          | type c => intro h; exact ih (inv anon pre) (by simpa [evStep, declare] using h)
          | use v =>
            rw [show evStep anon (runEv anon pre) (.use v) = register anon (runEv anon pre) v from rfl]
            rcases register_cases anon (runEv anon pre) v with ⟨_, e⟩ | ⟨_, _, _, e⟩ | ⟨_, _, _, e⟩ <;> rw [e]
            · exact ih (inv anon pre)
            · intro h; exact ih (inv anon pre) (by simpa using h)
            · exact ih (inv anon pre)
      · rintro (⟨c, h, _⟩ | ⟨m, h, _⟩) <;> cases h
    | cls c =>
      rw [hi.classes]
      constructor
      · exact fun h => .inl ⟨c, rfl, h⟩
      · rintro (⟨d, h, h'⟩ | ⟨m, h, _⟩)
        · cases h; exact h'
        · cases h
    | cont m =>
      constructor
      · intro h
        have hm := hi.sub m h
        obtain ⟨v, h1, h2⟩ := (hi.tried m).mp hm
        exact .inr ⟨m, rfl, (hfin m hm).mpr h, v, mem_usesOf.mpr h1, h2⟩
      · rintro (⟨d, h, h'⟩ | ⟨m', h, h1, v, h2, h3⟩)
        · cases h
        · cases h
          exact (hfin m ((hi.tried m).mpr ⟨v, mem_usesOf.mp h2, h3⟩)).mp h1
  rw [← hneeds, hrun]
  rcases register_cases anon (runEv anon pre) u with ⟨h0, e⟩ | ⟨_, _, hk, e⟩ | ⟨_, _, hk, e⟩
  · rcases h0 with h0 | h0
    · exact absurd hw h0
    · exact absurd h0 hnt
  · rw [e, settled anon post _ u.name (by simp)]
    simp [hk]
  · rw [e, settled anon post _ u.name (by simp)]
    simp only [hk]
    exact ⟨fun h => absurd (hi.sub _ h) hnt, fun h => by cases h⟩

theorem first_split {evs : List Ev} {P : Use → Prop} [DecidablePred P] (h : ∃ u, Ev.use u ∈ evs ∧ P u) :
    ∃ pre v post, evs = pre ++ .use v :: post ∧ P v ∧ ∀ w ∈ usesOf pre, ¬ P w := by
  induction evs with
  | nil => obtain ⟨_, h, _⟩ := h; cases h
  | cons e evs ih =>
    by_cases he : ∃ v, e = .use v ∧ P v
    · obtain ⟨v, rfl, hp⟩ := he
      exact ⟨[], v, evs, rfl, hp, by simp [usesOf]⟩
    · obtain ⟨u, hu, hp⟩ := h
      have hu' : Ev.use u ∈ evs := by
        rcases List.mem_cons.mp hu with h | h
        · exact absurd ⟨u, h.symm, hp⟩ he
        · exact h
      obtain ⟨pre, v, post, h1, h2, h3⟩ := ih ⟨u, hu', hp⟩
      refine ⟨e :: pre, v, post, by rw [h1]; rfl, h2, ?_⟩
      intro w hw hpw
      rcases List.mem_cons.mp (mem_usesOf.mp hw) with h | h
      · exact he ⟨w, h.symm, hpw⟩
      · exact h3 w (mem_usesOf.mpr h) hpw

/-- **C121** A container of basic types and classes is registered if the classes are met before it wherever it is used:
as all those of the namespaces around the use and of those scanned before. -/
theorem C121_complete_partial (anon : Bool) (n : NSpace) (u : Use) (hu : u ∈ usesOf n.events) (hw : Wanted anon u)
    (hname : ∀ v ∈ usesOf n.events, v.name = u.name → v = u)
    (hneeds : ∀ pre post, n.events = pre ++ .use u :: post → ∀ t ∈ u.needs, t = .basic ∨ ∃ c, t = .cls c ∧ Ev.type c ∈ pre) :
    Ty.cont u.name ∈ (scanTypes anon n).types := by
  obtain ⟨pre, v, post, h1, h2, h3⟩ := first_split (P := fun v => v.name = u.name) ⟨u, mem_usesOf.mp hu, rfl⟩
  have : v = u := hname v (mem_usesOf.mpr (by rw [h1]; simp)) h2
  subst this
  rw [C121_registered_iff anon n v pre post h1 hw (fun w hw' _ => h3 w hw')]
  intro t ht
  rcases hneeds pre post h1 t ht with h | h
  · exact .inl h
  · exact .inr (.inl h)

/-- **C121** Without namespaces in it, a namespace gets all the containers of basic types and of its own classes. -/
theorem C121_flat_partial (anon : Bool) (enums : List Nat) (funs : List Use) (classes : List (Nat × List Use)) (u : Use)
    (hu : u ∈ usesOf (own enums funs classes)) (hw : Wanted anon u)
    (hname : ∀ v ∈ usesOf (own enums funs classes), v.name = u.name → v = u)
    (hneeds : ∀ t ∈ u.needs, t = .basic ∨ ∃ c, t = .cls c ∧ c ∈ enums ++ classes.map (·.1)) :
    Ty.cont u.name ∈ (scanTypes anon (.node enums funs classes [])).types := by
  have hev : (NSpace.node enums funs classes []).events = own enums funs classes := by
    simp [NSpace.events, eventsAll]
  refine C121_complete_partial anon _ u (by rw [hev]; exact hu) hw (by rw [hev]; exact hname) ?_
  intro pre post h t ht
  refine (hneeds t ht).imp id ?_
  rintro ⟨c, rfl, hc⟩
  refine ⟨c, rfl, ?_⟩
  rw [hev] at h
  unfold own at h
  generalize enums ++ classes.map (·.1) = ts at h hc
  generalize funs ++ classes.flatMap (fun c => c.2 ++ funs) = us at h
  clear hneeds hname hu
  induction ts generalizing pre with
  | nil => cases hc
  | cons d ts ih =>
    cases pre with
    | nil => cases h
    | cons e pre =>
      simp only [List.map_cons, List.cons_append, List.cons.injEq] at h
      rcases List.mem_cons.mp hc with rfl | hc
      · rw [← h.1]; simp
      · exact List.mem_cons_of_mem _ (ih _ hc h.2)

/-! ## The script -/

/-- Running the lines of the script: each needs the types of its elements. -/
def runs (types : List Ty) : List (Ty × List Ty) → Bool
  | [] => true
  | (t, needs) :: l => needs.all (known types) && runs (types ++ [t]) l

theorem runs_append (l m : List (Ty × List Ty)) : ∀ types, runs types (l ++ m) = (runs types l && runs (types ++ l.map (·.1)) m) := by
  induction l with
  | nil => intro types; simp [runs]
  | cons x l ih =>
    intro types
    obtain ⟨t, needs⟩ := x
    simp [runs, ih, Bool.and_assoc]

/-- **C121** The script runs exactly if every wanted container was registered, and it then registers the same types in the
same order. -/
theorem C121_script_iff (anon : Bool) (n : NSpace) :
    (runs [] (scanTypes anon n).script = true ↔
      ∀ u ∈ usesOf n.events, Wanted anon u → Ty.cont u.name ∈ (scanTypes anon n).types) ∧
    (runs [] (scanTypes anon n).script = true → (scanTypes anon n).script.map (·.1) = (scanTypes anon n).types) := by
  rw [scanTypes_eq]
  have key : ∀ evs, (runs [] (runEv anon evs).script = true →
        (runEv anon evs).script.map (·.1) = (runEv anon evs).types) ∧
      ((∀ m ∈ (runEv anon evs).tried, Ty.cont m ∈ (runEv anon evs).types) → runs [] (runEv anon evs).script = true) := by
    intro evs
    induction evs using List.reverseRecOn with
    | nil => exact ⟨fun _ => rfl, fun _ => rfl⟩
    | append_singleton evs e ih =>
      rw [runEv_snoc]
      have hi := inv anon evs
      generalize runEv anon evs = s at ih hi
      obtain ⟨ih1, ih2⟩ := ih
      cases e with
      | type c =>
        refine ⟨fun h => ?_, fun h => ?_⟩
        · simp only [evStep, declare] at h ⊢
          rw [runs_append, Bool.and_eq_true] at h
          rw [List.map_append, ih1 h.1]
          rfl
        · simp only [evStep, declare] at h ⊢
          rw [runs_append, ih2 (fun m hm => by simpa using h m hm)]
          rfl
      | use u =>
        rw [show evStep anon s (.use u) = register anon s u from rfl]
        rcases register_cases anon s u with ⟨_, e⟩ | ⟨_, hn, hk, e⟩ | ⟨_, hn, hk, e⟩ <;> rw [e]
        · exact ⟨ih1, ih2⟩
        · refine ⟨fun h => ?_, fun h => ?_⟩
          · dsimp only at h ⊢
            rw [runs_append, Bool.and_eq_true] at h
            rw [List.map_append, ih1 h.1]
            rfl
          · dsimp only at h ⊢
            have hr := ih2 (fun m hm => by
              have := h m (List.mem_append_left _ hm)
              simp only [List.mem_append, List.mem_singleton, Ty.cont.injEq] at this
              rcases this with this | rfl
              · exact this
              · exact absurd hm hn)
            rw [runs_append, hr, ih1 hr]
            simp [runs, hk]
        · refine ⟨fun h => ?_, fun h => ?_⟩
          · dsimp only at h
            rw [runs_append, Bool.and_eq_true] at h
            have h2 := h.2
            rw [ih1 h.1] at h2
            simp [runs, hk] at h2
          · exfalso
            exact hn (hi.sub _ (h u.name (by simp)))
  have hi := inv anon n.events
  refine ⟨⟨fun h u hu hw => ?_, fun h => ?_⟩, (key _).1⟩
  · rw [← (key _).1 h]
    exact (hi.lines _).mp ((hi.tried _).mpr ⟨u, mem_usesOf.mp hu, hw, rfl⟩)
  · refine (key _).2 ?_
    intro m hm
    obtain ⟨u, h1, h2, rfl⟩ := (hi.tried m).mp hm
    exact h u (mem_usesOf.mpr h1) h2

/-! ## The kind of container -/

/-- **C121** The generated code for a container found in a header uses only members it has, as far as this is so for its
kind (C60), unless it is a `priority_queue`. -/
theorem C121_kind_partial (k : Kind) (ct : Str) (h : containerType (.kind k) = some ct)
    (hk : k ≠ .queue ∧ k ≠ .priorityQueue ∧ k ≠ .stack) :
    ∃ k', kindOf ct = some k' ∧ ∀ m ∈ membersUsed k', m ∈ provides k := by
  obtain ⟨h1, h2, h3⟩ := hk
  cases k <;> first
    | exact absurd rfl h1
    | exact absurd rfl h2
    | exact absurd rfl h3
    | (have h := Option.some.inj h; rw [← h]; first
        | exact ⟨.list, by decide, by decide⟩
        | exact ⟨.deque, by decide, by decide⟩
        | exact ⟨.vector, by decide, by decide⟩
        | exact ⟨.set, by decide, by decide⟩
        | exact ⟨.multiset, by decide, by decide⟩
        | exact ⟨.hashSet, by decide, by decide⟩
        | exact ⟨.hashMultiset, by decide, by decide⟩
        | exact ⟨.map, by decide, by decide⟩)

/-- Counterexample: a `priority_queue` is registered as a `dequeue`, whose elements are added by `push_back`. -/
theorem C121_priority_counterexample : containerType (.kind .priorityQueue) = some "dequeue".toList ∧
    kindOf "dequeue".toList = some .deque ∧ .push_back ∈ membersUsed .deque ∧ .push_back ∉ provides .priorityQueue := by
  decide

/-! ## Where it fails -/

/-- A vector of a class. -/
def vec (name : Str) (t : Ty) : Use := ⟨.kind .vector, name, [t]⟩

/-- Counterexample: a function of the global namespace uses a vector of a class in a namespace: the vector is tried before
the class is known, and never again, though a function beside the class uses it too; the script does not run. -/
theorem C121_namespace_counterexample :
    let v := vec "std::vector< ns::C >".toList (.cls 0)
    let n : NSpace := .node [] [v] [] [.node [] [v] [(0, [])] []]
    Wanted true v ∧ Ty.cls 0 ∈ (scanTypes true n).types ∧ Ty.cont v.name ∉ (scanTypes true n).types ∧
    runs [] (scanTypes true n).script = false := by
  refine ⟨⟨.inl rfl, by decide⟩, by decide, by decide, by decide⟩

/-- Counterexample: a vector of vectors, used before the inner vector. -/
theorem C121_inner_counterexample :
    let i := vec "std::vector< int >".toList .basic
    let o := vec "std::vector< std::vector< int > >".toList (.cont "std::vector< int >".toList)
    let n : NSpace := .node [] [o, i] [] []
    Wanted true o ∧ Ty.cont i.name ∈ (scanTypes true n).types ∧ Ty.cont o.name ∉ (scanTypes true n).types := by
  refine ⟨⟨.inl rfl, by decide⟩, by decide, by decide⟩

/-! ## A case -/

/-- The inner vector first, and a vector of a class used before the class in the same namespace. -/
example :
    let i := vec "std::vector< int >".toList .basic
    let o := vec "std::vector< std::vector< int > >".toList (.cont "std::vector< int >".toList)
    let c := vec "std::vector< C >".toList (.cls 0)
    let n : NSpace := .node [] [i, o, c] [(0, [i])] []
    (scanTypes true n).types = [.cls 0, .cont i.name, .cont o.name, .cont c.name] ∧
    runs [] (scanTypes true n).script = true ∧ (scanTypes false n).types = [.cls 0] := by
  refine ⟨by decide, by decide, by decide⟩

end Verif.Containers
