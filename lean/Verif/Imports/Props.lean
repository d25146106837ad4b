import Mathlib.Data.List.Nodup
import Verif.Imports.Model

/-!
# C104: a class imported from another module is that module's class
-/
namespace Verif.Imports
open Verif Verif.Names

/-! ## Specification -/

/-- Whether a class is entered in its module (and not in an enclosing class). -/
def Cls.topLevel (c : Cls) : Bool :=
  match c.decl with
  | .top _ _ _ _ => true
  | .nested _ _ _ => false

/-- The attribute names an own class takes up in its module: its Python name, and hidden ones for the
type map of a narrowing root and for the wrapper registry of a class without bases. -/
def Cls.attributes (s : Settings) (c : Cls) : List Str :=
  (if c.narrow = .self then [hidden (typeMapName s c.decl)] else [])
  ++ (if c.bases = [] ∧ s.stdMap = true then [hidden (registryName s c.decl)] else [])
  ++ (if c.topLevel = true then [c.pythonName] else [])

/-- All attribute names of the root module of an extension that come from classes, typedefs and
submodules. -/
def Ext.attributes (x : Ext) : List Str :=
  (x.root.classes.filter (!·.imported)).flatMap (Cls.attributes x.settings)
  ++ x.root.typedefs.map (·.2) ++ x.root.subs.map Mod.name

mutual
/-- The imported classes of a module and its submodules. -/
def Mod.allImported : Mod → List Cls
  | .mk _ classes _ subs => classes.filter (·.imported) ++ subsImported subs
def subsImported : List Mod → List Cls
  | [] => []
  | m :: ms => m.allImported ++ subsImported ms
end

/-! ## What a statement of one extension leaves alone -/

theorem upd_same {A B : Type} [DecidableEq A] (f : A → B) (a : A) (b : B) : upd f a b a = b := by
  simp [upd]

theorem upd_ne {A B : Type} [DecidableEq A] (f : A → B) (a x : A) (b : B) (h : x ≠ a) :
    upd f a b x = f x := by simp [upd, h]

/-- What other extensions see of an extension `e` during the initialisation of another. -/
def Keeps (e : Str) (w w' : World) : Prop :=
  (∀ p, w'.attrs (.module e p) = w.attrs (.module e p)) ∧ w'.ptr e = w.ptr e ∧ w'.sys = w.sys

theorem Keeps.refl (e : Str) (w : World) : Keeps e w w := ⟨fun _ => rfl, rfl, rfl⟩

theorem Keeps.trans {e : Str} {a b c : World} (h : Keeps e a b) (g : Keeps e b c) : Keeps e a c :=
  ⟨fun p => (g.1 p).trans (h.1 p), g.2.1.trans h.2.1, g.2.2.trans h.2.2⟩

theorem setPtr_keeps {e ext var : Str} {v : Option Addr} (w : World) (h : e ≠ ext) :
    Keeps e w (setPtr w ext var v) :=
  ⟨fun _ => rfl, upd_ne _ _ _ _ h, rfl⟩

/-- A block writes only pointers of its extension. -/
def Same (w w' : World) : Prop := w'.attrs = w.attrs ∧ w'.sys = w.sys

theorem Same.trans {a b c : World} (h : Same a b) (g : Same b c) : Same a c :=
  ⟨g.1.trans h.1, g.2.trans h.2⟩

theorem bstep_same {ext : Str} {w w' : World} {m m' : Addr} {b : BStmt}
    (h : bstep ext w m b = .ok (w', m')) : Same w w' ∧ ∀ e, e ≠ ext → w'.ptr e = w.ptr e := by
  cases b with
  | importModule n =>
    simp only [bstep] at h
    cases hs : w.sys n with
    | none => rw [hs] at h; cases h
    | some a => rw [hs] at h; cases h; exact ⟨⟨rfl, rfl⟩, fun _ _ => rfl⟩
  | getType var attr =>
    cases h
    exact ⟨⟨rfl, rfl⟩, fun e he => upd_ne _ _ _ _ he⟩
  | getMap var attr =>
    simp only [bstep] at h
    cases hs : w.attrs m attr with
    | none => rw [hs] at h; cases h; exact ⟨⟨rfl, rfl⟩, fun e he => upd_ne _ _ _ _ he⟩
    | some a => rw [hs] at h; cases h; exact ⟨⟨rfl, rfl⟩, fun e he => upd_ne _ _ _ _ he⟩
  | getRegistry var attr =>
    simp only [bstep] at h
    cases hs : w.attrs m attr with
    | none => rw [hs] at h; cases h; exact ⟨⟨rfl, rfl⟩, fun e he => upd_ne _ _ _ _ he⟩
    | some a => rw [hs] at h; cases h; exact ⟨⟨rfl, rfl⟩, fun e he => upd_ne _ _ _ _ he⟩

theorem brun_same {ext : Str} : ∀ (bs : List BStmt) (w w' : World) (m : Addr),
    brun ext w m bs = .ok w' → Same w w' ∧ ∀ e, e ≠ ext → w'.ptr e = w.ptr e
  | [], w, w', m, h => by cases h; exact ⟨⟨rfl, rfl⟩, fun _ _ => rfl⟩
  | b :: bs, w, w', m, h => by
    unfold brun at h
    cases hb : bstep ext w m b with
    | error e => rw [hb] at h; cases h
    | ok r =>
      obtain ⟨w1, m1⟩ := r
      rw [hb] at h
      have h1 := bstep_same hb
      have h2 := brun_same bs w1 w' m1 h
      exact ⟨h1.1.trans h2.1, fun e he => (h2.2 e he).trans (h1.2 e he)⟩

theorem readyType_same : ∀ (fuel : Nat) (w w' : World) (a : Addr), readyType fuel w a = .ok w' →
    w'.attrs = w.attrs ∧ w'.sys = w.sys ∧ w'.ptr = w.ptr
  | 0, w, w', a, h => by cases h
  | fuel + 1, w, w', a, h => by
    unfold readyType at h
    cases hr : w.ready a with
    | some l => rw [hr] at h; cases h; exact ⟨rfl, rfl, rfl⟩
    | none =>
      rw [hr] at h
      simp only at h
      split at h
      · cases h
      · split at h
        · cases h; exact ⟨rfl, rfl, rfl⟩
        · cases hq : readyType fuel w ((w.base a).getD .object) with
          | error e => rw [hq] at h; cases h
          | ok w1 =>
            rw [hq] at h
            simp only at h
            have := readyType_same fuel w w1 _ hq
            split at h
            · cases h; exact this
            · cases h

theorem setAttr_keeps {e : Str} {o : Addr} {n : Str} {v : Addr} (w : World)
    (h : ∀ p, o ≠ .module e p) : Keeps e w (setAttr w o n v) :=
  ⟨fun p => upd_ne _ _ _ _ (fun q => h p q.symm), rfl, rfl⟩

theorem module_ne {e ext : Str} (h : e ≠ ext) (q p : List Str) : Addr.module ext q ≠ .module e p :=
  fun g => by cases g; exact h rfl

theorem step_keeps {ext e : Str} {fuel : Nat} {w w' : World} {st : Stmt} (he : e ≠ ext)
    (h : step ext fuel w st = .ok w') : Keeps e w w' := by
  cases st with
  | block b =>
    have := brun_same b w w' _ h
    exact ⟨fun p => by rw [this.1.1], this.2 e he, this.1.2⟩
  | addType path n x =>
    simp only [step] at h
    cases ha : addr w ext x with
    | none => rw [ha] at h; cases h
    | some a => rw [ha] at h; cases h; exact setAttr_keeps w (module_ne he path)
  | addPointer path n x =>
    simp only [step] at h
    cases ha : addr w ext x with
    | none => rw [ha] at h; cases h
    | some a => rw [ha] at h; cases h; exact setAttr_keeps w (module_ne he path)
  | setDict outer n x =>
    simp only [step] at h
    cases ho : addr w ext outer with
    | none => rw [ho] at h; cases h
    | some o =>
      cases ha : addr w ext x with
      | none => rw [ho, ha] at h; cases h
      | some a =>
        rw [ho, ha] at h
        simp only at h
        split at h
        · cases h
        · next ht =>
          split at h
          · cases h
            refine setAttr_keeps w ?_
            intro p hp
            subst hp
            exact ht rfl
          · cases h
  | register map cpp x =>
    simp only [step] at h
    cases ho : addr w ext map with
    | none => rw [ho] at h; cases h
    | some o =>
      cases ha : addr w ext x with
      | none => rw [ho, ha] at h; cases h
      | some a => rw [ho, ha] at h; cases h; exact ⟨fun _ => rfl, rfl, rfl⟩
  | setBase x b =>
    simp only [step] at h
    cases ha : addr w ext x with
    | none => rw [ha] at h; cases h
    | some a => rw [ha] at h; cases h; exact ⟨fun _ => rfl, rfl, rfl⟩
  | setBases x bs =>
    simp only [step] at h
    cases ha : addr w ext x with
    | none => rw [ha] at h; cases h
    | some a =>
      rw [ha] at h
      simp only at h
      split at h
      · cases h; exact ⟨fun _ => rfl, rfl, rfl⟩
      · cases h
  | ready x =>
    simp only [step] at h
    cases ha : addr w ext x with
    | none => rw [ha] at h; cases h
    | some a =>
      rw [ha] at h
      have := readyType_same _ _ _ _ h
      exact ⟨fun p => by rw [this.1], by rw [this.2.2], this.2.1⟩
  | addModule path n => cases h; exact setAttr_keeps w (module_ne he path)

theorem step_sys {ext : Str} {fuel : Nat} {w w' : World} {st : Stmt}
    (h : step ext fuel w st = .ok w') : w'.sys = w.sys :=
  (step_keeps (e := 'x' :: ext) (by simp) h).2.2

theorem run_keeps {ext e : Str} {fuel : Nat} (he : e ≠ ext) : ∀ (l : List Stmt) (w w' : World),
    run ext fuel w l = .ok w' → Keeps e w w'
  | [], w, w', h => by cases h; exact Keeps.refl e w
  | st :: l, w, w', h => by
    unfold run at h
    cases hs : step ext fuel w st with
    | error f => rw [hs] at h; cases h
    | ok w1 =>
      rw [hs] at h
      exact (step_keeps he hs).trans (run_keeps he l w1 w' h)

theorem run_append {ext : Str} {fuel : Nat} : ∀ (l₁ l₂ : List Stmt) (w w' : World),
    run ext fuel w (l₁ ++ l₂) = .ok w' →
    ∃ w1, run ext fuel w l₁ = .ok w1 ∧ run ext fuel w1 l₂ = .ok w'
  | [], l₂, w, w', h => ⟨w, rfl, h⟩
  | st :: l, l₂, w, w', h => by
    rw [List.cons_append] at h
    unfold run at h
    cases hs : step ext fuel w st with
    | error f => rw [hs] at h; cases h
    | ok w1 =>
      rw [hs] at h
      obtain ⟨w2, h2, h3⟩ := run_append l l₂ w1 w' h
      refine ⟨w2, ?_, h3⟩
      unfold run
      rw [hs]
      exact h2

/-- What stays of extension `e` when other extensions are loaded. -/
theorem loadAll_keeps {e : Str} : ∀ (xs : List Ext) (w w' : World), (∀ x ∈ xs, x.name ≠ e) →
    loadAll w xs = .ok w' →
    (∀ p, w'.attrs (.module e p) = w.attrs (.module e p)) ∧ w'.ptr e = w.ptr e ∧ w'.sys e = w.sys e
  | [], w, w', _, h => by cases h; exact ⟨fun _ => rfl, rfl, rfl⟩
  | x :: xs, w, w', hne, h => by
    unfold loadAll at h
    cases hl : load w x with
    | error f => rw [hl] at h; cases h
    | ok w1 =>
      rw [hl] at h
      have h1 := loadAll_keeps xs w1 w' (fun y hy => hne y (by simp [hy])) h
      have hx : e ≠ x.name := fun g => hne x (by simp) g.symm
      unfold load at hl
      cases hr : run x.name (x.stmts.length + 2) w x.stmts with
      | error f => rw [hr] at hl; cases hl
      | ok w2 =>
        rw [hr] at hl
        cases hl
        have h2 := run_keeps hx _ _ _ hr
        refine ⟨fun p => (h1.1 p).trans (h2.1 p), h1.2.1.trans h2.2.1, h1.2.2.trans ?_⟩
        simp only
        rw [upd_ne _ _ _ _ hx, h2.2.2]

theorem loadAll_append : ∀ (l₁ l₂ : List Ext) (w w' : World), loadAll w (l₁ ++ l₂) = .ok w' →
    ∃ w1, loadAll w l₁ = .ok w1 ∧ loadAll w1 l₂ = .ok w'
  | [], l₂, w, w', h => ⟨w, rfl, h⟩
  | x :: l, l₂, w, w', h => by
    rw [List.cons_append] at h
    unfold loadAll at h
    cases hs : load w x with
    | error f => rw [hs] at h; cases h
    | ok w1 =>
      rw [hs] at h
      obtain ⟨w2, h2, h3⟩ := loadAll_append l l₂ w1 w' h
      refine ⟨w2, ?_, h3⟩
      unfold loadAll
      rw [hs]
      exact h2

/-! ## Attributes written by the init function -/

/-- The attributes of the module at path `p` a statement writes. -/
def Stmt.writes (p : List Str) : Stmt → List Str
  | .addType q n _ => if q = p then [n] else []
  | .addPointer q n _ => if q = p then [n] else []
  | .addModule q n => if q = p then [n] else []
  | _ => []

theorem step_attr {ext : Str} {fuel : Nat} {w w' : World} {st : Stmt} {p : List Str} {n : Str}
    (hn : n ∉ st.writes p) (h : step ext fuel w st = .ok w') :
    w'.attrs (.module ext p) n = w.attrs (.module ext p) n := by
  have key : ∀ (q : List Str) (k : Str) (v : Addr), (n ∉ if q = p then [k] else []) →
      (setAttr w (.module ext q) k v).attrs (.module ext p) n = w.attrs (.module ext p) n := by
    intro q k v hk
    by_cases hq : q = p
    · subst hq
      rw [if_pos rfl, List.mem_singleton] at hk
      simp only [setAttr, upd_same]
      exact upd_ne _ _ _ _ hk
    · simp only [setAttr]
      rw [upd_ne _ _ _ _ (by intro g; cases g; exact hq rfl)]
  cases st with
  | block b =>
    have := brun_same b w w' _ h
    rw [this.1.1]
  | addType path k x =>
    simp only [step] at h
    cases ha : addr w ext x with
    | none => rw [ha] at h; cases h
    | some a => rw [ha] at h; cases h; exact key _ _ _ hn
  | addPointer path k x =>
    simp only [step] at h
    cases ha : addr w ext x with
    | none => rw [ha] at h; cases h
    | some a => rw [ha] at h; cases h; exact key _ _ _ hn
  | setDict outer k x =>
    simp only [step] at h
    cases ho : addr w ext outer with
    | none => rw [ho] at h; cases h
    | some o =>
      cases ha : addr w ext x with
      | none => rw [ho, ha] at h; cases h
      | some a =>
        rw [ho, ha] at h
        simp only at h
        split at h
        · cases h
        · next ht =>
          split at h
          · cases h
            simp only [setAttr]
            rw [upd_ne]
            intro hp
            subst hp
            exact ht rfl
          · cases h
  | register map cpp x =>
    simp only [step] at h
    cases ho : addr w ext map with
    | none => rw [ho] at h; cases h
    | some o =>
      cases ha : addr w ext x with
      | none => rw [ho, ha] at h; cases h
      | some a => rw [ho, ha] at h; cases h; rfl
  | setBase x b =>
    simp only [step] at h
    cases ha : addr w ext x with
    | none => rw [ha] at h; cases h
    | some a => rw [ha] at h; cases h; rfl
  | setBases x bs =>
    simp only [step] at h
    cases ha : addr w ext x with
    | none => rw [ha] at h; cases h
    | some a =>
      rw [ha] at h
      simp only at h
      split at h
      · cases h; rfl
      · cases h
  | ready x =>
    simp only [step] at h
    cases ha : addr w ext x with
    | none => rw [ha] at h; cases h
    | some a =>
      rw [ha] at h
      rw [(readyType_same _ _ _ _ h).1]
  | addModule path k => cases h; exact key _ _ _ hn

theorem run_attr {ext : Str} {fuel : Nat} {p : List Str} {n : Str} : ∀ (l : List Stmt) (w w' : World),
    n ∉ l.flatMap (Stmt.writes p) → run ext fuel w l = .ok w' →
    w'.attrs (.module ext p) n = w.attrs (.module ext p) n
  | [], w, w', _, h => by cases h; rfl
  | st :: l, w, w', hn, h => by
    simp only [List.flatMap_cons, List.mem_append, not_or] at hn
    unfold run at h
    cases hs : step ext fuel w st with
    | error f => rw [hs] at h; cases h
    | ok w1 =>
      rw [hs] at h
      exact (run_attr l w1 w' hn.2 h).trans (step_attr hn.1 hs)

/-- The value a statement gives to an attribute it writes, when it refers to a variable of the
extension itself. -/
def Stmt.gives (ext : Str) (p : List Str) (n : Str) (v : Addr) (st : Stmt) : Prop :=
  (∃ sym, st = .addType p n ⟨sym, false⟩ ∧ v = .glob ext sym) ∨
  (∃ sym, st = .addPointer p n ⟨sym, false⟩ ∧ v = .capsule (.glob ext sym))

theorem step_gives {ext : Str} {fuel : Nat} {w w' : World} {st : Stmt} {p : List Str} {n : Str} {v : Addr}
    (hg : st.gives ext p n v) (h : step ext fuel w st = .ok w') :
    w'.attrs (.module ext p) n = some v := by
  rcases hg with ⟨sym, rfl, rfl⟩ | ⟨sym, rfl, rfl⟩ <;>
    · simp only [step, addr] at h
      cases h
      simp [setAttr, upd_same]

theorem gives_writes {ext : Str} {st : Stmt} {p : List Str} {n : Str} {v : Addr}
    (hg : st.gives ext p n v) : n ∈ st.writes p := by
  rcases hg with ⟨sym, rfl, rfl⟩ | ⟨sym, rfl, rfl⟩ <;> simp [Stmt.writes]

theorem run_gives {ext : Str} {fuel : Nat} {p : List Str} {n : Str} {v : Addr} :
    ∀ (l : List Stmt) (w w' : World), (l.flatMap (Stmt.writes p)).Nodup →
    ∀ st ∈ l, st.gives ext p n v → run ext fuel w l = .ok w' →
    w'.attrs (.module ext p) n = some v
  | [], _, _, _, st, hm, _, _ => by cases hm
  | s0 :: l, w, w', hd, st, hm, hg, h => by
    unfold run at h
    cases hs : step ext fuel w s0 with
    | error f => rw [hs] at h; cases h
    | ok w1 =>
      rw [hs] at h
      rw [List.flatMap_cons, List.nodup_append] at hd
      rcases List.mem_cons.1 hm with rfl | hm
      · have h1 := step_gives hg hs
        have h2 : n ∉ l.flatMap (Stmt.writes p) := by
          intro hc
          exact hd.2.2 n (gives_writes hg) n hc rfl
        rw [run_attr l w1 w' h2 h, h1]
      · exact run_gives l w1 w' hd.2.1 st hm hg h

/-! ## The attributes are those listed -/

mutual
theorem stmts_writes (s : Settings) (q : List Str) : ∀ (m : Mod) (path : List Str),
    (∀ r, path ++ r ≠ q) → (stmts s path m).flatMap (Stmt.writes q) = []
  | .mk name classes typedefs subs, path, h => by
    have hp : path ≠ q := by simpa using h []
    simp only [stmts, List.flatMap_append]
    have h1 : ((classes.filter (·.imported)).map (fun c => Stmt.block (importBlock s c))).flatMap
        (Stmt.writes q) = [] := by
      simp [List.flatMap_map, Stmt.writes]
    have h2 : ((classes.filter (!·.imported)).flatMap (ownStmts s path)).flatMap (Stmt.writes q) = [] := by
      rw [List.flatMap_assoc]
      simp only [List.flatMap_eq_nil_iff]
      intro c _ st hst
      revert hst
      simp only [ownStmts, List.mem_append]
      intro hst
      rcases hst with ((((h | h) | h) | h) | h) | h
      · split at h
        · rw [List.mem_singleton.1 h]; simp [Stmt.writes, hp]
        · cases h
      · unfold registerStmts at h
        cases hn : c.narrow with
        | off => rw [hn] at h; cases h
        | self => rw [hn] at h; rw [List.mem_singleton.1 h]; rfl
        | ancestor r => rw [hn] at h; rw [List.mem_singleton.1 h]; rfl
      · split at h
        · rw [List.mem_singleton.1 h]; simp [Stmt.writes, hp]
        · cases h
      · unfold baseStmts at h
        rcases hn : c.bases with _ | ⟨b, _ | ⟨b2, bs⟩⟩ <;> rw [hn] at h
        · cases h
        · rw [List.mem_singleton.1 h]; rfl
        · simp only [List.mem_cons, List.not_mem_nil, or_false] at h
          rcases h with rfl | rfl <;> rfl
      · rw [List.mem_singleton.1 h]; rfl
      · unfold placeStmts at h
        cases hn : c.decl with
        | top a b d e => rw [hn] at h; rw [List.mem_singleton.1 h]; simp [Stmt.writes, hp]
        | nested a b d => rw [hn] at h; rw [List.mem_singleton.1 h]; rfl
    have h3 : (typedefs.map (fun t => Stmt.addType path t.2 (typeLv s t.1))).flatMap (Stmt.writes q) = [] := by
      simp [List.flatMap_map, Stmt.writes, hp]
    rw [h1, h2, h3, subStmts_writes s q subs path h]
    rfl
theorem subStmts_writes (s : Settings) (q : List Str) : ∀ (ms : List Mod) (path : List Str),
    (∀ r, path ++ r ≠ q) → (subStmts s path ms).flatMap (Stmt.writes q) = []
  | [], _, _ => rfl
  | m :: ms, path, h => by
    have hp : path ≠ q := by simpa using h []
    simp only [subStmts, List.flatMap_append]
    rw [stmts_writes s q m (path ++ [m.name]) (fun r => by rw [List.append_assoc]; exact h _),
      subStmts_writes s q ms path h]
    simp [Stmt.writes, hp]
end

theorem subStmts_names (s : Settings) : ∀ ms : List Mod,
    (subStmts s [] ms).flatMap (Stmt.writes []) = ms.map Mod.name
  | [] => rfl
  | m :: ms => by
    simp only [subStmts, List.flatMap_append]
    rw [stmts_writes s [] m ([] ++ [m.name]) (fun r => by simp), subStmts_names s ms]
    simp [Stmt.writes]

theorem ownStmts_names (s : Settings) (c : Cls) :
    (ownStmts s [] c).flatMap (Stmt.writes []) = c.attributes s := by
  simp only [ownStmts, List.flatMap_append, Cls.attributes]
  have h1 : ((if c.narrow = .self then
      [Stmt.addPointer [] (hidden (typeMapName s c.decl)) ⟨typeMapName s c.decl, false⟩] else [])).flatMap
      (Stmt.writes []) = if c.narrow = .self then [hidden (typeMapName s c.decl)] else [] := by
    split <;> simp [Stmt.writes]
  have h3 : ((if c.bases = [] ∧ s.stdMap = true then
      [Stmt.addPointer [] (hidden (registryName s c.decl)) ⟨registryName s c.decl, false⟩] else [])).flatMap
      (Stmt.writes []) =
      if c.bases = [] ∧ s.stdMap = true then [hidden (registryName s c.decl)] else [] := by
    split <;> simp [Stmt.writes]
  rw [h1, h3]
  have h2 : (registerStmts s c).flatMap (Stmt.writes []) = [] := by
    unfold registerStmts
    cases c.narrow <;> rfl
  have h4 : (baseStmts s c).flatMap (Stmt.writes []) = [] := by
    unfold baseStmts
    rcases c.bases with _ | ⟨b, _ | ⟨b2, bs⟩⟩ <;> rfl
  have h6 : (placeStmts s [] c).flatMap (Stmt.writes []) =
      if c.topLevel = true then [c.pythonName] else [] := by
    unfold Cls.topLevel placeStmts
    cases c.decl <;> simp [Stmt.writes]
  rw [h2, h4, h6]
  simp [Stmt.writes]

theorem ext_names (x : Ext) : x.stmts.flatMap (Stmt.writes []) = x.attributes := by
  obtain ⟨s, ⟨name, classes, typedefs, subs⟩⟩ := x
  simp only [Ext.stmts, stmts, List.flatMap_append, Ext.attributes, Mod.classes, Mod.typedefs, Mod.subs]
  rw [subStmts_names, List.flatMap_assoc]
  have h1 : ((classes.filter (·.imported)).map (fun c => Stmt.block (importBlock s c))).flatMap
      (Stmt.writes []) = [] := by
    simp [List.flatMap_map, Stmt.writes]
  have h3 : (typedefs.map (fun t => Stmt.addType [] t.2 (typeLv s t.1))).flatMap (Stmt.writes []) =
      typedefs.map (·.2) := by
    induction typedefs with
    | nil => rfl
    | cons t ts ih => simp only [List.map_cons, List.flatMap_cons, ih]; simp [Stmt.writes]
  rw [h1, h3]
  simp only [ownStmts_names, List.nil_append, List.append_assoc]

/-! ## Pointers written by the init function -/

def BStmt.vars : BStmt → List Str
  | .importModule _ => []
  | .getType v _ => [v]
  | .getMap v _ => [v]
  | .getRegistry v _ => [v]

def Stmt.vars : Stmt → List Str
  | .block b => b.flatMap BStmt.vars
  | _ => []

theorem bstep_ptr {ext : Str} {w w' : World} {m m' : Addr} {b : BStmt} {v : Str} (hv : v ∉ b.vars)
    (h : bstep ext w m b = .ok (w', m')) : w'.ptr ext v = w.ptr ext v := by
  have key : ∀ k (x : Option Addr), v ∉ [k] → (setPtr w ext k x).ptr ext v = w.ptr ext v := by
    intro k x hk
    simp only [List.mem_singleton] at hk
    simp only [setPtr, upd_same]
    exact upd_ne _ _ _ _ hk
  cases b with
  | importModule n =>
    simp only [bstep] at h
    cases hs : w.sys n with
    | none => rw [hs] at h; cases h
    | some a => rw [hs] at h; cases h; rfl
  | getType var attr => cases h; exact key _ _ hv
  | getMap var attr =>
    simp only [bstep] at h
    cases hs : w.attrs m attr with
    | none => rw [hs] at h; cases h; exact key _ _ hv
    | some a => rw [hs] at h; cases h; exact key _ _ hv
  | getRegistry var attr =>
    simp only [bstep] at h
    cases hs : w.attrs m attr with
    | none => rw [hs] at h; cases h; exact key _ _ hv
    | some a => rw [hs] at h; cases h; exact key _ _ hv

theorem brun_ptr {ext v : Str} : ∀ (bs : List BStmt) (w w' : World) (m : Addr),
    v ∉ bs.flatMap BStmt.vars → brun ext w m bs = .ok w' → w'.ptr ext v = w.ptr ext v
  | [], w, w', m, _, h => by cases h; rfl
  | b :: bs, w, w', m, hv, h => by
    simp only [List.flatMap_cons, List.mem_append, not_or] at hv
    unfold brun at h
    cases hb : bstep ext w m b with
    | error e => rw [hb] at h; cases h
    | ok r =>
      obtain ⟨w1, m1⟩ := r
      rw [hb] at h
      exact (brun_ptr bs w1 w' m1 hv.2 h).trans (bstep_ptr hv.1 hb)

theorem step_ptr {ext v : Str} {fuel : Nat} {w w' : World} {st : Stmt} (hv : v ∉ st.vars)
    (h : step ext fuel w st = .ok w') : w'.ptr ext v = w.ptr ext v := by
  cases st with
  | block b => exact brun_ptr b w w' _ hv h
  | addType path n x =>
    simp only [step] at h
    cases ha : addr w ext x with
    | none => rw [ha] at h; cases h
    | some a => rw [ha] at h; cases h; rfl
  | addPointer path n x =>
    simp only [step] at h
    cases ha : addr w ext x with
    | none => rw [ha] at h; cases h
    | some a => rw [ha] at h; cases h; rfl
  | setDict outer n x =>
    simp only [step] at h
    cases ho : addr w ext outer with
    | none => rw [ho] at h; cases h
    | some o =>
      cases ha : addr w ext x with
      | none => rw [ho, ha] at h; cases h
      | some a =>
        rw [ho, ha] at h
        simp only at h
        split at h
        · cases h
        · split at h
          · cases h; rfl
          · cases h
  | register map cpp x =>
    simp only [step] at h
    cases ho : addr w ext map with
    | none => rw [ho] at h; cases h
    | some o =>
      cases ha : addr w ext x with
      | none => rw [ho, ha] at h; cases h
      | some a => rw [ho, ha] at h; cases h; rfl
  | setBase x b =>
    simp only [step] at h
    cases ha : addr w ext x with
    | none => rw [ha] at h; cases h
    | some a => rw [ha] at h; cases h; rfl
  | setBases x bs =>
    simp only [step] at h
    cases ha : addr w ext x with
    | none => rw [ha] at h; cases h
    | some a =>
      rw [ha] at h
      simp only at h
      split at h
      · cases h; rfl
      · cases h
  | ready x =>
    simp only [step] at h
    cases ha : addr w ext x with
    | none => rw [ha] at h; cases h
    | some a =>
      rw [ha] at h
      rw [(readyType_same _ _ _ _ h).2.2]
  | addModule path n => cases h; rfl

theorem run_ptr {ext v : Str} {fuel : Nat} : ∀ (l : List Stmt) (w w' : World),
    v ∉ l.flatMap Stmt.vars → run ext fuel w l = .ok w' → w'.ptr ext v = w.ptr ext v
  | [], w, w', _, h => by cases h; rfl
  | st :: l, w, w', hn, h => by
    simp only [List.flatMap_cons, List.mem_append, not_or] at hn
    unfold run at h
    cases hs : step ext fuel w st with
    | error f => rw [hs] at h; cases h
    | ok w1 =>
      rw [hs] at h
      exact (run_ptr l w1 w' hn.2 h).trans (step_ptr hn.1 hs)

/-- A property of pointers established by one block, which is not undone: `P` is about variables only
that block writes. -/
theorem run_block {ext : Str} {fuel : Nat} {b : List BStmt} (e : Str) (he : e ≠ ext) :
    ∀ (l : List Stmt) (w w' : World), (l.flatMap Stmt.vars).Nodup → Stmt.block b ∈ l →
    run ext fuel w l = .ok w' →
    ∃ w1 w2, Keeps e w w1 ∧ brun ext w1 .object b = .ok w2 ∧
      ∀ v ∈ b.flatMap BStmt.vars, w'.ptr ext v = w2.ptr ext v
  | [], _, _, _, hm, _ => by cases hm
  | s0 :: l, w, w', hd, hm, h => by
    unfold run at h
    cases hs : step ext fuel w s0 with
    | error f => rw [hs] at h; cases h
    | ok w1 =>
      rw [hs] at h
      rw [List.flatMap_cons, List.nodup_append] at hd
      rcases List.mem_cons.1 hm with hm | hm
      · subst hm
        refine ⟨w, w1, Keeps.refl e w, hs, ?_⟩
        intro v hv
        refine run_ptr l w1 w' ?_ h
        intro hc
        exact hd.2.2 v hv v hc rfl
      · obtain ⟨wa, wb, ha, hb, hc⟩ := run_block e he l w1 w' hd.2.1 hm h
        exact ⟨wa, wb, (step_keeps he hs).trans ha, hb, hc⟩

end Verif.Imports
