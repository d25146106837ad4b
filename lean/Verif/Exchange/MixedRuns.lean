import Verif.Exchange.MixedSpec

/-!
# C103: each handler does its part
-/
namespace Verif.Exchange
open Verif Verif.Flow Verif.Params Verif.DeclScope Verif.Wrap

variable {T D N : Type}

/-- The memory after a successful call of an override that returned `x`. -/
structure Got (L : XLib T D N) (x : PyV T D) (g : G T D) : Prop where
  res : g.h.res = some (x, (chars L.lib.codec x).getD [])
  held : g.h.held = true
  bufs : g.h.bufs = []

/-- The handler of argument `a`: in state `y` when Python is called, in state `z` afterwards. -/
structure Runs (L : XLib T D N) (a : XArg T D N) (y z : X T D N) : Prop where
  befores : a.start.befores L = some y
  dy : y.d = a.kind.desc a.name
  pass0 : a.kind.passes = false → (a.kind.desc a.name).pass = none ∧ z = y
  pass1 : a.kind.passes = true → ∃ u, (a.kind.desc a.name).pass = some u ∧ ∀ g, y.pass L g u = some (a.input L, z)
  dz : z.d = a.kind.desc a.name
  cell : z.cell = a.sent
  back : (a.kind.desc a.name).back.isSome = a.kind.isOut
  plain : a.kind.isOut = false → ∀ g, ∃ z', z.afters L g = some (z', g) ∧ z'.cell = a.result
  out : a.kind.isOut = true → ∀ x g, Got L x g → ∃ u, (a.kind.desc a.name).back = some u ∧
    ∃ z' g', z.parse L g x u = some ((a.took L x).ok, z', g') ∧
      ((a.took L x).ok = false → z'.cell = (a.took L x).val ∧ g' = g) ∧
      ((a.took L x).ok = true → g'.pending = g.pending ∧ g'.h.bufs = (a.took L x).leaked ∧
        ∀ q : G T D, q.h = g'.h → ∃ z'', z'.afters L q = some (z'', { q with pending := q.pending || (a.took L x).pending }) ∧
          z''.cell = (a.took L x).val)

theorem result_plain {a : Arg} (h : a.kind.isOut = false) (b : Bytes) : a.result b = a.result [] := by
  simp [Arg.result, h]

theorem runs_s (L : XLib T D N) (name : Str) (k : PK) (c : Cell) (hg : Arg.Good ⟨name, k, c⟩) :
    Runs L (⟨name, .s k, .s c⟩ : XArg T D N) (.s (Arg.ready ⟨name, k, c⟩)) (.s (Arg.ready ⟨name, k, c⟩)) where
  befores := by
    exact congrArg (Option.map X.s) (befores_ready ⟨name, k, c⟩ hg)
  dy := ready_d _
  dz := ready_d _
  cell := congrArg XC.s (ready_cell ⟨name, k, c⟩)
  back := back_iff ⟨name, k, c⟩
  pass0 h := by
    rcases pass_ready L.lib.codec ⟨name, k, c⟩ hg ({} : Heap T D) with ⟨h1, h2⟩ | ⟨h1, -⟩
    · rw [ready_d] at h2; exact ⟨h2, rfl⟩
    · rw [show k.isIn = false from h] at h1; cases h1
  pass1 h := by
    rcases pass_ready L.lib.codec ⟨name, k, c⟩ hg ({} : Heap T D) with ⟨h1, -⟩ | ⟨h1, u, h2, h3⟩
    · rw [show k.isIn = true from h] at h1; cases h1
    · rw [ready_d] at h2
      refine ⟨u, h2, fun g => ?_⟩
      rcases pass_ready L.lib.codec ⟨name, k, c⟩ hg g.h with ⟨h4, -⟩ | ⟨-, u', h5, h6⟩
      · rw [h1] at h4; cases h4
      · rw [ready_d, h2] at h5
        cases h5
        simp only [X.pass, h6]; rfl
  plain h g := by
    obtain ⟨h', j1, j2⟩ := afters_plain ⟨name, k, c⟩ hg h g.h []
    exact ⟨.s h', by simp only [X.afters, j1]; rfl, congrArg XC.s j2⟩
  out h x g hx := by
    obtain ⟨u, hu, hr⟩ := parse_out L.lib.codec ⟨name, k, c⟩ hg h x g.h hx.res hx.held hx.bufs
    rw [ready_d] at hu
    refine ⟨u, hu, ?_⟩
    rcases hr with ⟨r1, r2⟩ | ⟨b, h', g', r1, r2, r3, r4, h'', r5, r6⟩
    · have ht : XArg.took L x (⟨name, .s k, .s c⟩ : XArg T D N) = { ok := false, val := .s c } := by
        simp only [XArg.took, show k.take L.lib.codec x = none from r1]
      rw [ht]
      refine ⟨.s (Arg.ready ⟨name, k, c⟩), g, by simp only [X.parse, r2]; rfl, fun _ => ⟨congrArg XC.s (ready_cell _), rfl⟩, nofun⟩
    · have ht : XArg.took L x (⟨name, .s k, .s c⟩ : XArg T D N) =
          { ok := true, val := .s (Arg.result b ⟨name, k, c⟩), leaked := if k.isGlib then [b] else [] } := by
        simp only [XArg.took, show k.take L.lib.codec x = some b from r1]
      rw [ht]
      refine ⟨.s h', { g with h := g' }, by simp only [X.parse, r2]; rfl, nofun, fun _ => ⟨rfl, r4, fun q hq => ?_⟩⟩
      refine ⟨.s h'', ?_, congrArg XC.s r6⟩
      obtain ⟨qh, qp⟩ := q
      simp only at hq
      subst hq
      simp only [X.afters, r5, Option.map_some, Bool.or_false]

theorem isTrue_eq (L : XLib T D N) (q : G T D) (s : VS T D N) (i : Nat) (x : PyV T D) (e1 : s.env i = some (.obj x))
    (e2 : q.h.held = true) :
    s.isTrue L q i = some ({ s with cell := { s.cell with val := .bool (L.lib.isTrueC x) } },
      { q with pending := q.pending || (L.lib.truth x).isNone }) := by
  simp only [VS.isTrue, e1, e2, if_true]

theorem runs_bool (L : XLib T D N) (name : Str) (b : Bool) :
    ∃ y z, Runs L (⟨name, .v .bool, .v ⟨.bool, .bool b, 0, 0⟩⟩ : XArg T D N) y z := by
  refine ⟨mkX (K.desc name (.v .bool)) (.v ⟨.bool, .bool b, 0, 0⟩), mkX (K.desc name (.v .bool)) (.v ⟨.bool, .bool b, 0, 0⟩),
    rfl, rfl, nofun, fun _ => ⟨_, rfl, fun g => ?_⟩, rfl, rfl, rfl, fun _ g => ⟨_, rfl, rfl⟩, nofun⟩
  simp [X.pass, mkX, VS.pass, tx, XArg.input, VK.input, K.desc, VK.desc]

theorem runs_boolPtr (L : XLib T D N) (name : Str) (i o b : Bool) :
    ∃ y z, Runs L (⟨name, .v (.boolPtr i o), .v ⟨.boolPtr, .bool b, 0, 0⟩⟩ : XArg T D N) y z := by
  refine ⟨mkX (K.desc name (.v (.boolPtr i o))) (.v ⟨.boolPtr, .bool b, 0, 0⟩),
    mkX (K.desc name (.v (.boolPtr i o))) (.v ⟨.boolPtr, .bool b, 0, 0⟩),
    by cases i <;> cases o <;> rfl, rfl, ?_, ?_, rfl, rfl, by cases o <;> rfl, ?_, ?_⟩
  · intro h
    cases i
    · exact ⟨rfl, rfl⟩
    · cases h
  · intro h
    cases i
    · cases h
    · exact ⟨_, rfl, fun g => by simp [X.pass, mkX, VS.pass, tx, XArg.input, VK.input, K.desc, VK.desc]⟩
  · intro h g
    cases o
    · exact ⟨_, rfl, rfl⟩
    · cases h
  · intro h x g hx
    cases o
    · cases h
    · refine ⟨_, rfl, .v (VS.set ⟨K.desc name (.v (.boolPtr i true)), ⟨.boolPtr, .bool b, 0, 0⟩, fun _ => none⟩ 0 (.obj x)), g,
        by simp [X.parse, mkX, VS.parse, tx, XArg.took, VK.took], nofun, fun _ => ⟨rfl, hx.bufs, ?_⟩⟩
      intro q hq
      refine ⟨.v ⟨K.desc name (.v (.boolPtr i true)), ⟨.boolPtr, .bool (L.lib.isTrueC x), 0, 0⟩, fun j => if j = 0 then some (.obj x) else none⟩, ?_, rfl⟩
      simp only [X.afters, VS.afters, VS.after, VS.set, K.desc, VK.desc, tx, if_true, and_self]
      rw [isTrue_eq L q _ 0 x rfl (by rw [hq]; exact hx.held)]
      rfl

theorem runs_boolRef (L : XLib T D N) (name : Str) (i o b : Bool) :
    ∃ y z, Runs L (⟨name, .v (.boolRef i o), .v ⟨.bool, .bool b, 0, 0⟩⟩ : XArg T D N) y z := by
  refine ⟨mkX (K.desc name (.v (.boolRef i o))) (.v ⟨.bool, .bool b, 0, 0⟩),
    mkX (K.desc name (.v (.boolRef i o))) (.v ⟨.bool, .bool b, 0, 0⟩),
    by cases i <;> cases o <;> rfl, rfl, ?_, ?_, rfl, rfl, by cases o <;> rfl, ?_, ?_⟩
  · intro h
    cases i
    · exact ⟨rfl, rfl⟩
    · cases h
  · intro h
    cases i
    · cases h
    · exact ⟨_, rfl, fun g => by simp [X.pass, mkX, VS.pass, tx, XArg.input, VK.input, K.desc, VK.desc]⟩
  · intro h g
    cases o
    · exact ⟨_, rfl, rfl⟩
    · cases h
  · intro h x g hx
    cases o
    · cases h
    · refine ⟨_, rfl, .v (VS.set ⟨K.desc name (.v (.boolRef i true)), ⟨.bool, .bool b, 0, 0⟩, fun _ => none⟩ 0 (.obj x)), g,
        by simp [X.parse, mkX, VS.parse, tx, XArg.took, VK.took], nofun, fun _ => ⟨rfl, hx.bufs, ?_⟩⟩
      intro q hq
      refine ⟨.v ⟨K.desc name (.v (.boolRef i true)), ⟨.bool, .bool (L.lib.isTrueC x), 0, 0⟩, fun j => if j = 0 then some (.obj x) else none⟩, ?_, rfl⟩
      simp only [X.afters, VS.afters, VS.after, VS.set, K.desc, VK.desc, tx, if_true, and_self]
      rw [isTrue_eq L q _ 0 x rfl (by rw [hq]; exact hx.held)]
      rfl

theorem before_new (L : XLib T D N) (d : RevD) (c : Cont) (v : CVal T D N) (e : Nat → Option (WV T D)) :
    (⟨d, ⟨.cont c, v, 0, 0⟩, e⟩ : VS T D N).before L (contNew c) =
      some (VS.set ⟨d, ⟨.cont c, v, 0, 0⟩, e⟩ 0 (.fresh none)) := by
  simp [VS.before, contNew, tx]

theorem before_copy (L : XLib T D N) (d : RevD) (c : Cont) (k : Nat) (e : Nat → Option (WV T D)) (he : e 0 = some (.fresh none)) :
    (⟨d, ⟨.cont c, .cont k, 0, 0⟩, e⟩ : VS T D N).before L (contCopy c d.name) =
      some (VS.set ⟨d, ⟨.cont c, .cont k, 0, 0⟩, e⟩ 0 (.fresh (some k))) := by
  simp [VS.before, contCopy, tx, he]

theorem before_empty (L : XLib T D N) (d : RevD) (c : Cont) (v : CVal T D N) (e : Nat → Option (WV T D)) (he : e 0 = some (.fresh none)) :
    (⟨d, ⟨.cont c, v, 0, 0⟩, e⟩ : VS T D N).before L (contEmpty c) =
      some (VS.set ⟨d, ⟨.cont c, v, 0, 0⟩, e⟩ 0 (.fresh (some (L.empty c.full)))) := by
  simp [VS.before, contEmpty, tx, he]

/-- A handler whose first variable is a new wrapper with the given content. -/
def withFresh (d : RevD) (c : Cont) (k n : Nat) : VS T D N :=
  { d, cell := ⟨.cont c, .cont k, 0, 0⟩, env := fun j => if j = 0 then some (.fresh (some n)) else none }

theorem set_set (s : VS T D N) (a b : WV T D) (hs : s.env = fun _ => none) :
    (s.set 0 a).set 0 b = { s with env := fun j => if j = 0 then some b else none } := by
  simp only [VS.set]
  congr 1
  funext j
  by_cases h : j = 0 <;> simp [h, hs]

theorem runs_cont (L : XLib T D N) (name : Str) (c : Cont) (k : Nat) :
    ∃ y z, Runs L (⟨name, .v (.cont c), .v ⟨.cont c, .cont k, 0, 0⟩⟩ : XArg T D N) y z := by
  refine ⟨.v (withFresh (K.desc name (.v (.cont c))) c k k), .v (withFresh (K.desc name (.v (.cont c))) c k k),
    ?_, rfl, nofun, fun _ => ⟨_, rfl, fun g => ?_⟩, rfl, rfl, rfl, fun _ g => ⟨_, rfl, rfl⟩, nofun⟩
  · show Option.map X.v (VS.befores L ⟨K.desc name (.v (.cont c)), ⟨.cont c, .cont k, 0, 0⟩, fun _ => none⟩ [contNew c, contCopy c name]) = _
    rw [VS.befores, before_new, Option.bind_some, VS.befores]
    rw [show contCopy c name = contCopy c (K.desc name (.v (.cont c))).name from rfl]
    simp only [VS.set]
    rw [before_copy L _ _ _ _ (by simp), Option.bind_some, VS.befores]
    exact congrArg (fun s => some (X.v s)) (set_set ⟨K.desc name (.v (.cont c)), ⟨.cont c, .cont k, 0, 0⟩, fun _ => none⟩ (.fresh none) _ rfl)
  · simp [X.pass, withFresh, VS.pass, XArg.input, VK.input]

theorem runs_contRef (L : XLib T D N) (name : Str) (c : Cont) (i o : Bool) (k : Nat) :
    ∃ y z, Runs L (⟨name, .v (.contRef c i o), .v ⟨.cont c, .cont k, 0, 0⟩⟩ : XArg T D N) y z := by
  refine ⟨.v (withFresh (K.desc name (.v (.contRef c i o))) c k (if i then k else L.empty c.full)),
    .v (withFresh (K.desc name (.v (.contRef c i o))) c k (if i then k else L.empty c.full)),
    ?_, rfl, nofun, fun _ => ⟨_, rfl, fun g => ?_⟩, rfl, rfl, by cases o <;> rfl, ?_, ?_⟩
  · cases i
    · show Option.map X.v (VS.befores L ⟨K.desc name (.v (.contRef c false o)), ⟨.cont c, .cont k, 0, 0⟩, fun _ => none⟩ [contNew c, contEmpty c]) = _
      rw [VS.befores, before_new, Option.bind_some, VS.befores]
      simp only [VS.set]
      rw [before_empty L _ _ _ _ (by simp), Option.bind_some, VS.befores]
      exact congrArg (fun s => some (X.v s)) (set_set ⟨K.desc name (.v (.contRef c false o)), ⟨.cont c, .cont k, 0, 0⟩, fun _ => none⟩ (.fresh none) _ rfl)
    · show Option.map X.v (VS.befores L ⟨K.desc name (.v (.contRef c true o)), ⟨.cont c, .cont k, 0, 0⟩, fun _ => none⟩ [contNew c, contCopy c name]) = _
      rw [VS.befores, before_new, Option.bind_some, VS.befores]
      rw [show contCopy c name = contCopy c (K.desc name (.v (.contRef c true o))).name from rfl]
      simp only [VS.set]
      rw [before_copy L _ _ _ _ (by simp), Option.bind_some, VS.befores]
      exact congrArg (fun s => some (X.v s)) (set_set ⟨K.desc name (.v (.contRef c true o)), ⟨.cont c, .cont k, 0, 0⟩, fun _ => none⟩ (.fresh none) _ rfl)
  · simp [X.pass, withFresh, VS.pass, XArg.input, VK.input]
  · intro h g
    cases o
    · exact ⟨_, rfl, rfl⟩
    · cases h
  · intro h x g hx
    cases o
    · cases h
    · refine ⟨_, rfl, .v (withFresh (K.desc name (.v (.contRef c i true))) c (L.conv c.conv x k).2 (if i then k else L.empty c.full)), g, ?_, fun _ => ⟨rfl, rfl⟩, fun _ => ⟨rfl, hx.bufs, fun q hq => ⟨.v (withFresh (K.desc name (.v (.contRef c i true))) c (L.conv c.conv x k).2 (if i then k else L.empty c.full)), ?_, ?_⟩⟩⟩
      · simp [X.parse, withFresh, VS.parse, tx, XArg.took, VK.took, K.desc, VK.desc]
      · simp only [XArg.took, VK.took, Bool.or_false]; rfl
      · rfl

theorem runs_obj (L : XLib T D N) (name : Str) (t : Bool) (o : Option (PyV T D)) :
    ∃ y z, Runs L (⟨name, .v (.obj t), .v ⟨.obj, .obj o, 0, 0⟩⟩ : XArg T D N) y z := by
  refine ⟨mkX (K.desc name (.v (.obj t))) (.v ⟨.obj, .obj o, 0, 0⟩),
    mkX (K.desc name (.v (.obj t))) (.v (VK.sent (.obj t) ⟨.obj, .obj o, 0, 0⟩)),
    rfl, rfl, nofun, fun _ => ⟨_, rfl, fun g => ?_⟩, rfl, rfl, rfl, fun _ g => ⟨_, rfl, rfl⟩, nofun⟩
  cases t <;> cases o <;> simp [X.pass, mkX, VS.pass, VS.passObj, XArg.input, VK.input, K.desc, VK.desc, VK.sent]

theorem runs_num (L : XLib T D N) (name : Str) (f : Str) (n : N) (hf : IsNum f) :
    ∃ y z, Runs L (⟨name, .v (.num f), .v ⟨.num f, .num n, 0, 0⟩⟩ : XArg T D N) y z := by
  refine ⟨mkX (K.desc name (.v (.num f))) (.v ⟨.num f, .num n, 0, 0⟩), mkX (K.desc name (.v (.num f))) (.v ⟨.num f, .num n, 0, 0⟩),
    rfl, rfl, nofun, fun _ => ⟨_, rfl, fun g => ?_⟩, rfl, rfl, rfl, fun _ g => ⟨_, rfl, rfl⟩, nofun⟩
  simp only [X.pass, mkX, VS.pass, K.desc, VK.desc, if_neg hf.2.1, if_neg hf.2.2.1, and_self, if_true, Option.map_some]
  rfl

theorem runs_numPtr (L : XLib T D N) (name : Str) (f : Str) (i o : Bool) (n : N) (hf : IsNum f) :
    ∃ y z, Runs L (⟨name, .v (.numPtr f i o), .v ⟨.numPtr f, .num n, 0, 0⟩⟩ : XArg T D N) y z := by
  refine ⟨mkX (K.desc name (.v (.numPtr f i o))) (.v ⟨.numPtr f, .num n, 0, 0⟩),
    mkX (K.desc name (.v (.numPtr f i o))) (.v ⟨.numPtr f, .num n, 0, 0⟩),
    by cases i <;> cases o <;> rfl, rfl, ?_, ?_, rfl, rfl, by cases o <;> rfl, ?_, ?_⟩
  · intro h
    cases i
    · exact ⟨rfl, rfl⟩
    · cases h
  · intro h
    cases i
    · cases h
    · refine ⟨_, rfl, fun g => ?_⟩
      simp only [X.pass, mkX, VS.pass, K.desc, VK.desc, if_neg hf.2.1, if_neg hf.2.2.1, tx, and_self, if_true, Option.map_some]
      rfl
  · intro h g
    cases o
    · exact ⟨_, rfl, rfl⟩
    · cases h
  · intro h x g hx
    cases o
    · cases h
    · cases hn : L.numIn f x with
      | none =>
        refine ⟨_, rfl, mkX (K.desc name (.v (.numPtr f i true))) (.v ⟨.numPtr f, .num n, 0, 0⟩), g, ?_, fun _ => ⟨?_, rfl⟩, ?_⟩
        · simp only [X.parse, mkX, VS.parse, K.desc, VK.desc, if_neg hf.2.2.2, if_neg hf.2.2.1, and_self, if_true, Option.map_some,
            VS.storeNum, hn, XArg.took, VK.took]
        · simp only [XArg.took, VK.took, hn]; rfl
        · simp only [XArg.took, VK.took, hn]; nofun
      | some m =>
        refine ⟨_, rfl, mkX (K.desc name (.v (.numPtr f i true))) (.v ⟨.numPtr f, .num m, 0, 0⟩), g, ?_, ?_,
          fun _ => ⟨rfl, ?_, fun q hq => ⟨mkX (K.desc name (.v (.numPtr f i true))) (.v ⟨.numPtr f, .num m, 0, 0⟩), ?_, ?_⟩⟩⟩
        · simp only [X.parse, mkX, VS.parse, K.desc, VK.desc, if_neg hf.2.2.2, if_neg hf.2.2.1, and_self, if_true, Option.map_some,
            VS.storeNum, hn, XArg.took, VK.took]
        · simp only [XArg.took, VK.took, hn]; nofun
        · simp only [XArg.took, VK.took, hn]; exact hx.bufs
        · simp only [XArg.took, VK.took, hn, Bool.or_false]; rfl
        · simp only [XArg.took, VK.took, hn]; rfl

theorem runs_v (L : XLib T D N) (name : Str) (k : VK) (c : VCell T D N) (hk : k.Good) (ht : c.ty = k.ty)
    (hv : k.ty.has c.val) (h0 : c.taken = 0) (h1 : c.added = 0) :
    ∃ y z, Runs L (⟨name, .v k, .v c⟩ : XArg T D N) y z := by
  obtain ⟨ty, val, taken, added⟩ := c
  simp only at ht h0 h1 hv
  subst ht h0 h1
  cases k <;> cases val <;> first | exact hv.elim | skip
  · exact runs_bool L name _
  · exact runs_boolPtr L name _ _ _
  · exact runs_boolRef L name _ _ _
  · exact runs_cont L name _ _
  · exact runs_contRef L name _ _ _ _
  · exact runs_obj L name _ _
  · exact runs_num L name _ _ hk
  · exact runs_numPtr L name _ _ _ _ hk

/-- Every argument of the right type. -/
theorem runs_of_good (L : XLib T D N) (a : XArg T D N) (h : a.Good) : ∃ y z, Runs L a y z := by
  obtain ⟨name, kind, cell⟩ := a
  cases kind with
  | s k =>
    cases cell with
    | s c => exact ⟨_, _, runs_s L name k c h⟩
    | v c => exact h.elim
  | v k =>
    cases cell with
    | s c => exact h.elim
    | v c => exact runs_v L name k c h.1 h.2.1 h.2.2.1 h.2.2.2.1 h.2.2.2.2

end Verif.Exchange
