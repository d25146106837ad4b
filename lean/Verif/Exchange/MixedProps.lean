import Verif.Exchange.MixedRuns

/-!
# C103: the whole call
-/
namespace Verif.Exchange
open Verif Verif.Flow Verif.Params Verif.DeclScope Verif.Wrap

variable {T D N : Type}

/-- The handlers of all arguments, in both states. -/
theorem runs_all (L : XLib T D N) (args : List (XArg T D N)) (h : ∀ a ∈ args, a.Good) :
    ∃ l : List (XArg T D N × X T D N × X T D N), l.map (·.1) = args ∧ ∀ t ∈ l, Runs L t.1 t.2.1 t.2.2 := by
  induction args with
  | nil => exact ⟨[], rfl, fun t ht => (List.not_mem_nil ht).elim⟩
  | cons a as ih =>
    obtain ⟨l, h1, h2⟩ := ih (fun b hb => h b (List.mem_cons_of_mem _ hb))
    obtain ⟨y, z, h3⟩ := runs_of_good L a (h a List.mem_cons_self)
    refine ⟨(a, y, z) :: l, by rw [List.map_cons, h1], fun t ht => ?_⟩
    rcases List.mem_cons.mp ht with rfl | ht
    · exact h3
    · exact h2 t ht

variable {L : XLib T D N}

theorem befores_runs : ∀ l : List (XArg T D N × X T D N × X T D N), (∀ t ∈ l, Runs L t.1 t.2.1 t.2.2) →
    beforesAll L (l.map (fun t => t.1.start)) = some (l.map (·.2.1))
  | [], _ => rfl
  | t :: l, h => by
    simp only [List.map_cons, beforesAll, (h t List.mem_cons_self).befores,
      befores_runs l (fun b hb => h b (List.mem_cons_of_mem _ hb)), Option.bind_some, Option.map_some]

theorem pass_runs (g : G T D) : ∀ l : List (XArg T D N × X T D N × X T D N), (∀ t ∈ l, Runs L t.1 t.2.1 t.2.2) →
    passX L g (l.map (·.2.1)) = some (inputsX L (l.map (·.1)), l.map (·.2.2))
  | [], _ => rfl
  | t :: l, h => by
    have r := h t List.mem_cons_self
    have ih := pass_runs g l (fun b hb => h b (List.mem_cons_of_mem _ hb))
    simp only [List.map_cons, passX, inputsX, r.dy, ih]
    cases hp : t.1.kind.passes with
    | false =>
      obtain ⟨h1, h2⟩ := r.pass0 hp
      simp only [h1, Option.map_some, Bool.false_eq_true, if_false, h2]
    | true =>
      obtain ⟨u, h1, h2⟩ := r.pass1 hp
      simp only [h1, h2 g, Option.map_some, Option.bind_some, if_true]

theorem cells_runs (l : List (XArg T D N × X T D N × X T D N)) (h : ∀ t ∈ l, Runs L t.1 t.2.1 t.2.2) :
    (l.map (·.2.2)).map (·.cell) = (l.map (·.1)).map (·.sent) := by
  rw [List.map_map, List.map_map]
  exact List.map_congr_left (fun t ht => (h t ht).cell)

theorem afters_runs (g : G T D) : ∀ l : List (XArg T D N × X T D N × X T D N), (∀ t ∈ l, Runs L t.1 t.2.1 t.2.2) →
    (l.map (·.1)).filter (fun a => a.kind.isOut) = [] →
    ∃ hs, aftersAll L g (l.map (·.2.2)) = some (hs, g) ∧ hs.map (·.cell) = (l.map (·.1)).map (·.result)
  | [], _, _ => ⟨[], rfl, rfl⟩
  | t :: l, h, hf => by
    have r := h t List.mem_cons_self
    rw [List.map_cons, List.filter_cons] at hf
    split at hf
    · cases hf
    · rename_i ho
      obtain ⟨hs, i1, i2⟩ := afters_runs g l (fun b hb => h b (List.mem_cons_of_mem _ hb)) hf
      obtain ⟨z', j1, j2⟩ := r.plain (by simpa using ho) g
      refine ⟨z' :: hs, ?_, by simp [j2, i2]⟩
      simp only [List.map_cons, aftersAll, j1, i1, Option.bind_some, Option.map_some]

theorem map_plain {f g : XArg T D N → XC T D N} : ∀ {l : List (XArg T D N)}, l.filter (fun a => a.kind.isOut) = [] →
    l.map (fun c => if c.kind.isOut then f c else g c) = l.map g
  | [], _ => rfl
  | c :: l, h => by
    rw [List.filter_cons] at h
    split at h
    · cases h
    · rename_i ho
      rw [List.map_cons, List.map_cons, if_neg ho, map_plain h]

theorem parse_runs (x : PyV T D) (g : G T D) (hg : Got L x g) (a : XArg T D N) :
    ∀ l : List (XArg T D N × X T D N × X T D N), (∀ t ∈ l, Runs L t.1 t.2.1 t.2.2) →
    (l.map (·.1)).filter (fun a => a.kind.isOut) = [a] →
    ∃ hs' g', parseOne L g x (l.map (·.2.2)) = some ((a.took L x).ok, hs', g') ∧
      ((a.took L x).ok = false → g' = g ∧
        hs'.map (·.cell) = (l.map (·.1)).map (fun c => if c.kind.isOut then (c.took L x).val else c.sent)) ∧
      ((a.took L x).ok = true → g'.pending = g.pending ∧ g'.h.bufs = (a.took L x).leaked ∧
        ∃ hs'', aftersAll L g' hs' = some (hs'', { g' with pending := g'.pending || (a.took L x).pending }) ∧
          hs''.map (·.cell) = (l.map (·.1)).map (fun c => if c.kind.isOut then (c.took L x).val else c.result))
  | [], _, hf => nomatch hf
  | t :: l, h, hf => by
    have r := h t List.mem_cons_self
    have hl := fun b (hb : b ∈ l) => h b (List.mem_cons_of_mem _ hb)
    rw [List.map_cons, List.filter_cons] at hf
    simp only [List.map_cons, parseOne, r.dz]
    split at hf
    · rename_i ho
      have ho : t.1.kind.isOut = true := by simpa using ho
      simp only [List.cons.injEq] at hf
      obtain ⟨rfl, hf⟩ := hf
      obtain ⟨u, hu, z', g', h1, h2, h3⟩ := r.out ho x g hg
      simp only [hu, h1, Option.map_some, ho, if_true]
      refine ⟨_, _, rfl, fun e => ⟨(h2 e).2, ?_⟩, fun e => ⟨(h3 e).1, (h3 e).2.1, ?_⟩⟩
      · rw [List.map_cons, (h2 e).1, map_plain hf, cells_runs l hl]
      · obtain ⟨z'', h4, h5⟩ := (h3 e).2.2 g' rfl
        obtain ⟨hs, i1, i2⟩ := afters_runs { g' with pending := g'.pending || (t.1.took L x).pending } l hl hf
        refine ⟨z'' :: hs, ?_, ?_⟩
        · simp only [aftersAll, h4, i1, Option.bind_some, Option.map_some]
        · rw [List.map_cons, h5, i2, map_plain hf]
    · rename_i ho
      have ho : t.1.kind.isOut = false := by simpa using ho
      have hn : (t.1.kind.desc t.1.name).back = none := by
        have := r.back
        rw [ho] at this
        simpa using this
      obtain ⟨hs', g', h1, h2, h3⟩ := parse_runs x g hg a l hl hf
      simp only [hn, h1, Option.map_some, ho, Bool.false_eq_true, if_false]
      refine ⟨_, _, rfl, fun e => ⟨(h2 e).1, ?_⟩, fun e => ⟨(h3 e).1, (h3 e).2.1, ?_⟩⟩
      · rw [List.map_cons, r.cell, (h2 e).2]
      · obtain ⟨hs'', h4, h5⟩ := (h3 e).2.2
        obtain ⟨z', j1, j2⟩ := r.plain ho g'
        refine ⟨z' :: hs'', ?_, ?_⟩
        · simp only [aftersAll, j1, h4, Option.bind_some, Option.map_some]
        · rw [List.map_cons, j2, h5]

theorem filter_runs : ∀ l : List (XArg T D N × X T D N × X T D N), (∀ t ∈ l, Runs L t.1 t.2.1 t.2.2) →
    ((l.map (·.2.2)).filter (fun h => h.d.back.isSome)).length = ((l.map (·.1)).filter (fun a => a.kind.isOut)).length
  | [], _ => rfl
  | t :: l, h => by
    have r := h t List.mem_cons_self
    have ih := filter_runs l (fun b hb => h b (List.mem_cons_of_mem _ hb))
    rw [List.map_cons, List.map_cons, List.filter_cons, List.filter_cons, r.dz, r.back]
    cases t.1.kind.isOut <;> simp [ih]

def R.Good : R → Prop
  | .s _ => True
  | .v k => k.Good

/-- Parsing the return value, and what is returned then. -/
theorem parse_retX (L : XLib T D N) (r : R) (hr : r ≠ .s .void) (hk : r.Good) (x : PyV T D) (g : G T D) (hg : Got L x g) :
    ∃ u, r.desc.back = some u ∧ ∃ z' g', (mkX r.desc (r.cell L)).parse L g x u = some ((r.took L x).ok, z', g') ∧
      ((r.took L x).ok = false → g' = g) ∧
      ((r.took L x).ok = true → g'.pending = g.pending ∧ g'.h.bufs = (r.took L x).leaked ∧
        ∃ z'', z'.afters L g' = some (z'', { g' with pending := g'.pending || (r.took L x).pending }) ∧
          ∀ q : G T D, q.h.held = false → retValue q z'' = (r.took L x).val) := by
  cases r with
  | s k =>
    obtain ⟨u, hu, h⟩ := parse_ret L.lib.codec k (fun e => hr (e ▸ rfl)) x g.h hg.res hg.held hg.bufs
    refine ⟨u, hu, ?_⟩
    rcases h with ⟨r1, r2⟩ | ⟨b, h', g', r1, r2, r3, -, h'', r5, r6, r7, r8⟩
    · simp only [R.took, r1]
      exact ⟨.s { d := k.desc, cell := { ty := k.ty } }, g, by simp only [R.desc, R.cell, mkX, X.parse, r2, Option.map_some], fun _ => rfl, nofun⟩
    · simp only [R.took, r1]
      refine ⟨.s h', { g with h := g' }, by simp only [R.desc, R.cell, mkX, X.parse, r2, Option.map_some], nofun,
        fun _ => ⟨rfl, r3, .s h'', ?_, fun q hq => ?_⟩⟩
      · simp only [X.afters, r5, Option.map_some, Bool.or_false]
      · rw [if_neg (fun e : k = .void => hr (e ▸ rfl))]
        simp only [retValue, r6]
        cases k with
        | void => exact absurd rfl hr
        | cstr => simp [RK.ty, r8 rfl, Heap.read, hq]
        | char => simp [RK.ty, r7 (by simp)]
        | std => simp [RK.ty, r7 (by simp)]
        | glib => simp [RK.ty, r7 (by simp)]
  | v k =>
    cases k with
    | bool =>
      refine ⟨_, rfl, .v (VS.set ⟨VR.desc .bool, ⟨.bool, .unset, 0, 0⟩, fun _ => none⟩ 0 (.obj x)), g, ?_, nofun,
        fun _ => ⟨rfl, hg.bufs,
          .v ⟨VR.desc .bool, ⟨.bool, .bool (L.lib.isTrueC x), 0, 0⟩, fun j => if j = 0 then some (.obj x) else none⟩, ?_, fun q _ => rfl⟩⟩
      · simp [X.parse, mkX, VS.parse, tx, R.took, R.desc, R.cell, VR.ty]
      · simp only [X.afters, VS.afters, VS.after, VS.set, VR.desc, tx, if_true, and_self]
        rw [isTrue_eq L g _ 0 x rfl hg.held]
        rfl
    | cont c t =>
      refine ⟨_, rfl, .v ⟨VR.desc (.cont c t), ⟨.cont c, .cont (L.conv c.conv x (L.empty c.full)).2, 0, 0⟩, fun _ => none⟩, g, ?_,
        fun _ => rfl, fun _ => ⟨rfl, hg.bufs,
          .v ⟨VR.desc (.cont c t), ⟨.cont c, .cont (L.conv c.conv x (L.empty c.full)).2, 0, 0⟩, fun _ => none⟩, ?_, fun q _ => rfl⟩⟩
      · simp [X.parse, mkX, VS.parse, tx, R.took, R.desc, R.cell, VR.ty, VR.desc]
      · simp only [R.took, Bool.or_false]; rfl
    | obj owned =>
      cases owned with
      | true =>
        refine ⟨_, rfl, .v ⟨VR.desc (.obj true), ⟨.obj, .obj (some x), 0, 0⟩, fun _ => none⟩, g, ?_, nofun,
          fun _ => ⟨rfl, hg.bufs, .v ⟨VR.desc (.obj true), ⟨.obj, .obj (some x), 0, 1⟩, fun _ => none⟩, ?_, fun q _ => ?_⟩⟩
        · simp [X.parse, mkX, VS.parse, tx, R.took, R.desc, R.cell, VR.ty, VR.desc]
        · simp [X.afters, VS.afters, VS.after, VR.desc, tx, hg.held, R.took]
        · simp [retValue, R.took]
      | false =>
        refine ⟨_, rfl, .v ⟨VR.desc (.obj false), ⟨.obj, .obj (some x), 0, 0⟩, fun _ => none⟩, g, ?_, nofun,
          fun _ => ⟨rfl, hg.bufs, .v ⟨VR.desc (.obj false), ⟨.obj, .obj (some x), 0, 0⟩, fun _ => none⟩, ?_, fun q hq => ?_⟩⟩
        · simp [X.parse, mkX, VS.parse, tx, R.took, R.desc, R.cell, VR.ty, VR.desc]
        · simp [X.afters, VS.afters, VR.desc, R.took]
        · simp [retValue, R.took, hq]
    | num f =>
      have hf : IsNum f := hk
      cases hn : L.numIn f x with
      | none =>
        refine ⟨_, rfl, mkX (R.desc (.v (.num f))) (R.cell L (.v (.num f))), g, ?_, ?_, ?_⟩
        · simp only [X.parse, mkX, R.cell, VS.parse, R.desc, VR.desc, VR.ty, if_neg hf.2.2.2, if_neg hf.2.2.1, tx, and_self, if_true,
            Option.map_some, VS.storeNum, hn, R.took]
        · exact fun _ => rfl
        · simp only [R.took, hn]; nofun
      | some n =>
        refine ⟨_, rfl, .v ⟨VR.desc (.num f), ⟨.num f, .num n, 0, 0⟩, fun _ => none⟩, g, ?_, ?_, ?_⟩
        · simp only [X.parse, mkX, R.cell, VS.parse, R.desc, VR.desc, VR.ty, if_neg hf.2.2.2, if_neg hf.2.2.1, tx, and_self, if_true,
            Option.map_some, VS.storeNum, hn, R.took]
        · simp only [R.took, hn]; nofun
        · simp only [R.took, hn, Bool.or_false]
          exact fun _ => ⟨trivial, hg.bufs, .v ⟨VR.desc (.num f), ⟨.num f, .num n, 0, 0⟩, fun _ => none⟩, rfl, fun q _ => rfl⟩

theorem codeX_print (p : Proxy) (m : MX T D N) :
    m.code p "PyErr_Print();".toList = { m with g := { m.g with pending := false } } := by
  unfold MX.code
  rw [if_neg (fun e => absurd (e ▸ parent_colon p) (by decide)), if_pos rfl]

theorem codeX_none (p : Proxy) (m : MX T D N) : m.code p noneText = { m with g := { m.g with pending := true } } := by
  unfold MX.code
  rw [if_neg (fun e => absurd (e ▸ parent_colon p) (by decide +kernel)), if_neg (by decide +kernel), if_pos rfl]

theorem cleanX_other (m : MX T D N) (s : Str) (h : s ≠ decrefText) : m.clean s = m := by
  unfold MX.clean
  rw [if_neg h]

/-- The end of a failed call. -/
theorem leaveX_failed (p : Proxy) (r : R) (hp : FitsX p r) (m : MX T D N) (hm : m.parent = false) (hb : m.g.h.bufs = []) :
    m.leave p (p.newError.getD p.errorReturn) = failedX p m.given (m.params.map (·.cell)) m.g.pending := by
  have hc := parent_colon p
  unfold MX.leave failedX giveUpX
  rw [hb, hm]
  cases hv : p.isVoid with
  | true =>
    have hn : p.newError = none := by simp [Proxy.newError, hv]
    have he := hp.error hv
    have : ("return;".toList == "return ".toList ++ p.parentCall) = false := by
      rw [beq_eq_false_iff_ne]; intro e
      have : ':' ∈ "return;".toList := by rw [e]; exact List.mem_append_right _ hc
      exact absurd this (by decide)
    rw [hn, Option.getD_none, he, this]
    simp
  | false =>
    cases hq : p.noParent with
    | false =>
      have hn : p.newError = some ("return ".toList ++ p.parentCall) := by simp [Proxy.newError, hv, hq]
      rw [hn, ← parentCall_eq]
      have h1 : "return ".toList ++ p.parentCall ≠ "return;".toList := by
        intro e
        have : ':' ∈ "return;".toList := by rw [← e]; exact List.mem_append_right _ hc
        exact absurd this (by decide)
      have h2 : "return ".toList ++ p.parentCall ≠ "return retval;".toList := by
        intro e
        have : ':' ∈ "return retval;".toList := by rw [← e]; exact List.mem_append_right _ hc
        exact absurd this (by decide)
      simp only [Option.getD_some, if_neg h1, if_neg h2]
      simp
    | true =>
      have e1 := hp.error'.1
      have e2 := hp.error'.2 hv
      cases ht : p.trivialRet with
      | true =>
        have hn : p.newError = none := by simp [Proxy.newError, hv, hq, ht]
        simp only [hn, Option.getD_none, if_neg e1, if_neg e2]
        simp
      | false =>
        have hn : p.newError = some fatalText := by simp [Proxy.newError, hv, hq, ht]
        have h1 : fatalText ≠ "return;".toList := by decide +kernel
        have h2 : fatalText ≠ "return retval;".toList := by decide +kernel
        simp only [hn, Option.getD_some, if_neg h1, if_neg h2]
        simp

/-- The end of a successful call. -/
theorem leaveX_done (p : Proxy) (r : R) (hp : FitsX p r) (m : MX T D N) (hm : m.parent = false) (v : BackX T D N)
    (h1 : r = .s .void → v = .nothing) (h2 : r ≠ .s .void → retValue m.g m.ret = v) :
    m.leave p (if p.isVoid then "return;".toList else "return retval;".toList) =
      { given := m.given, cells := m.params.map (·.cell), parent := false, leaked := m.g.h.bufs, pending := m.g.pending, back := v } := by
  have hcol := parent_colon p
  have hpar : ∀ s : Str, ':' ∉ s → (s == "return ".toList ++ p.parentCall) = false := by
    intro s hs
    rw [beq_eq_false_iff_ne]; intro e
    exact hs (by rw [e]; exact List.mem_append_right _ hcol)
  unfold MX.leave
  rw [hm]
  by_cases hv : r = .s .void
  · have : p.isVoid = true := by rw [hp.void]; simpa using hv
    rw [this, if_pos rfl, hpar _ (by decide), h1 hv]
    simp
  · have : p.isVoid = false := by rw [hp.void]; simpa using hv
    rw [this, if_neg (by simp), hpar _ (by decide), if_neg (by decide), if_pos rfl, h2 hv]
    simp

theorem retX_back (r : R) : r.desc.back.isSome = !decide (r = .s .void) := by
  cases r with
  | s k => cases k <;> rfl
  | v k => cases k <;> rfl

theorem retX_before (r : R) : r.desc.before = [] := by
  cases r with
  | s k => cases k <;> rfl
  | v k => cases k <;> rfl

theorem retX_befores (L : XLib T D N) (r : R) : (mkX r.desc (r.cell L)).befores L = some (mkX r.desc (r.cell L)) := by
  cases r with
  | s k => cases k <;> rfl
  | v k => cases k <;> rfl

theorem K_back (k : K) (name : Str) : (k.desc name).back.isSome = k.isOut := by
  cases k with
  | s k => exact back_iff ⟨name, k, { ty := .char }⟩
  | v k =>
    cases k with
    | boolPtr i o => cases o <;> rfl
    | boolRef i o => cases o <;> rfl
    | contRef c i o => cases o <;> rfl
    | numPtr f i o => cases o <;> rfl
    | _ => rfl

theorem namedX_parse_empty {hn : Named} {args : List (XArg T D N)} {r : R}
    (h1 : hn.params.map (·.1) = args.map (fun a => a.kind.desc a.name)) (h2 : hn.ret.1 = r.desc) :
    hn.parse.isEmpty = (decide (r = .s .void) && (args.filter (fun a => a.kind.isOut)).isEmpty) := by
  have hr : (hn.ret.1.items hn.ret.2).isEmpty = decide (r = .s .void) := by
    have := retX_back r
    rw [h2]; unfold RevD.items
    cases hb : r.desc.back with
    | none => rw [hb] at this; simpa using this
    | some u => rw [hb] at this; simpa using this
  have hps : ∀ (l : List (RevD × List Str)) (as : List (XArg T D N)), l.map (·.1) = as.map (fun a => a.kind.desc a.name) →
      (l.flatMap (fun d => d.1.items d.2)).isEmpty = (as.filter (fun a => a.kind.isOut)).isEmpty := by
    intro l
    induction l with
    | nil =>
      intro as h
      cases as with
      | nil => rfl
      | cons a as => cases h
    | cons x l ih =>
      intro as h
      cases as with
      | nil => cases h
      | cons a as =>
        simp only [List.map_cons, List.cons.injEq] at h
        have hb := K_back a.kind a.name
        rw [List.flatMap_cons, List.filter_cons]
        have hx : (x.1.items x.2).isEmpty = !a.kind.isOut := by
          rw [← hb, h.1]; unfold RevD.items
          cases (a.kind.desc a.name).back <;> rfl
        cases ho : a.kind.isOut with
        | true =>
          rw [ho] at hx
          simp only [if_true]
          cases hi : x.1.items x.2 with
          | nil => rw [hi] at hx; cases hx
          | cons y ys => rfl
        | false =>
          rw [ho] at hx
          have : x.1.items x.2 = [] := by simpa using hx
          rw [this]
          simpa using ih as h.2
  have hp := hps hn.params args h1
  unfold Named.parse
  dsimp only
  split
  · rw [isEmpty_append, hr, hp]
  · rw [isEmpty_append, hr, hp, Bool.and_comm]

end Verif.Exchange
