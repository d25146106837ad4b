import Verif.Exchange.MixedProps

/-!
# C103: the exact behaviour of a proxy with mixed arguments
-/
namespace Verif.Exchange
open Verif Verif.Flow Verif.Params Verif.DeclScope Verif.Wrap

variable {T D N : Type}

theorem two_filter {α : Type} {l : List α} {n : Nat} (h : l.length = n + 2) : ∃ a b t, l = a :: b :: t := by
  match l, h with
  | a :: b :: t, _ => exact ⟨a, b, t, rfl⟩

/-- **The exact behaviour of a proxy.** -/
theorem C103_exact (L : XLib T D N) (p : Proxy) (args : List (XArg T D N)) (r : R) (hp : FitsX p r) (ha : ∀ a ∈ args, a.Good)
    (hr : r.Good) (gil m o : Str) (hn : Named) (h1 : hn.params.map (·.1) = args.map (fun a => a.kind.desc a.name))
    (h2 : hn.ret.1 = r.desc) (f : List (PyV T D) → Option (PyV T D)) :
    execX L p (some f) (plan p gil m o hn) (startX L args r) = some (calledX L p args r f) := by
  have hne := namedX_parse_empty h1 h2
  have q1 := release_ne gil
  have q2 := xdecref_ne m
  have q3 := obj_ne p o
  unfold plan shape
  rw [hne]
  generalize ensureText gil = z1
  generalize hr1 : releaseText gil = c1 at q1 ⊢
  generalize lookupText m p.pyName = z2
  generalize hr2 : "Py_XDECREF(".toList ++ m ++ ");".toList = c2 at q2 ⊢
  generalize hr3 : objText p ++ " = ".toList ++ o ++ ";".toList = c3 at q3 ⊢
  generalize o ++ " = ".toList ++ objText p ++ ";".toList = z3
  generalize objText p ++ " = ".toList ++ _ ++ ";".toList = z4
  obtain ⟨l, hl, runs⟩ := runs_all L args ha
  subst hl
  have hst : (l.map (·.1)).map (·.start) = l.map (fun t => t.1.start) := by rw [List.map_map]; rfl
  simp only [List.cons_append, List.nil_append, execX, MX.test, Option.isNone_some, Bool.false_eq_true, if_false,
    Option.bind_some]
  simp only [startX, hst]
  rw [befores_runs l runs]
  simp only [Option.bind_some, MX.call]
  rw [pass_runs _ l runs]
  simp only [Option.bind_some]
  have cl : ∀ (mm : MX T D N) (s : Str), s ≠ decrefText → mm.clean s = mm := cleanX_other
  have hcells := cells_runs l runs
  have hfl := filter_runs l runs
  unfold calledX
  generalize hys : l.map (·.2.2) = ys at hcells hfl ⊢
  cases hi : inputsX L (l.map (·.1)) with
  | none =>
    simp only [Option.bind_some, Option.isNone_none, if_true, List.map_cons, List.map_nil, List.foldl_cons,
      List.foldl_nil, codeX_print, cl _ _ q1, cl _ _ q2, cl _ _ q3]
    rw [leaveX_failed p r hp _ rfl rfl]
    simp only [hcells]
  | some xs =>
    dsimp only
    cases hf : f xs with
    | none =>
      simp only [Option.bind_some, Option.isNone_none, if_true, List.map_cons, List.map_nil, List.foldl_cons,
        List.foldl_nil, codeX_print, cl _ _ q1, cl _ _ q2, cl _ _ q3]
      rw [leaveX_failed p r hp _ rfl rfl]
      simp only [hcells]
    | some x =>
      simp only [Option.bind_some, Option.isNone_some, Bool.false_eq_true, if_false, retX_befores]
      have hgot : Got L x ({ h := { res := some (x, (chars L.lib.codec x).getD []), held := true, bufs := [] }, pending := false } : G T D) :=
        ⟨rfl, rfl, rfl⟩
      generalize hout : (l.map (·.1)).filter (fun a => a.kind.isOut) = outs at hfl
      by_cases hz : r = .s .void ∧ outs = []
      · -- nothing is expected
        obtain ⟨rfl, rfl⟩ := hz
        simp only [decide_true, List.isEmpty_nil, Bool.and_self, if_true, List.cons_append, List.nil_append, execX, MX.test]
        simp only [returnedX, hout, Option.map_some, Option.bind_some]
        cases hx : isNone x with
        | true =>
          simp only [Bool.not_true, Bool.false_eq_true, if_false]
          obtain ⟨hs', i1, i2⟩ := afters_runs ({ h := { res := some (x, (chars L.lib.codec x).getD []), held := true, bufs := [] }, pending := false } : G T D) l runs hout
          rw [hys] at i1
          rw [i1]
          simp only [Option.bind_some]
          rw [show X.afters L _ (mkX (R.desc (.s .void)) (R.cell L (.s .void))) = some (mkX (R.desc (.s .void)) (R.cell L (.s .void)), _) from rfl]
          simp only [Option.bind_some, MX.clean, if_true, if_neg q1, if_neg q2, if_neg q3]
          rw [leaveX_done p (.s .void) hp _ rfl .nothing (fun _ => rfl) (fun h => absurd rfl h)]
          simp only [i2, decide_true]
        | false =>
          simp only [Bool.not_false, if_true, List.map_cons, List.map_nil, List.foldl_cons,
            List.foldl_nil, codeX_none, MX.clean, if_neg q1, if_neg q2, if_neg q3]
          rw [leaveX_failed p (.s .void) hp _ rfl rfl]
          simp only [hcells, decide_true, Bool.false_eq_true, if_false]
      · have hz' : (decide (r = .s .void) && outs.isEmpty) = false := by
          cases hd : decide (r = .s .void) with
          | false => rfl
          | true =>
            cases outs with
            | nil => exact absurd ⟨by simpa using hd, rfl⟩ hz
            | cons a l => rfl
        simp only [hz', Bool.false_eq_true, if_false, List.cons_append, List.nil_append, execX, MX.test, MX.parse]
        have hfail : ∀ (mm : MX T D N) (cells : List (XC T D N)), mm.parent = false → mm.g.h.bufs = [] → mm.given = some xs →
            mm.params.map (·.cell) = cells →
            MX.leave p (List.foldl MX.clean (List.foldl (MX.code p) mm ["PyErr_Print();".toList]) [decrefText, c3, c2, c1])
              (p.newError.getD p.errorReturn) = failedX p (some xs) cells false := by
          intro mm cells e1 e2 e3 e4
          simp only [List.foldl_cons, List.foldl_nil, codeX_print, MX.clean, if_true, if_neg q1, if_neg q2,
            if_neg q3]
          rw [leaveX_failed p r hp _ (by exact e1) (by exact e2)]
          simp only [e3, e4]
        have hdr : (mkX r.desc (r.cell L)).d = r.desc := by
          cases r with
          | s k => rfl
          | v k => cases k <;> rfl
        simp only [List.map_cons, List.map_nil, hdr]
        cases outs with
        | nil =>
          have hrv : r ≠ .s .void := fun e => hz ⟨e, rfl⟩
          have hfil : ys.filter (fun h => h.d.back.isSome) = [] := List.length_eq_zero_iff.mp hfl
          obtain ⟨u, hu, z', g', r1, r2, r3⟩ := parse_retX L r hrv hr x _ hgot
          simp only [hfil, hu, r1, Option.map_some, Option.bind_some]
          unfold returnedX
          simp only [hout, decide_eq_false hrv]
          cases hok : (r.took L x).ok with
          | false =>
            simp only [Bool.not_false, if_true, Bool.false_eq_true, if_false]
            rw [hfail _ _ rfl (by rw [r2 hok]) rfl hcells]
          | true =>
            obtain ⟨e1, e2, z'', e3, e4⟩ := r3 hok
            simp only [Bool.not_true, if_true, Bool.false_eq_true, if_false]
            obtain ⟨hs', i1, i2⟩ := afters_runs g' l runs hout
            rw [hys] at i1
            rw [i1]
            simp only [Option.bind_some]
            rw [e3]
            simp only [Option.bind_some, MX.clean, if_true, if_neg q1, if_neg q2, if_neg q3]
            rw [leaveX_done p r hp _ rfl _ (fun h => absurd h hrv) (fun _ => e4 _ rfl)]
            simp only [i2, e1, e2, Bool.false_or]
        | cons a os =>
          cases os with
          | cons a' os =>
            obtain ⟨y1, y2, yt, hfil⟩ := two_filter (n := os.length) hfl
            simp only [hfil, Option.map_some, Option.bind_some, if_true]
            rw [hfail _ _ rfl rfl rfl hcells]
            unfold returnedX
            simp only [hout]
          | nil =>
            obtain ⟨y1, hfil⟩ := List.length_eq_one_iff.mp hfl
            by_cases hrv : r = .s .void
            · subst hrv
              obtain ⟨hs', g', r1, r2, r3⟩ := parse_runs x _ hgot a l runs hout
              rw [hys] at r1
              simp only [hfil, show (R.desc (.s .void)).back = none from rfl, r1, Option.map_some, Option.bind_some]
              unfold returnedX
              simp only [hout, decide_true]
              cases hok : (a.took L x).ok with
              | false =>
                simp only [Bool.not_false, if_true, Bool.false_eq_true, if_false]
                rw [hfail _ _ rfl (by rw [(r2 hok).1]) rfl (r2 hok).2]
              | true =>
                obtain ⟨e1, e2, hs'', e3, e4⟩ := r3 hok
                simp only [Bool.not_true, if_true, Bool.false_eq_true, if_false]
                rw [e3]
                simp only [Option.bind_some]
                rw [show X.afters L _ (mkX (R.desc (.s .void)) (R.cell L (.s .void))) = some (mkX (R.desc (.s .void)) (R.cell L (.s .void)), _) from rfl]
                simp only [Option.bind_some, MX.clean, if_true, if_neg q1, if_neg q2, if_neg q3]
                rw [leaveX_done p (.s .void) hp _ rfl .nothing (fun _ => rfl) (fun h => absurd rfl h)]
                simp only [e4, e1, e2, Bool.false_or]
            · obtain ⟨u, hu⟩ : ∃ u, r.desc.back = some u := by
                have := retX_back r
                rw [decide_eq_false hrv] at this
                exact Option.isSome_iff_exists.mp this
              simp only [hfil, hu, Option.map_some, Option.bind_some, if_true]
              rw [hfail _ _ rfl rfl rfl hcells]
              unfold returnedX
              simp only [hout, decide_eq_false hrv]

end Verif.Exchange
