import Verif.Parser.Replay

/-! # C86: proofs -/
namespace Verif.Scan
open Verif Verif.Pygen
open Verif.Annot (ODict)

/-- The script does what was done in memory: registrations always, everything if `clean`. -/
structure Agrees (env : Env) (evs : List Ev) (clean : Prop) : Prop where
  regs : (run env (items evs)).filter isReg = (acts evs).filter isReg
  all : clean → run env (items evs) = acts evs

theorem Agrees.ofEq {env : Env} {evs : List Ev} {c : Prop} (h : run env (items evs) = acts evs) : Agrees env evs c :=
  ⟨by rw [h], fun _ => h⟩

theorem Agrees.append {env : Env} {a b : List Ev} {c d : Prop} (ha : Agrees env a c) (hb : Agrees env b d) :
    Agrees env (a ++ b) (c ∧ d) := by
  refine ⟨?_, ?_⟩
  · rw [items_append, acts_append, run_append, List.filter_append, List.filter_append, ha.regs, hb.regs]
  · rintro ⟨hc, hd⟩
    rw [items_append, acts_append, run_append, ha.all hc, hb.all hd]

theorem Agrees.mono {env : Env} {a : List Ev} {c d : Prop} (ha : Agrees env a c) (h : d → c) : Agrees env a d :=
  ⟨ha.regs, fun hd => ha.all (h hd)⟩

theorem agrees_warns (env : Env) (l : List Warn) : Agrees env (warns l) True :=
  .ofEq (by rw [items_warns, acts_warns]; rfl)

theorem agrees_comment {env : Env} {g : Anns} {c : List Ev} (h : comment g = .ok c) : Agrees env c True := by
  obtain ⟨h1, h2⟩ := comment_run (env := env) h
  exact .ofEq (by rw [h1, h2])

/-- A method. -/
theorem scanMethod_agrees {env : Env} {cls : Cls} {m : Member} {d : MethodDecl} {evs : List Ev}
    (h : scanMethod env cls m d = .ok evs) :
    Agrees env evs ((d.virt ≠ .no → ∀ s, Ev.warn (.type s) ∉ evs) ∧ (d.virt = .pure → cls.allowSubclassing = true)) := by
  unfold scanMethod at h
  obtain ⟨r, hr, h⟩ := bind_ok h
  split at h
  · cases h
    exact (agrees_warns env _).mono (fun _ => trivial)
  simp only at h
  obtain ⟨ret, -, h⟩ := bind_ok h
  obtain ⟨ps, -, h⟩ := bind_ok h
  obtain ⟨custom, -, h⟩ := bind_ok h
  generalize hkw : setThrow (setIf d.op.isSome r.1 "custom_name" (.str "__call__".toList)) d.throws = kw at h
  have hv : ODict.get kw "is_virtual".toList = none := by
    rw [← hkw, get_setThrow_ne _ _ _ (by decide), get_setIf, if_neg (by rintro ⟨_, h⟩; revert h; decide),
      get_loop_ne (k := "is_virtual".toList) ?_ hr]
    · rfl
    · intro n v e he p hp hk
      have := methodStep_keys he p hp
      rw [hk] at this
      revert this
      decide
  have hvirt := isVirtual_methodKw d custom kw hv
  generalize methodKw d custom kw = kw' at h hvirt
  have hstart : ∀ ws : List Warn, Agrees env (warns ws ++ (if d.virt = .pure ∧ cls.allowSubclassing = false then
      [.act .cannot] else [])) (d.virt = .pure → cls.allowSubclassing = true) := by
    intro ws
    refine ((agrees_warns env ws).append (d := d.virt = .pure → cls.allowSubclassing = true) ?_).mono (fun h => ⟨trivial, h⟩)
    split
    · rename_i hp
      refine ⟨rfl, fun hc => ?_⟩
      rw [hc hp.1] at hp
      cases hp.2
    · exact .ofEq rfl
  split at h
  · cases h
    exact (hstart _).mono (fun h => h.2)
  obtain ⟨c, hc, h⟩ := bind_ok h
  obtain ⟨e2, he2, rfl⟩ := map_ok h
  rw [List.append_assoc]
  refine ((hstart _).append ((agrees_comment hc).append (d := d.virt ≠ .no → ∀ s, Ev.warn (.type s) ∉ e2) ?_)).mono ?_
  · rcases addMethod_cases he2 with ⟨_, _, h⟩ | ⟨hs, hi, ha, hl⟩
    · refine .ofEq ?_
      rw [items_item, acts_item, run_cons]
      exact h
    · refine ⟨?_, ?_⟩
      · rw [items_item, acts_item, run_cons, hi, ha]
        rw [run_nil, List.append_nil, replay, hl]
        split <;> split <;> rfl
      · intro hc
        by_cases hn : d.virt = .no
        · rw [items_item, acts_item, run_cons, hi, ha]
          rw [run_nil, List.append_nil, replay, hl, if_neg (by rw [hvirt]; simp [hn]), if_neg (by rw [hn]; intro h; cases h)]
        · obtain ⟨s, hs⟩ := hs
          exact absurd hs (hc hn s)
  · rintro ⟨h1, h2⟩
    refine ⟨h2, trivial, fun hn s hs => h1 hn s ?_⟩
    exact List.mem_append_right _ (List.mem_append_right _ (List.mem_cons_of_mem _ hs))

/-- A constructor. -/
theorem scanCtor_agrees {env : Env} {m : Member} {d : CtorDecl} {r : List Ev × Bool × Bool}
    (h : scanCtor env m d = .ok r) : Agrees env r.1 True := by
  unfold scanCtor at h
  split at h
  · cases h; exact .ofEq rfl
  obtain ⟨ps, -, h⟩ := bind_ok h
  obtain ⟨c, hc, h⟩ := bind_ok h
  obtain ⟨q, hq, h⟩ := map_ok h
  obtain ⟨c1, c2⟩ := comment_run (env := env) hc
  have hp := makeParams'_iff hq
  refine .ofEq ?_
  split at h
  · rename_i h1
    subst h
    rw [h1] at hp
    simp only [items_append, acts_append, run_append, items_warns, acts_warns, c1, c2, items_item, acts_item, items_act,
      acts_act, items_nil, acts_nil, run_nil, run_cons, replay, replayLine, ← hp, if_true, List.append_nil, List.nil_append]
  · rename_i h1
    subst h
    rw [show q.1 = false by simpa using h1] at hp
    simp only [items_append, acts_append, run_append, items_warns, acts_warns, c1, c2, items_item, acts_item, items_act,
      acts_act, items_nil, acts_nil, run_nil, run_cons, replay, replayLine, ← hp, List.append_nil, List.nil_append]
    rfl

/-- An attribute. -/
theorem scanVar_agrees {env : Env} {m : Member} {d : VarDecl} {evs : List Ev}
    (h : scanVar env m d = .ok evs) : Agrees env evs True := by
  unfold scanVar at h
  iterate 4
    split at h
    · cases h; exact .ofEq rfl
  obtain ⟨ret, -, h⟩ := bind_ok h
  obtain ⟨c, hc, h⟩ := bind_ok h
  obtain ⟨c1, c2⟩ := comment_run (env := env) hc
  refine .ofEq ?_
  simp only at h
  split at h
  · rename_i h1
    cases h
    simp only [items_append, acts_append, run_append, items_warns, acts_warns, c1, c2, items_item, acts_item, items_act,
      acts_act, items_nil, acts_nil, run_nil, run_cons, replay, replayLine, h1, if_true, List.append_nil, List.nil_append]
  · rename_i h1
    cases h
    simp only [items_append, acts_append, run_append, items_warns, acts_warns, c1, c2, items_item, acts_item, items_warn,
      acts_warn, items_nil, acts_nil, run_nil, run_cons, replay, replayLine, h1, List.append_nil, List.nil_append]
    rfl
  · cases h

/-- What running leaves nothing to: the member is virtual and its types were resolved, or it is not virtual. -/
def Settled (env : Env) (cls : Cls) (m : Member) : Prop :=
  ∀ d, m.kind = .method d →
    (d.virt ≠ .no → ∀ r, scanMember env cls m = .ok r → ∀ s, Ev.warn (.type s) ∉ r.1) ∧
    (d.virt = .pure → cls.allowSubclassing = true)

theorem scanMember_agrees {env : Env} {cls : Cls} {m : Member} {r : List Ev × Bool × Bool}
    (h : scanMember env cls m = .ok r) : Agrees env r.1 (Settled env cls m) := by
  have h0 := h
  unfold scanMember at h
  split at h
  · cases h; exact .ofEq rfl
  split at h
  · cases h; exact .ofEq rfl
  split at h
  · rename_i d hk
    obtain ⟨evs, he, rfl⟩ := map_ok h
    exact (scanMethod_agrees he).mono (fun hs => ⟨fun hv s => (hs d hk).1 hv _ h0 s, (hs d hk).2⟩)
  · exact (scanCtor_agrees h).mono (fun _ => trivial)
  · obtain ⟨evs, he, rfl⟩ := map_ok h
    exact (scanVar_agrees he).mono (fun _ => trivial)
  · cases h; exact .ofEq rfl

theorem scanMembers_agrees {env : Env} {cls : Cls} {ms : List Member} {r : List Ev × Bool × Bool}
    (h : scanMembers env cls ms = .ok r) : Agrees env r.1 (∀ m ∈ ms, Settled env cls m) := by
  induction ms generalizing r with
  | nil => cases h; exact .ofEq rfl
  | cons m l ih =>
    rw [scanMembers] at h
    obtain ⟨a, ha, h⟩ := bind_ok h
    obtain ⟨b, hb, rfl⟩ := map_ok h
    exact ((scanMember_agrees ha).append (ih hb)).mono
      (fun hs => ⟨hs m List.mem_cons_self, fun x hx => hs x (List.mem_cons_of_mem _ hx)⟩)

theorem agrees_nil (env : Env) (c : Prop) : Agrees env [] c := .ofEq rfl

/-- A line that cannot fail, registered and written. -/
theorem agrees_both (env : Env) {l : Line} (h : replayLine env l = [.reg l]) (c : Prop) :
    Agrees env [.act (.reg l), .item (.line l)] c := by
  refine .ofEq ?_
  rw [items_act, items_item, acts_act, acts_item, items_nil, acts_nil, run_cons, run_nil, replay, h]
  rfl

theorem agrees_put (env : Env) {l : Line} {ok : Bool} (h : replayLine env l = if ok then [.reg l] else []) (c : Prop) :
    Agrees env (.item (.line l) :: if ok then [.act (.reg l)] else []) c := by
  refine .ofEq ?_
  rw [items_item, acts_item, run_cons, replay, h]
  cases ok <;> rfl

theorem scanOperator_agrees {env : Env} {o : OpDecl} {evs : List Ev} (h : scanOperator env o = .ok evs) :
    Agrees env evs True := by
  unfold scanOperator at h
  simp only at h
  generalize (if o.isMember = true then o.args.length - 1 else o.args.length) = nargs at h
  split at h
  · cases h; exact agrees_both env rfl _
  split at h
  · cases h; exact agrees_both env rfl _
  split at h
  · cases h
  split at h
  · cases h; exact agrees_nil _ _
  split at h
  · cases h; exact .ofEq rfl
  split at h
  · cases h; exact .ofEq rfl
  split at h
  · obtain ⟨p, -, h⟩ := bind_ok h
    split at h
    · rename_i hp
      cases h
      refine (((agrees_warns env p.2).append (agrees_nil env True)).append ?_ |>.append ?_).mono
        (fun _ => ⟨⟨⟨trivial, trivial⟩, trivial⟩, trivial⟩)
      · split
        · exact agrees_put (ok := true) env (by rw [replayLine, if_pos hp]; rfl) _
        · exact agrees_nil _ _
      · split
        · exact agrees_put (ok := true) env (by rw [replayLine, if_pos hp]; rfl) _
        · exact agrees_nil _ _
    · rename_i hp
      cases h
      refine (((agrees_warns env p.2).append (agrees_warns env [.type p.1])).append ?_ |>.append ?_).mono
        (fun _ => ⟨⟨⟨trivial, trivial⟩, trivial⟩, trivial⟩)
      · split
        · exact agrees_put (ok := false) env (by rw [replayLine, if_neg (by rw [hp]; intro h; cases h)]; rfl) _
        · exact agrees_nil _ _
      · split
        · exact agrees_put (ok := false) env (by rw [replayLine, if_neg (by rw [hp]; intro h; cases h)]; rfl) _
        · exact agrees_nil _ _
    · cases h
  · split at h
    · cases h; exact .ofEq rfl
    · cases h; exact agrees_nil _ _
  · cases h; exact .ofEq rfl

theorem scanOperators_agrees {env : Env} {os : List OpDecl} {evs : List Ev} (h : scanOperators env os = .ok evs) :
    Agrees env evs True := by
  induction os generalizing evs with
  | nil => cases h; exact agrees_nil _ _
  | cons o l ih =>
    rw [scanOperators] at h
    obtain ⟨a, ha, h⟩ := bind_ok h
    obtain ⟨b, hb, rfl⟩ := map_ok h
    exact ((scanOperator_agrees ha).append (ih hb)).mono (fun _ => ⟨trivial, trivial⟩)

theorem scanClass_agrees {env : Env} {cls : Cls} {d : ClassDecl} {evs : List Ev} (h : scanClass env cls d = .ok evs) :
    Agrees env evs (∀ m ∈ d.members, Settled env cls m) := by
  unfold scanClass at h
  obtain ⟨ops, ho, h⟩ := bind_ok h
  obtain ⟨r, hr, rfl⟩ := map_ok h
  refine ((((scanOperators_agrees ho).append (scanMembers_agrees hr)).append (d := True) ?_).append (d := True) ?_).mono
    (fun h => ⟨⟨⟨trivial, h⟩, trivial⟩, trivial⟩)
  · split
    · exact agrees_both env rfl _
    · exact agrees_nil _ _
  · split
    · exact agrees_both env rfl _
    · exact agrees_nil _ _

/-! ## Functions -/

theorem funArgs_iff {env : Env} {params : ODict Anns} {am : Bool} {i : Nat} {l : List ArgDecl}
    {r : List Spec × Bool × List Warn} (h : funArgs env params am i l = .ok r) : r.2.1 = allPar env r.1 := by
  induction l generalizing i r with
  | nil => cases h; rfl
  | cons a l ih =>
    rw [funArgs] at h
    obtain ⟨s, -, h⟩ := bind_ok h
    split at h
    · cases h
    · rename_i hs
      obtain ⟨q, hq, rfl⟩ := map_ok h
      show q.2.1 = allPar env (s.1 :: q.1)
      rw [ih hq, allPar, allPar, List.all_cons, hs]
      simp
    · rename_i hs
      obtain ⟨q, hq, rfl⟩ := map_ok h
      show false = allPar env (s.1 :: q.1)
      rw [allPar, List.all_cons, hs]
      simp

theorem emit_agrees {env : Env} {f : FunDecl} {ok : Bool} {l : Line} {evs : List Ev} (h : emit f ok l = .ok evs)
    (hl : replayLine env l = if ok then [.reg l] else []) : Agrees env evs True := by
  obtain ⟨c, hc, rfl⟩ := map_ok h
  exact ((agrees_comment hc).append (agrees_put env hl True)).mono (fun _ => ⟨trivial, trivial⟩)

theorem scanFunction_agrees {env : Env} {f : FunDecl} {evs : List Ev} (h : scanFunction env f = .ok evs) :
    Agrees env evs True := by
  unfold scanFunction at h
  obtain ⟨g, -, h⟩ := bind_ok h
  split at h
  · cases h; exact agrees_warns env _
  obtain ⟨ret, -, h⟩ := bind_ok h
  obtain ⟨ro, hro, h⟩ := bind_ok h
  obtain ⟨ps, hps, h⟩ := bind_ok h
  obtain ⟨e2, he2, rfl⟩ := map_ok h
  refine ((agrees_warns env _).append (d := True) ?_).mono (fun _ => ⟨trivial, trivial⟩)
  have hok : (ro.1 && ps.2.1) = decide (env.ret ret.1 = .ok ∧ allPar env ps.1 = true) := by
    rw [funArgs_iff hps]
    have : ro.1 = decide (env.ret ret.1 = .ok) := by
      unfold makeRet at hro
      cases hx : env.ret ret.1 with
      | ok => rw [hx] at hro; cases hro; rfl
      | caught => rw [hx] at hro; cases hro; rfl
      | raised e => rw [hx] at hro; cases hro
    rw [this]
    by_cases h : env.ret ret.1 = .ok <;> cases allPar env ps.1 <;> simp [h]
  rw [hok] at he2
  have hif : ∀ l : Line, (if env.ret ret.1 = .ok ∧ allPar env ps.1 = true then [Act.reg l] else []) =
      if decide (env.ret ret.1 = .ok ∧ allPar env ps.1 = true) then [Act.reg l] else [] := by
    intro l
    by_cases h : env.ret ret.1 = .ok ∧ allPar env ps.1 = true <;> simp [h]
  unfold emitFunction at he2
  split at he2
  · split at he2
    · cases he2
    split at he2
    · cases he2
    · exact emit_agrees he2 (hif _)
  · split at he2
    · split at he2
      · cases he2
      · exact emit_agrees he2 (hif _)
    · obtain ⟨cu, -, he2⟩ := bind_ok he2
      exact emit_agrees he2 (hif _)

end Verif.Scan
