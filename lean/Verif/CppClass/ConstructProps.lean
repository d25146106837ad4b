import Verif.CppClass.Construct

/-!
# C97: calling a wrapped class constructs an object of that class
-/
namespace Verif.Construct
open Verif Verif.Utils Verif.Overload

/-! ## One constructor -/

/-- The class itself cannot be instantiated by this constructor. -/
def Refused (K : Cls) (c : Ctor) : Prop := c.vis ≠ .pub ∨ K.cannot ≠ [] ∨ K.abstract = true

/-- What is made: an instance of the helper class that knows its Python object for Python subclasses, if there is
a helper class; an instance of the class itself otherwise. -/
def product (K : Cls) (c : Ctor) (sub : Bool) : Inst :=
  match K.helper, sub with
  | some h, true => ⟨h.name, c.args, true⟩
  | _, _ => ⟨K.full, c.args, false⟩

theorem constructName_ok {K : Cls} {n : Str} (h : K.constructName = .ok n) :
    n = K.full ∧ K.cannot = [] ∧ K.abstract = false := by
  unfold Cls.constructName at h
  split at h
  · cases h
  · next h1 =>
    split at h
    · cases h
    · next h2 => cases h; exact ⟨rfl, by simpa using h1, by simpa using h2⟩

theorem constructName_error {K : Cls} {e : PyErr} (h : K.constructName = .error e) :
    K.cannot ≠ [] ∨ K.abstract = true := by
  unfold Cls.constructName at h
  split at h
  · next h1 => exact .inl h1
  · split at h
    · next h2 => exact .inr h2
    · cases h

theorem createStmt_ok {K : Cls} {t : Str} {args : List Str} {s : Stmt} (h : createStmt K t args = .ok s) :
    s = .create (creationOf K.mro) t args := by
  unfold createStmt at h
  split at h
  · next f hf => cases h; rw [hf]
  · next p hp =>
    split at h
    · cases h
    · cases h; rw [hp]

theorem run_post (p : Ptr) (throws : Bool) (K : Cls) (l : List Stmt) (s : Self) :
    run p throws (postStmts K ++ l) s = run p throws l s := by
  unfold postStmts
  cases K.post <;> rfl

theorem run_post' (p : Ptr) (throws : Bool) (K : Cls) (s : Self) : run p throws (postStmts K) s = .done s := by
  unfold postStmts
  cases K.post <;> rfl

/-- A constructor that is generated is public, or protected with a helper class. -/
theorem generate_ok {K : Cls} {c : Ctor} {b : Body} (h : generate K c = .ok b) :
    c.fails = none ∧ callBody K c = .ok b ∧ c.vis ≠ .priv ∧ (c.vis = .prot → K.helper ≠ none) := by
  have hb : ∀ {r : PyRes Body}, r = genBody K c → r = .ok b → c.fails = none ∧ callBody K c = .ok b := by
    intro r h1 h2
    subst h1
    unfold genBody at h2
    split at h2
    · cases h2
    · next hf => exact ⟨hf, h2⟩
  unfold generate at h
  split at h
  · cases h
  · next hv =>
    split at h
    · cases h
    · next hn =>
      obtain ⟨h1, h2⟩ := hb rfl h
      exact ⟨h1, h2, by simp [hv], fun _ hx => hn (by simp [hx])⟩
  · next hv =>
    obtain ⟨h1, h2⟩ := hb rfl h
    exact ⟨h1, h2, by simp [hv], by simp [hv]⟩

/-- The shape of the code. -/
theorem callBody_ok {K : Cls} {c : Ctor} {b : Body} (hf : c.function = none) (h : callBody K c = .ok b) :
    (K.helper = none ∧ K.cannot = [] ∧ K.abstract = false ∧
      b = .straight (.create (creationOf K.mro) K.full c.args :: postStmts K ++ [.own])) ∨
    ∃ hc, K.helper = some hc ∧
      ((Refused K c ∧ b = .bySub K.pytype
          ([.create (creationOf K.mro) hc.name c.args, .own, .setPyobj hc.name] ++ postStmts K)
          [.comment c.vis, .raise K.name, .fail]) ∨
       (c.vis = .pub ∧ K.cannot = [] ∧ K.abstract = false ∧ b = .bySub K.pytype
          ([.create (creationOf K.mro) hc.name c.args, .own, .setPyobj hc.name] ++ postStmts K)
          ([.comment c.vis, .create (creationOf K.mro) K.full c.args, .own] ++ postStmts K))) := by
  unfold callBody at h
  rw [hf] at h
  dsimp only at h
  cases hh : K.helper with
  | none =>
    rw [hh] at h
    dsimp only at h
    cases hn : K.constructName with
    | error e => rw [hn] at h; cases h
    | ok n =>
      rw [hn] at h
      obtain ⟨rfl, h1, h2⟩ := constructName_ok hn
      cases hs : createStmt K K.full c.args with
      | error e => simp only [bind, Except.bind, hs] at h; cases h
      | ok s =>
        simp only [bind, Except.bind, hs] at h
        cases h
        rw [createStmt_ok hs]
        exact .inl ⟨rfl, h1, h2, rfl⟩
  | some hc =>
    rw [hh] at h
    dsimp only at h
    refine .inr ⟨hc, rfl, ?_⟩
    cases hs : createStmt K hc.name c.args with
    | error e => rw [hs] at h; cases h
    | ok s =>
      rw [hs] at h
      simp only [bind, Except.bind] at h
      rw [createStmt_ok hs] at h
      by_cases hv : c.vis = .pub
      · rw [if_neg (not_not.2 hv)] at h
        cases hn : K.constructName with
        | error e =>
          rw [hn] at h
          cases h
          exact .inl ⟨.inr (constructName_error hn), rfl⟩
        | ok n =>
          rw [hn] at h
          obtain ⟨rfl, h1, h2⟩ := constructName_ok hn
          dsimp only at h
          cases he : createStmt K K.full c.args with
          | error e => rw [he] at h; cases h
          | ok e =>
            rw [he] at h
            cases h
            rw [createStmt_ok he]
            exact .inr ⟨hv, h1, h2, rfl⟩
      · rw [if_pos hv] at h
        cases h
        exact .inl ⟨.inl hv, rfl⟩

open Classical in
/-- **C97, one constructor.**  What the code generated for a constructor does, for every class, every object
and both for the class itself and for Python subclasses: if the class itself cannot be instantiated, an
exception is set; otherwise, unless its constructor throws, one object is created, of the class itself or,
for Python subclasses, of the helper class, from the arguments passed; it is stored in the Python object,
which owns it.  If an exception is raised or thrown the Python object is as it was before. -/
theorem C97_constructor (K : Cls) (c : Ctor) (b : Body) (hf : c.function = none) (h : generate K c = .ok b)
    (p : Ptr) (sub throws : Bool) (s : Self) :
    b.run p sub throws s =
      if K.helper.isSome ∧ sub = false ∧ Refused K c then .raised s
      else if throws then .thrown s
      else .done { obj := some (product K c sub), owns := true,
                   lost := if p = .raw then s.lost ++ s.obj.toList else s.lost } := by
  obtain ⟨-, hb, -, -⟩ := generate_ok h
  rcases callBody_ok hf hb with ⟨hh, -, -, rfl⟩ | ⟨hc, hh, ⟨hr, rfl⟩ | ⟨hv, h1, h2, rfl⟩⟩
  · rw [if_neg (by simp [hh])]
    show run p throws (.create (creationOf K.mro) K.full c.args :: (postStmts K ++ [.own])) s = _
    cases throws with
    | true => rfl
    | false =>
      unfold run
      rw [if_neg (by simp), if_neg (by simp), run_post]
      simp [run, Self.store, product, hh]
  · cases sub with
    | false =>
      rw [if_pos ⟨by simp [hh], rfl, hr⟩]
      rfl
    | true =>
      rw [if_neg (by simp)]
      show run p throws (.create (creationOf K.mro) hc.name c.args :: .own :: .setPyobj hc.name :: postStmts K) s = _
      cases throws with
      | true => rfl
      | false =>
        simp only [run, run_post']
        simp [Self.store, product, hh]
  · have hn : ¬ Refused K c := by simp [Refused, hv, h1, h2]
    rw [if_neg (by simp [hn])]
    cases sub with
    | false =>
      show run p throws (.comment c.vis :: .create (creationOf K.mro) K.full c.args :: .own :: postStmts K) s = _
      cases throws with
      | true => rfl
      | false =>
        simp only [run, run_post']
        simp [Self.store, product, hh]
    | true =>
      show run p throws (.create (creationOf K.mro) hc.name c.args :: .own :: .setPyobj hc.name :: postStmts K) s = _
      cases throws with
      | true => rfl
      | false =>
        simp only [run, run_post']
        simp [Self.store, product, hh]

/-- A function used as a constructor: its result is stored and owned. -/
theorem C97_function (K : Cls) (c : Ctor) (b : Body) (f : Str) (hf : c.function = some f) (h : generate K c = .ok b)
    (p : Ptr) (sub throws : Bool) (s : Self) :
    b.run p sub throws s =
      if throws then .thrown s
      else .done { obj := some ⟨f, c.args, false⟩, owns := true,
                   lost := if p = .raw then s.lost ++ s.obj.toList else s.lost } := by
  obtain ⟨-, hb, -, -⟩ := generate_ok h
  unfold callBody at hb
  rw [hf] at hb
  dsimp only at hb
  split at hb
  · cases hb
  · cases hb
    cases throws <;> rfl

/-- The code compiles if all classes of the hierarchy have the same kind of pointers, and plain pointers
if there is a helper class or a function is used as constructor. -/
theorem C97_compiles_partial (K : Cls) (c : Ctor) (b : Body) (h : generate K c = .ok b)
    (hp : ∀ l ∈ K.above, ptrOf l.policy = ptrOf K.own.policy)
    (hr : K.helper.isSome ∨ c.function.isSome → ptrOf K.own.policy = .raw) : b.compiles K c = true := by
  obtain ⟨-, hb, hv, hpr⟩ := generate_ok h
  have hfit : (creationOf K.mro).fits (ptrOf K.own.policy) = true := by
    unfold creationOf
    split
    · rfl
    · split
      · next l hl =>
        have : ptrOf l.policy = ptrOf K.own.policy := by
          rcases List.mem_cons.1 (List.mem_of_getLast? hl) with rfl | hm
          · rfl
          · exact hp l hm
        rw [this]
        cases ptrOf K.own.policy <;> decide
      · next hl => simp [Cls.mro] at hl
  have hpost : (postStmts K).all (Stmt.compiles K c) = true := by
    unfold postStmts
    cases K.post <;> rfl
  cases hf : c.function with
  | some f =>
    unfold callBody at hb
    rw [hf] at hb
    dsimp only at hb
    split at hb
    · cases hb
    · cases hb
      simp [Body.compiles, Stmt.compiles, hr (.inr (by simp [hf]))]
  | none =>
    rcases callBody_ok hf hb with ⟨hh, h1, h2, rfl⟩ | ⟨hc, hh, ⟨-, rfl⟩ | ⟨hv', h1, h2, rfl⟩⟩
    · have hpub : c.vis = .pub := by
        cases hvis : c.vis with
        | pub => rfl
        | prot => exact absurd hh (hpr hvis)
        | priv => exact absurd hvis hv
      simp [Body.compiles, Stmt.compiles, hfit, hpost, hpub, h2, hh]
    · simp [Body.compiles, Stmt.compiles, hpost, hh, hr (.inl (by simp [hh])), hv]
      have := hr (.inl (by simp [hh]))
      rw [this] at hfit
      exact hfit
    · simp [Body.compiles, Stmt.compiles, hpost, hh, hr (.inl (by simp [hh])), hv', h2]
      have := hr (.inl (by simp [hh]))
      rw [this] at hfit
      exact hfit

/-! ## The choice of `tp_init` -/

theorem flags_ok {handler : Handler Ctor} {K : Cls} {c : Ctor} {f : List Str} (h : (ctorOps handler K).flags c = .ok f) :
    f = ["METH_VARARGS".toList, "METH_KEYWORDS".toList] := by
  unfold ctorOps at h
  simp only [Except.map] at h
  split at h
  · cases h
  · cases h; rfl

theorem flags_of_gen {handler : Handler Ctor} {K : Cls} {c : Ctor} {b : Body} (h : generate K c = .ok b) :
    (ctorOps handler K).flags c = .ok ["METH_VARARGS".toList, "METH_KEYWORDS".toList] := by
  obtain ⟨h1, h2, -, -⟩ := generate_ok h
  simp [ctorOps, genBody, h1, h2, Except.map]

theorem scan_keeps {handler : Handler Ctor} {K : Cls} : ∀ (ws : List Ctor) (ex : Option (List Str)) (w : Ctor),
    (∀ g, ex = some g → g = ["METH_VARARGS".toList, "METH_KEYWORDS".toList]) →
    scan (ctorOps handler K) ex ws = .remove w → ∀ b, generate K w ≠ .ok b
  | [], _, _, _, h => by cases h
  | x :: xs, ex, w, hex, h => by
    unfold scan at h
    cases hg : (ctorOps handler K).guarded x with
    | error e =>
      rw [hg] at h
      dsimp only at h
      split at h
      · split at h
        · cases h
          intro b hb
          have := flags_of_gen (handler := handler) hb
          rw [Ops.guarded, (C28_value_iff _ _ _ _ _).2 this] at hg
          cases hg
        · cases h
      · cases h
    | ok f =>
      rw [hg] at h
      have hf := flags_ok ((C28_value_iff _ _ _ _ _).1 hg)
      dsimp only at h
      split at h
      · exact scan_keeps xs _ w (fun g hg => by cases hg; exact hf) h
      · next g =>
        have hg' := hex g rfl
        subst hf hg'
        rw [if_pos (by decide)] at h
        exact scan_keeps xs _ w (fun g hg => by cases hg; rfl) h

theorem normLoop_keeps {handler : Handler Ctor} {K : Cls} (n : Nat) : ∀ (ws r : List Ctor), ws.length = n →
    normLoop (ctorOps handler K) ws = .ok r → ∀ c ∈ ws, ∀ b, generate K c = .ok b → c ∈ r := by
  induction n using Nat.strongRecOn with
  | ind n ih =>
    intro ws r hn h c hc b hb
    rw [normLoop] at h
    split at h
    · cases h; exact hc
    · cases h
    · next w hs =>
      have hm := scan_remove_mem hs
      have hlen := List.length_erase_of_mem hm
      have hpos := List.length_pos_of_mem hm
      have hne := scan_keeps _ _ _ (by simp) hs
      refine ih (ws.erase w).length (by omega) (ws.erase w) r rfl h c ?_ b hb
      refine (List.mem_erase_of_ne ?_).2 hc
      rintro rfl
      exact hne b hb

/-- The constructors that are tried are exactly the declared ones that can be generated. -/
theorem mem_written {handler : Handler Ctor} {K : Cls} {cs kept : List Ctor}
    (h : normalize (ctorOps handler K) cs = .ok kept) (c : Ctor) :
    c ∈ written (ctorOps handler K) cs ↔ c ∈ cs ∧ ∃ b, generate K c = .ok b := by
  have hsub := (C22_uniform _ _ _ h).1
  have hgen : (match (ctorOps handler K).gen c with
      | .ok _ => true
      | .error _ => false) = true ↔ ∃ b, generate K c = .ok b := by
    show (match (generate K c).map (fun _ => ()) with
      | .ok _ => true
      | .error _ => false) = true ↔ _
    cases generate K c <;> simp [Except.map]
  unfold written
  rw [h]
  dsimp only
  rw [List.mem_filter]
  refine ⟨fun ⟨h1, h2⟩ => ⟨hsub.subset h1, hgen.1 h2⟩, fun ⟨h1, b, hb⟩ => ⟨?_, hgen.2 ⟨b, hb⟩⟩⟩
  unfold normalize at h
  split at h
  · cases h; exact h1
  · exact normLoop_keeps _ _ _ rfl h c h1 b hb

theorem overload_ok {o : Ops Ctor} {base pystruct : Str} {cs : List Ctor} {r : Out Ctor}
    (h : Overload.generate o base pystruct cs = .ok r) : ∃ kept, normalize o cs = .ok kept := by
  unfold Overload.generate at h
  split at h
  · cases h
  · cases h
  · next hk => exact ⟨_, hk⟩
  · next hk => exact ⟨_, hk⟩

/-- **C97, the slot.**  If generation goes through, a class that has constructors and may be constructed, itself
or through its helper class, gets the constructors that can be generated; any other class gets a `tp_init` that
refuses.  The slot is left empty only if constructors are declared and none can be generated. -/
theorem C97_slot (handler : Handler Ctor) (base pystruct : Str) (K : Cls) (cs : List Ctor) (slot : Slot)
    (h : tpInit handler base pystruct K cs = .ok slot) :
    (slot = .refuse K.cannot ∧ (cs = [] ∨ (K.cannot ≠ [] ∧ ∀ h, K.helper = some h → h.cannot = true))) ∨
    ((K.cannot = [] ∨ ∃ h, K.helper = some h ∧ h.cannot = false) ∧ cs ≠ [] ∧
      ((∃ l, slot = .ctors l ∧ (∀ c, c ∈ l ↔ c ∈ cs ∧ ∃ b, generate K c = .ok b)) ∨
       (slot = .null ∧ ∀ c ∈ cs, ∀ b, generate K c ≠ .ok b))) := by
  unfold tpInit at h
  split at h
  · next hc =>
    refine .inr ⟨?_, hc.1, ?_⟩
    · rcases hc.2 with h1 | h1
      · exact .inl h1
      · refine .inr ?_
        cases hh : K.helper with
        | none => simp [hh] at h1
        | some x => exact ⟨x, rfl, by simpa [hh] using h1⟩
    · split at h
      · next r hr =>
        cases h
        obtain ⟨kept, hk⟩ := overload_ok hr
        exact .inl ⟨_, rfl, mem_written hk⟩
      · next hs =>
        cases h
        refine .inr ⟨rfl, fun c hcm b hb => ?_⟩
        have hgen : (ctorOps handler K).gen c = .ok () := by
          show (generate K c).map (fun _ => ()) = _
          rw [hb]; rfl
        unfold Overload.generate at hs
        cases hn : normalize (ctorOps handler K) cs with
        | error e =>
          rw [hn] at hs
          cases hs
          -- normalization never skips
          unfold normalize at hn
          split at hn
          · cases hn
          · have : ∀ n (ws : List Ctor), ws.length = n → normLoop (ctorOps handler K) ws ≠ .error .skipWrapper := by
              intro n
              induction n using Nat.strongRecOn with
              | ind n ih =>
                intro ws hw hl
                rw [normLoop] at hl
                split at hl
                · cases hl
                · next e hsc =>
                  cases hl
                  have : ∀ (l : List Ctor) ex, scan (ctorOps handler K) ex l ≠ .raise .skipWrapper := by
                    intro l
                    induction l with
                    | nil => intro ex h; cases h
                    | cons x xs ihx =>
                      intro ex hx
                      unfold scan at hx
                      split at hx
                      · split at hx
                        · split at hx <;> cases hx
                        · next hne => cases hx; exact hne rfl
                      · split at hx
                        · exact ihx _ hx
                        · split at hx
                          · exact ihx _ hx
                          · split at hx <;> cases hx
                  exact this _ _ hsc
                · next w hsc =>
                  have hm := scan_remove_mem hsc
                  have hlen := List.length_erase_of_mem hm
                  have hpos := List.length_pos_of_mem hm
                  exact ih (ws.erase w).length (by omega) _ rfl hl
            exact this _ _ rfl hn
        | ok kept =>
          have hmem : c ∈ kept := by
            have := (mem_written hn c).2 ⟨hcm, b, hb⟩
            unfold written at this
            rw [hn] at this
            exact (List.mem_filter.1 this).1
          have hmany : ∀ w, generateMany (ctorOps handler K) base pystruct w kept ≠ .error .skipWrapper ∨
              ∃ e, (ctorOps handler K).flags w = .error e := by
            intro w
            unfold generateMany
            cases hfw : (ctorOps handler K).flags w with
            | error e => exact .inr ⟨e, rfl⟩
            | ok f =>
              refine .inl ?_
              dsimp only
              have hne : genDelegates (ctorOps handler K) base 0 kept ≠ .error .skipWrapper := by
                have : ∀ (l : List Ctor) k, genDelegates (ctorOps handler K) base k l ≠ .error .skipWrapper := by
                  intro l
                  induction l with
                  | nil => intro k h; cases h
                  | cons x xs ihx =>
                    intro k hx
                    unfold genDelegates at hx
                    split at hx
                    · exact ihx _ hx
                    · next e hne hq => cases hx; exact hne rfl
                    · split at hx
                      · next hxe => cases hx; exact ihx _ hxe
                      · cases hx
                exact this _ _
              cases hd : genDelegates (ctorOps handler K) base 0 kept with
              | error e =>
                dsimp only
                rw [hd] at hne
                intro h
                cases h
                exact hne rfl
              | ok ds =>
                cases ds with
                | cons d ds => simp
                | nil =>
                  exfalso
                  have := C23_delegates _ _ _ _ _ hd
                  obtain ⟨i, hi⟩ := List.mem_iff_getElem?.1 hmem
                  have hz : (c, i) ∈ kept.zipIdx 0 := by
                    rw [List.mem_zipIdx_iff_getElem?]
                    simpa using hi
                  have hne : (base ++ "__".toList ++ natStr i) ∈ ([] : List Str) := by
                    rw [this]
                    refine List.mem_map.2 ⟨(c, i), List.mem_filter.2 ⟨hz, ?_⟩, rfl⟩
                    show (match (ctorOps handler K).gen c with
                      | .ok _ => true
                      | .error _ => false) = true
                    rw [hgen]
                  cases hne
          rw [hn] at hs
          cases kept with
          | nil => cases hmem
          | cons w ws =>
            cases ws with
            | nil =>
              rcases List.mem_singleton.1 hmem with rfl
              dsimp only at hs
              rw [if_neg (by simp [ctorOps])] at hs
              rw [(C28_value_iff _ _ _ _ _).2 hgen] at hs
              cases hs
            | cons w2 ws =>
              dsimp only at hs
              rcases hmany w with h1 | ⟨e, he⟩
              · exact h1 hs
              · -- the first of several kept constructors has flags
                have hu := (C22_uniform _ _ _ hn).2 (by
                  intro hl
                  have := ((C22_uniform _ _ _ hn).1).length_le
                  simp only [List.length_cons] at this
                  omega) w List.mem_cons_self w List.mem_cons_self
                obtain ⟨f, g, hf1, -⟩ := hu
                rw [he] at hf1
                cases hf1
      · cases h
  · next hc =>
    cases h
    refine .inl ⟨rfl, ?_⟩
    by_cases h0 : cs = []
    · exact .inl h0
    · refine .inr ⟨fun hk => hc ⟨h0, .inl hk⟩, fun x hx => ?_⟩
      by_contra hxc
      exact hc ⟨h0, .inr (by simp [hx, hxc])⟩

end Verif.Construct
