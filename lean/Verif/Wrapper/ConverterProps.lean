import Verif.Wrapper.ConverterCls
import Verif.Wrapper.IntRangeProps

/-!
# C96: converter functions
-/
namespace Verif.Convert
open Verif Verif.Flow Verif.Params Verif.DeclScope Verif.Wrap Verif.IntRange

variable {T D : Type}

/-! ## The specification -/

/-- The value of type `t` a Python object stands for, if any. -/
def wanted (E : Env T D) (t : VT) (x : PyV T D) : Option (CE T D) :=
  match t with
  | .plain (.int i) => (asInt x).bind (fun n => if i.ctype.lo ≤ n ∧ n ≤ i.ctype.hi then some (.num n) else none)
  | .plain .bool => (E.truth x).map .bool
  | .plain .double => (E.asReal x).map .real
  | .plain .float => (E.asReal x).map (fun y => .real (E.narrow y))
  | .plain .char =>
    match x with
    | .bytes [c] => some (.char c)
    | _ => none
  | .plain (.cstring _) =>
    match x with
    | .str s => (E.codec.enc s).bind (fun b => if 0 ∈ b then none else some (.chars (some b)))
    | _ => none
  | .plain .std =>
    match x with
    | .str s => (E.codec.enc s).map .str
    | .bytes b => some (.str b)
    | _ => none
  | .plain .glib =>
    match x with
    | .str s => (E.codec.enc s).map .ustr
    | .bytes b => some (.ustr b)
    | _ => none
  | .plain (.pyobject _) => some (.obj x)
  | .cls _ => (E.instOf x).bind (fun o => o.map .inst)

/-- References to the object C++ is to own afterwards. -/
def owned : VT → Int
  | .plain (.pyobject true) => 1
  | _ => 0

/-- A call as it should be: the value is stored, or an exception is set and nothing has changed. -/
def right (t : VT) (old : Option (CE T D)) : Option (CE T D) → Seen T D
  | some v => ⟨true, some v, owned t, 0, false⟩
  | none => ⟨false, old, 0, 0, true⟩

/-! ## Integers -/

/-- Integers through the format unit `f`. -/
def parsedInt (f : Fmt) (c : CInt) (v : Str) (x : PyV T D) : Parsed T D :=
  match (asInt x).bind f.parse with
  | some n => .stored [(v, .num (c.wrap n))] 0
  | none => .refused

/-- The handlers of Wrapper/IntRange.lean. -/
def handlerOf : IntT → IntRange.Handler
  | .int => intAll | .uint => uintAll | .int16 => int16Return | .uint16 => uint16Return | .int8 => int8Return
  | .uint8 => uint8Return | .long => longAll | .ulong => ulongAll | .longlong => longlongAll
  | .ulonglong => ulonglongAll | .size => ulonglongAll

theorem parsed_int (E : Env T D) (i : IntT) (x : PyV T D) :
    parsed ((codeOf (.int i)).ctx E (.plain (.int i)) x) (codeOf (.int i)).fmt.toList (codeOf (.int i)).texts
      ((codeOf (.int i)).vars.map String.toList) =
        parsedInt (handlerOf i).fmt (handlerOf i).var ((codeOf (.int i)).vars.headD "").toList x := by
  cases i <;> rfl

theorem wrap_wrap {t : CInt} (hb : 0 < t.bits) (n : Int) : t.wrap (t.wrap n) = t.wrap n :=
  wrap_of_fits hb (wrap_fits hb n).1 (wrap_fits hb n).2

/-- What is seen when a variable of the type of `*address` has been assigned. -/
def storedNum (n : Int) : Seen T D := ⟨true, some (.num n), 0, 0, false⟩

def refusedSeen (old : Option (CE T D)) : Seen T D := ⟨false, old, 0, 0, true⟩

theorem exit_step (C : Ctx T D) {c : Str} {v : Str} {k : Cond} {n : Int} {s : St T D} (b : List Act) (rest : List Stmt)
    (h : testOf C.t c = some (.num v k)) (hv : s.vars v = some (.num n)) :
    seen (.ok (C.exec (.exit c b :: rest) s)) =
      if k.holds n then seen (.ok (C.acts b s)) else seen (.ok (C.exec rest s)) := by
  have ht : C.test s c = some (k.holds n, s) := by
    unfold Ctx.test
    rw [h]
    dsimp only [Env.test]
    rw [hv]
  generalize hr : (if k.holds n then seen (.ok (C.acts b s)) else seen (.ok (C.exec rest s))) = r
  unfold Ctx.exec
  rw [ht, ← hr]
  cases k.holds n <;> rfl

theorem range_tail (E : Env T D) (i : IntT) (c : Cond) (x : PyV T D) (old : Option (CE T D)) (m : Int)
    (h : (i = .int16 ∧ c = .gtOrLt 32767 (-32768)) ∨ (i = .uint16 ∧ c = .gt 0xffff) ∨
      (i = .int8 ∧ c = .gtOrLt 128 (-127)) ∨ (i = .uint8 ∧ c = .gt 0xff)) :
    outcome ((codeOf (.int i)).ctx E (.plain (.int i)) x) old (codeOf (.int i)).rest
      (.stored [("tmp".toList, .num m)] 0) =
      if c.holds m then some (refusedSeen old) else some (storedNum (i.ctype.wrap m)) := by
  rcases h with ⟨rfl, rfl⟩ | ⟨rfl, rfl⟩ | ⟨rfl, rfl⟩ | ⟨rfl, rfl⟩
  all_goals
    refine (exit_step ((codeOf _).ctx E _ x) (v := "tmp".toList) (n := m) _ _ rfl rfl).trans ?_
    rfl

theorem call_intT (E : Env T D) (i : IntT) (x : PyV T D) (old : Option (CE T D)) :
    call E (.plain (.int i)) x old =
      some (right (.plain (.int i)) old (((asInt x).bind (handlerOf i).receive).map .num)) := by
  rw [call_plain, parsed_int]
  unfold parsedInt
  cases asInt x with
  | none => rfl
  | some n =>
    dsimp only [Option.bind_some]
    unfold IntRange.Handler.receive
    cases (handlerOf i).fmt.parse n with
    | none => rfl
    | some m =>
      dsimp only
      have hr : ∀ (c : Cond), ((i = .int16 ∧ c = .gtOrLt 32767 (-32768)) ∨ (i = .uint16 ∧ c = .gt 0xffff) ∨
          (i = .int8 ∧ c = .gtOrLt 128 (-127)) ∨ (i = .uint8 ∧ c = .gt 0xff)) →
          ((codeOf (.int i)).vars.headD "") = "tmp" → (handlerOf i).check = some c → (handlerOf i).target = i.ctype →
          outcome ((codeOf (.int i)).ctx E (.plain (.int i)) x) old (codeOf (.int i)).rest
            (.stored [(((codeOf (.int i)).vars.headD "").toList, .num ((handlerOf i).var.wrap m))] 0) =
          some (right (.plain (.int i)) old (Option.map .num (match (handlerOf i).check with
            | some c => if c.holds ((handlerOf i).var.wrap m) then none else some ((handlerOf i).target.wrap ((handlerOf i).var.wrap m))
            | none => some ((handlerOf i).target.wrap ((handlerOf i).var.wrap m))))) := by
        intro c h hv hc ht
        rw [hv, range_tail E i c x old _ h, hc, ht]
        dsimp only
        cases c.holds ((handlerOf i).var.wrap m) <;> rfl
      cases i
      case int16 => exact hr _ (.inl ⟨rfl, rfl⟩) rfl rfl rfl
      case uint16 => exact hr _ (.inr (.inl ⟨rfl, rfl⟩)) rfl rfl rfl
      case int8 => exact hr _ (.inr (.inr (.inl ⟨rfl, rfl⟩))) rfl rfl rfl
      case uint8 => exact hr _ (.inr (.inr (.inr ⟨rfl, rfl⟩))) rfl rfl rfl
      all_goals
        refine Eq.trans ?_ (congrArg (fun k => some (storedNum k)) (wrap_wrap (t := (handlerOf _).target) (by decide) m).symm)
        first
          | rfl
          | exact congrArg (fun k => some (storedNum k)) (wrap_wrap (t := u64) (by decide) m)

/-! ## Other types -/

theorem call_bool (E : Env T D) (x : PyV T D) (old : Option (CE T D)) :
    call E (.plain .bool) x old = some ⟨true, some (.bool (E.isTrueC x)), 0, 0, (E.truth x).isNone⟩ := by
  rw [call_plain]
  rfl

theorem call_double (E : Env T D) (x : PyV T D) (old : Option (CE T D)) :
    call E (.plain .double) x old = some (right (.plain .double) old (wanted E (.plain .double) x)) := by
  rw [call_plain]
  show outcome _ _ _ (match E.asReal x with
    | some y => .stored [("*address".toList, .real y)] 0
    | none => .refused) = some (right _ old (Option.map _ (E.asReal x)))
  cases E.asReal x <;> rfl

theorem call_float (E : Env T D) (x : PyV T D) (old : Option (CE T D)) :
    call E (.plain .float) x old = some (right (.plain .float) old (wanted E (.plain .float) x)) := by
  rw [call_plain]
  show outcome _ _ _ (match E.asReal x with
    | some y => .stored [("*address".toList, .real (E.narrow y))] 0
    | none => .refused) = some (right _ old (Option.map _ (E.asReal x)))
  cases E.asReal x <;> rfl

theorem call_char (E : Env T D) (x : PyV T D) (old : Option (CE T D)) :
    call E (.plain .char) x old = some (right (.plain .char) old (wanted E (.plain .char) x)) := by
  rw [call_plain]
  cases x with
  | bytes b =>
    cases b with
    | nil => rfl
    | cons a b => cases b <;> rfl
  | _ => rfl

theorem call_cstring (E : Env T D) (f : Bool) (x : PyV T D) (old : Option (CE T D)) :
    call E (.plain (.cstring f)) x old = some (right (.plain (.cstring f)) old (wanted E (.plain (.cstring f)) x)) := by
  rw [call_plain]
  cases f
  all_goals
    cases x with
    | str s =>
      show outcome _ _ _ (match E.codec.enc s with
        | some b => if 0 ∈ b then .refused else .stored [("*address".toList, .chars (some b))] 0
        | none => .refused) = some (right _ old ((E.codec.enc s).bind _))
      cases E.codec.enc s with
      | none => rfl
      | some b =>
        dsimp only [Option.bind_some]
        by_cases h : 0 ∈ b
        · rw [if_pos h, if_pos h]; rfl
        · rw [if_neg h, if_neg h]; rfl
    | _ => rfl

/-- An assignment. -/
theorem exec_assign (C : Ctx T D) {t v : Str} {e : Expr} {y : CE T D} {o : Other} {s : St T D} (rest : List Stmt)
    (ht : stmtOf C.t t = some (.assign v e)) (he : C.E.eval s e = some (y, false))
    (hi : intVar C.t C.decls v = none) (ho : otherVar C.t C.decls v = some o) (hf : o.fits y = true) :
    C.exec (.act (.code t) :: rest) s = C.exec rest { s.set v y with err := s.err || false } := by
  have ha : C.act s t = some { s.set v y with err := s.err || false } := by
    unfold Ctx.act
    rw [ht]
    dsimp only [Env.act]
    rw [he]
    dsimp only
    rw [hi]
    dsimp only
    rw [ho]
    exact if_pos hf
  rw [Ctx.exec, ha]

theorem take_all (b : Bytes) : takeBytes b b.length = some b := by
  unfold takeBytes
  rw [if_pos (by omega), List.take_append_of_le_length (Nat.le_refl _), List.take_length]

/-- What follows when the bytes of a string have been parsed. -/
theorem std_tail (E : Env T D) (x : PyV T D) (old : Option (CE T D)) (b : Bytes) :
    outcome ((codeOf .std).ctx E (.plain .std) x) old (codeOf .std).rest
      (.stored [("retval_ptr".toList, .chars (some b)), ("retval_len".toList, .size b.length)] 0) =
      some ⟨true, some (.str b), 0, 0, false⟩ := by
  have he : ∀ s : St T D, s.vars "retval_ptr".toList = some (.chars (some b)) →
      s.vars "retval_len".toList = some (.size b.length) →
      E.eval s (.mkStd "retval_ptr".toList "retval_len".toList) = some (.str b, false) := by
    intro s h1 h2
    dsimp only [Env.eval]
    rw [h1, h2]
    dsimp only
    rw [take_all]
    rfl
  refine (congrArg (fun e => seen (.ok e)) (exec_assign ((codeOf .std).ctx E (.plain .std) x) (o := .str) (v := "*address".toList) _
    (show stmtTable.lookup _ = _ by decide +kernel) (he _ rfl rfl) rfl rfl rfl)).trans ?_
  rfl

theorem call_std (E : Env T D) (x : PyV T D) (old : Option (CE T D)) :
    call E (.plain .std) x old = some (right (.plain .std) old (wanted E (.plain .std) x)) := by
  rw [call_plain]
  cases x with
  | str s =>
    show outcome _ _ _ (match E.codec.enc s with
      | some b => .stored [("retval_ptr".toList, .chars (some b)), ("retval_len".toList, .size b.length)] 0
      | none => .refused) = some (right _ old ((E.codec.enc s).map _))
    cases E.codec.enc s with
    | none => rfl
    | some b => exact std_tail E _ old b
  | bytes b => exact std_tail E _ old b
  | _ => rfl

theorem call_pyobject (E : Env T D) (own : Bool) (x : PyV T D) (old : Option (CE T D)) :
    call E (.plain (.pyobject own)) x old =
      some (right (.plain (.pyobject own)) old (wanted E (.plain (.pyobject own)) x)) := by
  rw [call_plain]
  cases own <;> rfl

/-- `Glib::ustring`: the buffer is never freed, and text with a zero byte is refused. -/
def glibSeen (E : Env T D) (old : Option (CE T D)) (x : PyV T D) : Seen T D :=
  match wanted E (.plain .glib) x with
  | some (.ustr b) => if 0 ∈ b then ⟨false, old, 0, 0, true⟩ else ⟨true, some (.ustr b), 0, 1, false⟩
  | _ => ⟨false, old, 0, 0, true⟩

theorem cut_all {b : Bytes} (h : 0 ∉ b) : cut b = b := by
  unfold cut
  induction b with
  | nil => rfl
  | cons a b ih =>
    rw [List.takeWhile_cons_of_pos (by
      simp only [bne_iff_ne, ne_eq]
      rintro rfl
      exact h List.mem_cons_self), ih (fun hb => h (List.mem_cons_of_mem _ hb))]

theorem glib_tail (E : Env T D) (x : PyV T D) (old : Option (CE T D)) (b : Bytes) :
    outcome ((codeOf .glib).ctx E (.plain .glib) x) old (codeOf .glib).rest
      (if 0 ∈ b then .refused else .stored [("retval_ptr".toList, .chars (some b))] 1) =
      some (if 0 ∈ b then ⟨false, old, 0, 0, true⟩ else ⟨true, some (.ustr b), 0, 1, false⟩) := by
  by_cases h : 0 ∈ b
  · rw [if_pos h, if_pos h]; rfl
  · rw [if_neg h, if_neg h]
    have hc := cut_all h
    show some (Seen.mk true (some (.ustr (cut b))) 0 1 false) = _
    rw [hc]

theorem call_glib (E : Env T D) (x : PyV T D) (old : Option (CE T D)) :
    call E (.plain .glib) x old = some (glibSeen E old x) := by
  rw [call_plain]
  cases x with
  | str s =>
    show outcome _ _ _ (match E.codec.enc s with
      | some b => if 0 ∈ b then .refused else .stored [("retval_ptr".toList, .chars (some b))] 1
      | none => .refused) = some (match (Option.map CE.ustr (E.codec.enc s) : Option (CE T D)) with
        | some (.ustr b) => if 0 ∈ b then ⟨false, old, 0, 0, true⟩ else ⟨true, some (.ustr b), 0, 1, false⟩
        | _ => ⟨false, old, 0, 0, true⟩)
    cases E.codec.enc s with
    | none => rfl
    | some b => exact glib_tail E _ old b
  | bytes b => exact glib_tail E _ old b
  | _ => rfl

/-! ## Classes -/

theorem var_ne (c : Names) (s : Str) (h : s.head? ≠ some 't') : c.var ≠ s := by
  intro e
  apply h
  rw [← e]
  rfl

theorem parsed_cls (E : Env T D) (c : Names) (x : PyV T D) :
    parsed ⟨E, .cls c, ["PyObject *py_retval;".toList, c.decl], x⟩ "O!".toList ['&' :: c.pytype] [c.var] =
      match E.instOf x with
      | some _ => .stored [(c.var, .obj x)] 0
      | none => .refused := by
  have ho : otherVar (.cls c) ["PyObject *py_retval;".toList, c.decl] c.var = some .wrapper := by
    unfold otherVar
    rw [if_neg (var_ne c _ (by decide)), if_neg (fun h => var_ne c _ (by decide) h.1),
      if_neg (fun h => var_ne c _ (by decide) h.1), if_neg (fun h => var_ne c _ (by decide) h.1)]
    exact if_pos ⟨rfl, List.mem_cons_of_mem _ (List.mem_singleton.mpr rfl)⟩
  show (if "O!".toList = "O!".toList ∧ otherVar (.cls c) ["PyObject *py_retval;".toList, c.decl] c.var = some .wrapper then _
    else _) = _
  rw [if_pos ⟨rfl, ho⟩]
  rfl

/-- Element of a class: a wrapper without C++ object has no meaning. -/
theorem call_class (E : Env T D) (c : Names) (hg : c.Good) (x : PyV T D) (old : Option (CE T D)) :
    call E (.cls c) x old =
      match E.instOf x with
      | none => some ⟨false, old, 0, 0, true⟩
      | some none => none
      | some (some k) => some ⟨true, some (.inst k), 0, 0, false⟩ := by
  rw [call_cls E c hg, parsed_cls]
  cases hi : E.instOf x with
  | none => rfl
  | some o =>
    cases o with
    | none =>
      have ha : Ctx.act ⟨E, .cls c, ["PyObject *py_retval;".toList, c.decl], x⟩
          { (packed x old).set c.var (.obj x) with buffers := 0 + 0 } c.assign = none := by
        unfold Ctx.act
        rw [assign_cls]
        dsimp only [Env.act, Env.eval, St.set]
        rw [if_pos rfl]
        dsimp only
        rw [hi]
      show seen (.ok (Ctx.exec _ (.act (.code c.assign) :: _) _)) = _
      rw [Ctx.exec]
      erw [ha]
      rfl
    | some k =>
      have he : E.eval { (packed x old).set c.var (.obj x) with buffers := 0 + 0 } (.objOf c.var) = some (.inst k, false) := by
        dsimp only [Env.eval, St.set]
        rw [if_pos rfl]
        dsimp only
        rw [hi]
      refine (congrArg (fun e => seen (.ok e)) (exec_assign ⟨E, .cls c, ["PyObject *py_retval;".toList, c.decl], x⟩
        (o := .inst) _ (assign_cls c) he rfl rfl rfl)).trans ?_
      unfold Ctx.exec Ctx.act
      rw [show stmtOf _ decText = some .unpack from unpack_meaning _]
      rfl

end Verif.Convert
