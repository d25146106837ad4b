import Verif.Wrapper.ForwardFlow
import Verif.Params.Props

/-!
# C40: method flags, parsing code and C signature
-/
namespace Verif.Wrap
open Verif Verif.Flow Verif.Params Verif.DeclScope

/-! ## Model -/

/-- Parameters of the C function generated for a function, function.py:253-268; `pystruct` is
`self_parameter_pystruct`. -/
def functionArgs (flags : List Str) (pystruct : Option Str) (extra : List Str) : List Str :=
  (if "METH_VARARGS".toList ∈ flags then
    [match pystruct with
      | none => "PyObject * PYBINDGEN_UNUSED(dummy)".toList
      | some p => p ++ " *self".toList,
     "PyObject *args".toList,
     if "METH_KEYWORDS".toList ∈ flags then "PyObject *kwargs".toList
      else "PyObject *PYBINDGEN_UNUSED(_kwargs)".toList]
  else ["PyObject *PYBINDGEN_UNUSED(_args)".toList, "PyObject *PYBINDGEN_UNUSED(_kwargs)".toList]) ++ extra

/-- Parameters of the C function generated for a method, `get_wrapper_signature`,
cppmethod.py:333-374; `flags` include `METH_STATIC` for static methods (cppmethod.py:408-413). -/
def methodArgs (flags : List Str) (pystruct : Str) (extra : List Str) : PyRes (List Str) :=
  let selfName := if "METH_STATIC".toList ∈ flags then "PYBINDGEN_UNUSED(dummy)".toList else "self".toList
  let selfArg := pystruct ++ " *".toList ++ selfName
  if "METH_VARARGS".toList ∈ flags then
    if "METH_KEYWORDS".toList ∈ flags then
      .ok ([selfArg, "PyObject *args".toList, "PyObject *kwargs".toList] ++ extra)
    else if extra ≠ [] then .error .assertionError
    else .ok ([selfArg, "PyObject *args".toList, "PyObject *PYBINDGEN_UNUSED(_kwargs)".toList] ++ extra)
  else if extra ≠ [] then .error .assertionError
  else .ok ([if "METH_STATIC".toList ∈ flags then "PyObject *PYBINDGEN_UNUSED(_self)".toList else selfArg,
    "PyObject *PYBINDGEN_UNUSED(_args)".toList, "PyObject *PYBINDGEN_UNUSED(_kwargs)".toList] ++ extra)

/-- Parameters of the C function generated for a constructor, cppmethod.py:750-752. -/
def constructorArgs (pystruct : Str) (extra : List Str) : List Str :=
  [pystruct ++ " *self".toList, "PyObject *args".toList, "PyObject *kwargs".toList] ++ extra

/-- `CppMethod.get_py_method_def_flags`, cppmethod.py:408-413, on the flags of the wrapper. -/
def methodFlags (flags : List Str) (isStatic : Bool) : List Str :=
  if isStatic then flags ++ ["METH_STATIC".toList] else flags

/-! ## Specification -/

/-- Whether a parameter takes a value from Python. -/
def ParamH.isIn : ParamH → Bool
  | .scalar s => s.isIn
  | .bool _ _ _ => true
  | .boolRef _ _ i _ _ => i
  | .array _ _ _ i _ _ _ _ => i
  | .other h => h.isIn

def ParamH.kwName : ParamH → Str
  | .scalar s => s.name
  | .bool _ n _ => n
  | .boolRef _ n _ _ _ => n
  | .array _ n _ _ _ _ _ _ => n
  | .other h => h.name

/-- The format unit is not empty. -/
def ParamH.hasUnit : ParamH → Prop
  | .scalar s => s.fmt ≠ []
  | _ => True

/-- How many arguments the interpreter passes to a C function declared with these flags
(CPython documentation, `PyMethodDef`): `METH_NOARGS` and `METH_VARARGS` functions take two
`PyObject *`, `METH_VARARGS | METH_KEYWORDS` three.  `METH_STATIC` changes nothing. -/
def cpythonPasses (flags : List Str) : Nat :=
  if "METH_VARARGS".toList ∈ flags ∧ "METH_KEYWORDS".toList ∈ flags then 3 else 2

/-- The flags a wrapper is to have. -/
def expectedFlags (ins : List Str) (force : Option ParseKind) : List Str :=
  if ins = [] ∧ force = none then ["METH_NOARGS".toList]
  else if ins = [] ∧ force = some .tuple then ["METH_VARARGS".toList]
  else ["METH_VARARGS".toList, "METH_KEYWORDS".toList]

/-- The C array of keyword names: quoted names, then `NULL`. -/
def keywordArray (names : List Str) : Str :=
  "{".toList ++ (names.map (fun k => "\"".toList ++ k ++ "\", ".toList)).flatten ++ "NULL}".toList

/-- The call parsing a tuple with the given format unit string (quoted) and addresses. -/
def tupleCall (fmt : Str) (addrs : List Str) : Str :=
  "!PyArg_ParseTuple(args, (char *) ".toList ++ fmt ++ (addrs.map (fun a => ", ".toList ++ a)).flatten ++ ")".toList

/-- The call parsing a tuple and keywords, `kw` being the keyword array. -/
def keywordsCall (kw fmt : Str) (addrs : List Str) : Str :=
  "!PyArg_ParseTupleAndKeywords(args, kwargs, (char *) ".toList ++ fmt ++ ", (char **) ".toList ++ kw ++
    (addrs.map (fun a => ", ".toList ++ a)).flatten ++ ")".toList

/-! ## Proof -/

theorem pyJoin_flat (a : Str) : ∀ l : List Str,
    pyJoin ", ".toList (a :: l) = a ++ (l.map (fun e => ", ".toList ++ e)).flatten
  | [] => by simp [pyJoin]
  | b :: l => by
    have ih := pyJoin_flat b l
    show a ++ ", ".toList ++ pyJoin ", ".toList (b :: l) = _
    rw [ih]; simp

theorem kwInit_eq (names : List Str) : kwInit names = keywordArray names := by
  have : ∀ l : List Str, pyJoin ", ".toList (l.map (fun k => "\"".toList ++ k ++ "\"".toList) ++ ["NULL".toList]) =
      (l.map (fun k => "\"".toList ++ k ++ "\", ".toList)).flatten ++ "NULL".toList := by
    intro l
    induction l with
    | nil => rfl
    | cons k l ih =>
      have hne : ∃ x m, l.map (fun k => "\"".toList ++ k ++ "\"".toList) ++ ["NULL".toList] = x :: m := by
        cases l with
        | nil => exact ⟨_, _, rfl⟩
        | cons => exact ⟨_, _, rfl⟩
      obtain ⟨x, m, hx⟩ := hne
      rw [hx] at ih
      rw [List.map_cons, List.cons_append, hx]
      show ("\"".toList ++ k ++ "\"".toList) ++ ", ".toList ++ pyJoin ", ".toList (x :: m) = _
      rw [ih]
      simp
  unfold kwInit keywordArray
  rw [this]
  simp

theorem tuple_text {prm : List Str} {fmt : Str} {addrs : List Str} (h : prm = fmt :: addrs) :
    callText "!PyArg_ParseTuple" ("args".toList :: castFirst prm) = tupleCall fmt addrs := by
  subst h
  unfold callText castFirst tupleCall
  rw [pyJoin_flat]
  simp

theorem keywords_text {prm : List Str} {fmt : Str} {addrs : List Str} (v : Str) (h : prm = fmt :: addrs) :
    callText "!PyArg_ParseTupleAndKeywords" (["args".toList, "kwargs".toList] ++ (castFirst prm).take 1 ++
      ("(char **) ".toList ++ v) :: (castFirst prm).drop 1) = keywordsCall v fmt addrs := by
  subst h
  unfold callText castFirst keywordsCall
  show _ ++ _ ++ pyJoin ", ".toList ("args".toList :: "kwargs".toList :: ("(char *) ".toList ++ fmt) ::
    ("(char **) ".toList ++ v) :: addrs) ++ _ = _
  rw [pyJoin_flat]
  simp

theorem getParameters_cons {items : List PItem} {prm : List Str} (h : getParameters items = .ok prm) :
    ∃ fmt addrs, prm = fmt :: addrs := by
  unfold getParameters at h
  obtain ⟨t, -, h⟩ := bind_ok.mp h
  cases h
  exact ⟨_, _, rfl⟩

/-- What a parameter does to the parse list and the flags. -/
theorem paramH_parse (p : ParamH) {w w' : W} (h : p.convert w = .ok w') :
    w'.flags = w.flags ∧ ∃ l, w'.parse = w.parse ++ l ∧ l.map (·.name) = (if p.isIn then [some p.kwName] else []) ∧
      (p.hasUnit → ∀ it ∈ l, it.template ≠ []) := by
  cases p with
  | scalar s =>
    obtain ⟨f, v, -, rfl⟩ := scalar_spec h
    refine ⟨rfl, _, rfl, ?_, ?_⟩
    · simp only [ParamH.isIn, ParamH.kwName]; by_cases hi : s.isIn = true <;> simp [hi]
    · intro hu it hit
      split at hit
      · simp only [List.mem_singleton] at hit; subst hit; exact hu
      · simp at hit
  | bool t n d =>
    unfold ParamH.convert boolParam at h
    obtain ⟨⟨w1, v⟩, h1, h⟩ := bind_ok.mp h
    obtain ⟨⟨w2, q⟩, h2, h⟩ := bind_ok.mp h
    cases h
    obtain ⟨-, e1⟩ := declare_spec h1
    obtain ⟨-, e2⟩ := declare_spec h2
    subst e1; subst e2
    exact ⟨rfl, [_], rfl, rfl, by simp⟩
  | boolRef t n i o b =>
    unfold ParamH.convert boolRef at h
    obtain ⟨⟨w1, v⟩, h1, h⟩ := bind_ok.mp h
    obtain ⟨w2, h2, h⟩ := bind_ok.mp h
    cases h
    obtain ⟨-, e1⟩ := declare_spec h1
    have e2 : w2.flags = w.flags ∧ ∃ l, w2.parse = w.parse ++ l ∧
        l.map (·.name) = (if i then [some n] else []) ∧ ∀ it ∈ l, it.template ≠ [] := by
      unfold whenG at h2
      split at h2
      · rename_i hi
        obtain ⟨⟨w3, q⟩, h3, h2⟩ := bind_ok.mp h2
        cases h2
        obtain ⟨-, e3⟩ := declare_spec h3
        subst e3; subst e1
        exact ⟨rfl, [_], rfl, by simp [hi], by simp⟩
      · rename_i hi
        cases h2; subst e1
        exact ⟨rfl, [], by simp [W.addCall], by simp [hi], by simp⟩
    obtain ⟨f2, l, p2, n2, t2⟩ := e2
    refine ⟨?_, l, ?_, n2, fun _ => t2⟩
    · split <;> simp [W.addBuild, f2]
    · split <;> simp [W.addBuild, p2]
  | array t n len i o ec gt mk =>
    unfold ParamH.convert arrayParam at h
    obtain ⟨⟨w1, v⟩, h1, h⟩ := bind_ok.mp h
    obtain ⟨⟨w2, l⟩, h2, h⟩ := bind_ok.mp h
    obtain ⟨⟨w3, idx⟩, h3, h⟩ := bind_ok.mp h
    obtain ⟨w4, h4, h⟩ := bind_ok.mp h
    cases h
    obtain ⟨-, e1⟩ := declare_spec h1
    obtain ⟨-, e2⟩ := declare_spec h2
    obtain ⟨-, e3⟩ := declare_spec h3
    have e4 : w4.flags = w.flags ∧ ∃ l, w4.parse = w.parse ++ l ∧
        l.map (·.name) = (if i then [some n] else []) ∧ ∀ it ∈ l, it.template ≠ [] := by
      unfold whenG at h4
      split at h4
      · rename_i hi
        obtain ⟨⟨w5, q⟩, h5, h4⟩ := bind_ok.mp h4
        cases h4
        obtain ⟨-, e5⟩ := declare_spec h5
        subst e5; subst e3; subst e2; subst e1
        exact ⟨rfl, [_], rfl, by simp [hi], by simp⟩
      · rename_i hi
        cases h4; subst e3; subst e2; subst e1
        exact ⟨rfl, [], by simp [W.addCall], by simp [hi], by simp⟩
    obtain ⟨f2, m, p2, n2, t2⟩ := e4
    refine ⟨?_, m, ?_, n2, fun _ => t2⟩
    · split <;> simp [W.addBuild, W.op, f2]
    · split <;> simp [W.addBuild, W.op, p2]
  | other q =>
    obtain ⟨h1, -, l, h2, h3, h4⟩ := q.parses _ _ h
    exact ⟨h1, l, h2, h3, fun _ => h4⟩

theorem params_parse : ∀ (ps : List ParamH) {w w' : W},
    convertParams (ps.map ParamH.convert) w = .ok w' →
    w'.flags = w.flags ∧ ∃ l, w'.parse = w.parse ++ l ∧
      l.map (·.name) = (ps.filter ParamH.isIn).map (fun p => some p.kwName) ∧
      ((∀ p ∈ ps, p.hasUnit) → ∀ it ∈ l, it.template ≠ [])
  | [], w, w', h => by cases h; exact ⟨rfl, [], by simp, by simp, by simp⟩
  | p :: ps, w, w', h => by
    simp only [List.map_cons, convertParams] at h
    obtain ⟨w1, h1, h2⟩ := bind_ok.mp h
    obtain ⟨f1, l1, p1, n1, u1⟩ := paramH_parse p (guardNI_ok.mp h1)
    obtain ⟨f2, l2, p2, n2, u2⟩ := params_parse ps h2
    refine ⟨f2.trans f1, l1 ++ l2, by rw [p2, p1, List.append_assoc], ?_, ?_⟩
    · rw [List.map_append, n1, n2, List.filter_cons]
      split <;> simp
    · intro hu it hit
      rcases List.mem_append.mp hit with hit | hit
      · exact u1 (hu p List.mem_cons_self) it hit
      · exact u2 (fun q hq => hu q (List.mem_cons_of_mem _ hq)) it hit

theorem templateLoop_ne {items : List PItem} {b : Bool} {t : Str} (h : templateLoop b items = .ok t)
    (hne : items ≠ []) (ht : ∀ it ∈ items, it.template ≠ []) : t ≠ [] := by
  cases items with
  | nil => exact absurd rfl hne
  | cons it rest =>
    have h0 := ht it List.mem_cons_self
    unfold templateLoop at h
    split at h
    · cases h
    · split at h
      · obtain ⟨t', -, h⟩ := bind_ok.mp h
        cases h; simp
      · obtain ⟨t', -, h⟩ := bind_ok.mp h
        cases h; simp [h0]

theorem getParameters_empty {items : List PItem} {ps : List Str} (h : getParameters items = .ok ps)
    (ht : ∀ it ∈ items, it.template ≠ []) : ps = ["\"\"".toList] ↔ items = [] := by
  unfold getParameters at h
  obtain ⟨t, h1, h⟩ := bind_ok.mp h
  cases h
  constructor
  · intro he
    by_contra hne
    have := templateLoop_ne h1 hne ht
    simp only [List.cons.injEq] at he
    obtain ⟨he, -⟩ := he
    have : t = [] := by
      have hl := congrArg List.length he
      rw [show ("\"\"".toList).length = 2 from rfl] at hl
      simp only [List.length_append, List.length_cons, List.length_nil] at hl
      exact List.eq_nil_of_length_eq_zero (by omega)
    contradiction
  · rintro rfl
    cases h1
    rfl

theorem getKeywords_names {items : List PItem} (ns : List Str) (h : items.map (·.name) = ns.map some) :
    getKeywords items = .ok (if ns = [] then none else some ns) := by
  obtain ⟨q1, q2, -⟩ := C07_keywords items
  split
  · rename_i he
    subst he
    refine q1 ?_
    intro it hit
    rw [List.map_nil, List.map_eq_nil_iff] at h
    rw [h] at hit; simp at hit
  · rename_i hne
    have hne' : items ≠ [] := by
      rintro rfl
      exact hne (List.map_eq_nil_iff.mp h.symm)
    obtain ⟨kw, hk, hk'⟩ := q2 hne' (by
      intro it hit
      have : it.name ∈ items.map (·.name) := List.mem_map.mpr ⟨it, hit, rfl⟩
      rw [h, List.mem_map] at this
      obtain ⟨s, -, hs⟩ := this
      rw [← hs]; simp)
    rw [hk]
    rw [h] at hk'
    rw [(List.map_injective_iff.mpr (fun _ _ h => Option.some.inj h)) hk']

/-- The steps that leave parse list and flags alone, and write no check on the first block. -/
structure Quiet (w w' : W) : Prop where
  parse : w'.parse = w.parse
  flags : w'.flags = w.flags
  checks : parseChecks w'.ops = parseChecks w.ops

theorem Quiet.trans {a b c : W} (h : Quiet a b) (h' : Quiet b c) : Quiet a c :=
  ⟨h'.parse.trans h.parse, h'.flags.trans h.flags, h'.checks.trans h.checks⟩

theorem Quiet.refl (a : W) : Quiet a a := ⟨rfl, rfl, rfl⟩

theorem quiet_op (w : W) (o : Op) (h : parseChecks [o] = []) : Quiet w (w.op o) :=
  ⟨rfl, rfl, by simp [W.op, parseChecks_append, h]⟩

theorem quiet_declare {w w' : W} {t n v : Str} {x a : Option Str}
    (h : w.declare t n x a = .ok (w', v)) : Quiet w w' := by
  obtain ⟨-, rfl⟩ := declare_spec h
  exact ⟨rfl, rfl, rfl⟩

theorem quiet_addWards (i : Nat) : ∀ {l : List (Str × Str)} {w w' : W}, addWards i l w = .ok w' → Quiet w w'
  | [], w, w', h => by cases h; exact .refl _
  | (c, d) :: rest, w, w', h => by
    simp only [addWards] at h
    obtain ⟨w1, h1, h2⟩ := bind_ok.mp h
    unfold addWard at h1
    obtain ⟨⟨w2, v⟩, h3, h1⟩ := bind_ok.mp h1
    cases h1
    exact (quiet_declare h3).trans ((quiet_op _ _ rfl).trans ((quiet_op _ _ rfl).trans ((quiet_op _ _ rfl).trans
      ((quiet_op _ _ rfl).trans (quiet_addWards i h2)))))

theorem quiet_genCall {assign callee er : Str} {excs : List (Str × Str)} {w w' : W}
    (h : genCall assign callee excs er w = .ok w') : Quiet w w' := by
  unfold genCall at h
  cases h
  have : ∀ l : List (Str × Str), parseChecks (l.map (catchClause er)) = [] := by
    intro l
    induction l with
    | nil => rfl
    | cons e l ih => exact ih
  have hc : parseChecks (excs.map (catchClause er)) = [] := this excs
  split
  · refine ⟨rfl, rfl, ?_⟩
    simp only [W.op, parseChecks_append, hc]; simp [parseChecks]
  · refine ⟨rfl, rfl, ?_⟩
    simp only [W.op, parseChecks_append, hc]; simp [parseChecks]

theorem quiet_finish (c : Config) (w : W) : Quiet w (finishStep c w) := by
  unfold finishStep resultStep
  split
  · exact quiet_op _ _ rfl
  · dsimp only
    split
    · exact (quiet_op _ _ rfl).trans ((quiet_op _ _ rfl).trans ((quiet_op _ _ rfl).trans (quiet_op _ _ rfl)))
    · exact (quiet_op _ _ rfl).trans ((quiet_op _ _ rfl).trans (quiet_op _ _ rfl))

theorem paramH_checks (p : ParamH) {w w' : W} (h : p.convert w = .ok w') :
    parseChecks w'.ops = parseChecks w.ops := by
  cases p with
  | scalar s =>
    obtain ⟨f, v, -, rfl⟩ := scalar_spec h
    simp only [parseChecks_append, Scalar.checkOps]
    split <;> simp [parseChecks]
  | bool t n d =>
    unfold ParamH.convert boolParam at h
    obtain ⟨⟨w1, v⟩, h1, h⟩ := bind_ok.mp h
    obtain ⟨⟨w2, q⟩, h2, h⟩ := bind_ok.mp h
    cases h
    simp [W.addCall, W.addParse, W.op, declare_ops h1, declare_ops h2, parseChecks_append, parseChecks]
  | boolRef t n i o b =>
    unfold ParamH.convert boolRef at h
    obtain ⟨⟨w1, v⟩, h1, h⟩ := bind_ok.mp h
    obtain ⟨w2, h2, h⟩ := bind_ok.mp h
    cases h
    have e2 : parseChecks w2.ops = parseChecks w.ops := by
      unfold whenG at h2
      split at h2
      · obtain ⟨⟨w3, q⟩, h3, h2⟩ := bind_ok.mp h2
        cases h2
        simp [W.addParse, W.op, declare_ops h3, W.addCall, declare_ops h1, parseChecks_append, parseChecks]
      · cases h2; simp [W.addCall, declare_ops h1]
    split <;> simp [W.addBuild, e2]
  | array t n len i o ec gt mk =>
    unfold ParamH.convert arrayParam at h
    obtain ⟨⟨w1, v⟩, h1, h⟩ := bind_ok.mp h
    obtain ⟨⟨w2, l⟩, h2, h⟩ := bind_ok.mp h
    obtain ⟨⟨w3, idx⟩, h3, h⟩ := bind_ok.mp h
    obtain ⟨w4, h4, h⟩ := bind_ok.mp h
    cases h
    have e3 : w3.ops = w.ops := by rw [declare_ops h3, declare_ops h2, declare_ops h1]
    have e4 : parseChecks w4.ops = parseChecks w.ops := by
      unfold whenG at h4
      split at h4
      · obtain ⟨⟨w5, q⟩, h5, h4⟩ := bind_ok.mp h4
        cases h4
        simp [W.addParse, W.op, declare_ops h5, W.addCall, e3, parseChecks_append, parseChecks]
      · cases h4; simp [W.addCall, e3]
    split
    · simp [W.addBuild, W.op, parseChecks_append, e4]; rfl
    · exact e4
  | other q => exact (q.parses _ _ h).2.1

theorem params_checks : ∀ (ps : List ParamH) {w w' : W},
    convertParams (ps.map ParamH.convert) w = .ok w' → parseChecks w'.ops = parseChecks w.ops
  | [], w, w', h => by cases h; rfl
  | p :: ps, w, w', h => by
    simp only [List.map_cons, convertParams] at h
    obtain ⟨w1, h1, h2⟩ := bind_ok.mp h
    rw [params_checks ps h2, paramH_checks p (guardNI_ok.mp h1)]

theorem parseStep_parse {force : Option ParseKind} {w w' : W} (h : parseStep force w = .ok w') :
    w'.parse = w.parse := by
  unfold parseStep at h
  obtain ⟨prm, -, h⟩ := bind_ok.mp h
  obtain ⟨kw, -, h⟩ := bind_ok.mp h
  dsimp only at h
  split at h
  · split at h
    · have h := Except.ok.inj h
      rw [← h]; rfl
    · obtain ⟨⟨w1, v⟩, hd, h⟩ := bind_ok.mp h
      have h := Except.ok.inj h
      obtain ⟨-, e⟩ := declare_spec hd
      rw [← h, e]; rfl
  · have h := Except.ok.inj h
    rw [← h]

theorem parseStep_spec {force : Option ParseKind} {wd we : W} {ins : List Str}
    (h5 : parseStep force wd = .ok we) (hflags : wd.flags = []) (hchecks : parseChecks wd.ops = [])
    (hkw : getKeywords wd.parse = .ok (if ins = [] then none else some ins))
    (hpe : ∀ prm, getParameters wd.parse = .ok prm → (prm = ["\"\"".toList] ↔ ins = [])) :
    we.flags = expectedFlags ins force ∧
    (we.flags = ["METH_NOARGS".toList] → parseChecks we.ops = []) ∧
    (we.flags = ["METH_VARARGS".toList] →
      ∃ fmt addrs, getParameters wd.parse = .ok (fmt :: addrs) ∧ parseChecks we.ops = [tupleCall fmt addrs]) ∧
    (we.flags = ["METH_VARARGS".toList, "METH_KEYWORDS".toList] →
      ∃ fmt addrs v, getParameters wd.parse = .ok (fmt :: addrs) ∧ parseChecks we.ops = [keywordsCall v fmt addrs] ∧
        (v, some (keywordArray ins)) ∈ we.vars) := by
  unfold parseStep at h5
  obtain ⟨prm, hprm, h5⟩ := bind_ok.mp h5
  obtain ⟨kw, hk, h5⟩ := bind_ok.mp h5
  rw [hkw] at hk
  have hk := (Except.ok.inj hk).symm
  have hpe := hpe prm hprm
  obtain ⟨fmt, addrs, hfa⟩ := getParameters_cons hprm
  rw [hfa] at hprm
  dsimp only at h5
  split at h5
  · rename_i hc
    split at h5
    · rename_i hkc
      have h5 := Except.ok.inj h5
      have hi : ins = [] := by
        by_contra hne
        rw [hk, if_neg hne] at hkc
        exact absurd hkc.1 (by simp)
      have hf : force = some .tuple := by
        have : force ≠ none := by
          rcases hc with hc | hc
          · exact absurd (hpe.mpr hi) hc
          · exact hc
        cases force with
        | none => exact absurd rfl this
        | some k => cases k with
          | tuple => rfl
          | keywords => exact absurd rfl hkc.2
      have ef : we.flags = ["METH_VARARGS".toList] := by rw [← h5]; simp only [W.op, hflags]; rfl
      have ec : parseChecks we.ops = [callText "!PyArg_ParseTuple" ("args".toList :: castFirst prm)] := by
        rw [← h5]; simp only [W.op, parseChecks_append, hchecks]; rfl
      rw [ef, ec]
      refine ⟨by rw [hi, hf]; rfl, fun h => absurd h (by decide), fun _ => ⟨fmt, addrs, hprm, by rw [tuple_text hfa]⟩,
        fun h => absurd h (by decide)⟩
    · rename_i hkc
      obtain ⟨⟨w1, v⟩, hd, h5⟩ := bind_ok.mp h5
      have h5 := Except.ok.inj h5
      obtain ⟨-, e⟩ := declare_spec hd
      have hkd : kw.getD [] = ins := by
        rw [hk]; split <;> simp_all
      have hexp : expectedFlags ins force = ["METH_VARARGS".toList, "METH_KEYWORDS".toList] := by
        unfold expectedFlags
        by_cases hi : ins = []
        · have hf : force = some .keywords := by
            by_contra hne
            exact hkc ⟨by rw [hk, if_pos hi], hne⟩
          subst hf
          rw [if_neg (by simp), if_neg (by simp)]
        · rw [if_neg (fun h => hi h.1), if_neg (fun h => hi h.1)]
      have ef : we.flags = ["METH_VARARGS".toList, "METH_KEYWORDS".toList] := by
        rw [← h5, e]; simp only [W.op, hflags]; rfl
      have ec : parseChecks we.ops = [callText "!PyArg_ParseTupleAndKeywords"
          (["args".toList, "kwargs".toList] ++ (castFirst prm).take 1 ++
          ("(char **) ".toList ++ v) :: (castFirst prm).drop 1)] := by
        rw [← h5, e]; simp only [W.op, parseChecks_append, hchecks]; rfl
      have ev : (v, some (keywordArray ins)) ∈ we.vars := by
        rw [← kwInit_eq, ← h5, e, hkd]
        exact List.mem_append_right _ (List.mem_singleton.mpr rfl)
      rw [ef, ec]
      exact ⟨hexp.symm, fun h => absurd h (by decide), fun h => absurd h (by decide),
        fun _ => ⟨fmt, addrs, v, hprm, by rw [keywords_text v hfa], ev⟩⟩
  · rename_i hc
    have h5 := Except.ok.inj h5
    rw [not_or, ne_eq, ne_eq, not_not, not_not] at hc
    have hi := hpe.mp hc.1
    have ef : we.flags = ["METH_NOARGS".toList] := by rw [← h5]; simp only [hflags]; rfl
    have ec : parseChecks we.ops = [] := by rw [← h5]; exact hchecks
    rw [ef]
    exact ⟨by rw [hi, hc.2]; rfl, fun _ => ec, fun h => absurd h (by decide), fun h => absurd h (by decide)⟩

/-- C40 (flags and parsing code): in every function or method wrapper made of the modelled parts the
flags are those expected from the parameters — `METH_NOARGS` exactly if no parameter takes a value
from Python (and parsing was not forced), keyword arguments exactly if some parameter does (or they
were forced) — and the code contains accordingly no parsing call, one `PyArg_ParseTuple`, or one
`PyArg_ParseTupleAndKeywords` together with a declaration of the keyword array listing the names of
the input parameters in order. -/
theorem C40_flags_partial (unblock : Bool) (ps : List ParamH) (dep : Option Str)
    (assign callee : Str) (excs : List (Str × Str)) (er : Str) (force : Option ParseKind)
    (ret : FRet)
    (before after : List (Str × Str)) (w0 w : W) (h0 : w0.flags = [] ∧ w0.parse = [] ∧ w0.ops = [])
    (hu : ∀ p ∈ ps, p.hasUnit)
    (h : generateBody (funConfig unblock ps dep assign callee excs er force ret before after) w0 = .ok w) :
    let ins := (ps.filter ParamH.isIn).map ParamH.kwName
    w.flags = expectedFlags ins force ∧
    (w.flags = ["METH_NOARGS".toList] → parseChecks w.ops = []) ∧
    (w.flags = ["METH_VARARGS".toList] →
      ∃ fmt addrs, getParameters w.parse = .ok (fmt :: addrs) ∧ parseChecks w.ops = [tupleCall fmt addrs]) ∧
    (w.flags = ["METH_VARARGS".toList, "METH_KEYWORDS".toList] →
      ∃ fmt addrs v, getParameters w.parse = .ok (fmt :: addrs) ∧ parseChecks w.ops = [keywordsCall v fmt addrs] ∧
        (v, some (keywordArray ins)) ∈ w.vars) := by
  obtain ⟨wa, ts, wb, wc, wd, we, wf, wg, h1, h2, h3, h4, h5, h6, h7, rfl⟩ := generateBody_stages h
  obtain ⟨z1, z2, z3⟩ := h0
  have qa : Quiet w0 wa := by
    unfold startStep at h1
    split at h1
    · obtain ⟨⟨w1, v⟩, hd, hw⟩ := bind_ok.mp h1
      cases hw
      exact (quiet_declare hd).trans (quiet_op _ _ rfl)
    · cases h1; exact .refl _
  obtain ⟨pf, l, pp, pn, pu⟩ := params_parse ps h2
  have pc := params_checks ps h2
  have qd : Quiet wb (depStep dep wb) := by
    unfold depStep
    split
    · exact quiet_op _ _ rfl
    · exact .refl _
  have qc : Quiet (depStep dep wb) wc := quiet_addWards 1 h3
  have qs : Quiet wc (saveStep unblock ts wc) := by
    unfold saveStep
    split
    · exact quiet_op _ _ rfl
    · exact .refl _
  have qg : Quiet (saveStep unblock ts wc) wd := quiet_genCall h4
  have qall : Quiet wb wd := qd.trans (qc.trans (qs.trans qg))
  have hparse : wd.parse = l := by rw [qall.parse, pp, qa.parse, z2]; rfl
  have hflags : wd.flags = [] := by rw [qall.flags, pf, qa.flags, z1]
  have hchecks : parseChecks wd.ops = [] := by
    rw [qall.checks, pc, qa.checks, z3]; rfl
  have hr : ret.handler.convert we = .ok wf := by
    rw [ret.handler_convert]; exact guardNI_ok.mp h6
  obtain ⟨r1, r2, lv, vf⟩ := ret.handler.keeps we wf hr
  have qf : Quiet we wf := by
    obtain ⟨lo, e, hl⟩ := ret.handler.late we wf hr
    exact ⟨r1, r2, by rw [e, parseChecks_append, late_checks hl, List.append_nil]⟩
  have qp : Quiet wf wg := quiet_addWards 2 h7
  have vg : ∃ l, wg.vars = wf.vars ++ l := by
    clear qp h6 vf qf
    have : ∀ (l : List (Str × Str)) (a b : W), addWards 2 l a = .ok b → ∃ m, b.vars = a.vars ++ m := by
      intro l
      induction l with
      | nil => intro a b h; cases h; exact ⟨[], by simp⟩
      | cons p l ih =>
        intro a b h
        obtain ⟨c, d⟩ := p
        simp only [addWards] at h
        obtain ⟨w1, h1, h2⟩ := bind_ok.mp h
        obtain ⟨m, e⟩ := ih _ _ h2
        unfold addWard at h1
        obtain ⟨⟨w2, v⟩, h3, h1⟩ := bind_ok.mp h1
        cases h1
        obtain ⟨-, e3⟩ := declare_spec h3
        subst e3
        exact ⟨(v, none) :: m, by rw [e]; simp [W.op]⟩
    exact this after _ _ h7
  have qe : Quiet we (finishStep (funConfig unblock ps dep assign callee excs er force ret before after) wg) :=
    qf.trans (qp.trans (quiet_finish _ _))
  have vend : ∃ l, (finishStep (funConfig unblock ps dep assign callee excs er force ret before after) wg).vars
      = we.vars ++ l := by
    obtain ⟨m, e⟩ := vg
    refine ⟨lv ++ m, ?_⟩
    have : (finishStep (funConfig unblock ps dep assign callee excs er force ret before after) wg).vars = wg.vars := by
      unfold finishStep resultStep
      split
      · rfl
      · dsimp only; split <;> rfl
    rw [this, e, vf, List.append_assoc]
  obtain ⟨lv, vend⟩ := vend
  intro ins
  have hins : l.map (·.name) = ins.map some := by rw [pn]; simp [ins]
  have hempty : l = [] ↔ ins = [] := by
    constructor
    · rintro rfl; exact List.map_eq_nil_iff.mp hins.symm
    · intro he; rw [he] at hins; exact List.map_eq_nil_iff.mp hins
  have hkw : getKeywords wd.parse = .ok (if ins = [] then none else some ins) := by
    rw [hparse]; exact getKeywords_names ins hins
  rw [qe.flags, qe.checks, vend]
  have hpw : wd.parse = (finishStep (funConfig unblock ps dep assign callee excs er force ret before after) wg).parse := by
    rw [qe.parse]
    exact (parseStep_parse h5).symm
  rw [← hpw]
  obtain ⟨r1, r2, r3, r4⟩ := parseStep_spec h5 hflags hchecks hkw (fun prm hprm => by
    rw [hparse] at hprm
    rw [getParameters_empty hprm (pu hu), hempty])
  refine ⟨r1, r2, r3, fun hf => ?_⟩
  obtain ⟨fmt, addrs, v, c1, c2, c3⟩ := r4 hf
  exact ⟨fmt, addrs, v, c1, c2, List.mem_append_left _ c3⟩

/-! ## The C signature -/

/-- C40 (signature), for functions: the generated C function takes as many parameters as the
interpreter passes, except with `METH_VARARGS` alone; a parameter `args` exists exactly if
positional arguments are parsed, `kwargs` exactly if keyword arguments are; extra parameters follow. -/
theorem C40_function_signature_partial (ins : List Str) (force : Option ParseKind) (hf : force ≠ some .tuple)
    (pystruct : Option Str) (extra : List Str) :
    let flags := expectedFlags ins force
    (∃ base, functionArgs flags pystruct extra = base ++ extra ∧ base.length = cpythonPasses flags ∧
      ("PyObject *args".toList ∈ base ↔ "METH_VARARGS".toList ∈ flags) ∧
      ("PyObject *kwargs".toList ∈ base ↔ "METH_KEYWORDS".toList ∈ flags)) := by
  intro flags
  have hf' : flags = ["METH_NOARGS".toList] ∨ flags = ["METH_VARARGS".toList, "METH_KEYWORDS".toList] := by
    show expectedFlags ins force = _ ∨ expectedFlags ins force = _
    unfold expectedFlags
    split
    · exact .inl rfl
    · split
      · rename_i h; exact absurd h.2 hf
      · exact .inr rfl
  rcases hf' with h | h <;> rw [h]
  · refine ⟨["PyObject *PYBINDGEN_UNUSED(_args)".toList, "PyObject *PYBINDGEN_UNUSED(_kwargs)".toList], ?_,
      by decide, by decide, by decide⟩
    unfold functionArgs
    rw [if_neg (by decide)]
  · cases pystruct with
    | none => exact ⟨_, rfl, by decide, by decide, by decide⟩
    | some p =>
      refine ⟨_, rfl, by simp [cpythonPasses], ?_, ?_⟩
      · simp
      · simp

/-- With `METH_VARARGS` alone the function has a third parameter nobody passes. -/
theorem C40_function_signature_counterexample (pystruct : Option Str) :
    (functionArgs (expectedFlags [] (some .tuple)) pystruct []).length = 3 ∧
    cpythonPasses (expectedFlags [] (some .tuple)) = 2 := by
  cases pystruct <;> simp [functionArgs, expectedFlags, cpythonPasses]

/-- C40 (signature), for methods parsing keyword arguments: as for functions. -/
theorem C40_method_signature_partial (ins : List Str) (force : Option ParseKind) (isStatic : Bool)
    (pystruct : Str) (extra : List Str) (hin : ins ≠ [] ∨ force = some .keywords) :
    let flags := methodFlags (expectedFlags ins force) isStatic
    ∃ base, methodArgs flags pystruct extra = .ok (base ++ extra) ∧ base.length = cpythonPasses flags ∧
      base.tail = ["PyObject *args".toList, "PyObject *kwargs".toList] := by
  intro flags
  have h : expectedFlags ins force = ["METH_VARARGS".toList, "METH_KEYWORDS".toList] := by
    unfold expectedFlags
    rcases hin with h | h <;> simp [h]
  show ∃ base, methodArgs (methodFlags (expectedFlags ins force) isStatic) pystruct extra = _ ∧
    _ = cpythonPasses (methodFlags (expectedFlags ins force) isStatic) ∧ _
  rw [h]
  cases isStatic <;> exact ⟨_, rfl, rfl, rfl⟩

/-- Every method without input parameters gets a C function with three parameters, to which the
interpreter passes two (it is called through a cast to `PyCFunction`). -/
theorem C40_method_signature_counterexample (isStatic : Bool) (pystruct : Str) :
    (methodArgs (methodFlags (expectedFlags [] none) isStatic) pystruct []).toOption.map List.length = some 3 ∧
    cpythonPasses (methodFlags (expectedFlags [] none) isStatic) = 2 := by
  cases isStatic <;> exact ⟨rfl, rfl⟩

/-- C40 (static methods): a method is declared static exactly if it is, and the other flags are those of
its parameters, in front. -/
theorem C40_static (ins : List Str) (force : Option ParseKind) (isStatic : Bool) :
    ("METH_STATIC".toList ∈ methodFlags (expectedFlags ins force) isStatic ↔ isStatic = true) ∧
    ∀ f, f ≠ "METH_STATIC".toList →
      (f ∈ methodFlags (expectedFlags ins force) isStatic ↔ f ∈ expectedFlags ins force) := by
  have hn : "METH_STATIC".toList ∉ expectedFlags ins force := by
    unfold expectedFlags
    split
    · decide
    · split <;> decide
  cases isStatic with
  | false => exact ⟨⟨fun h => absurd h hn, fun h => by cases h⟩, fun f _ => Iff.rfl⟩
  | true =>
    refine ⟨⟨fun _ => rfl, fun _ => List.mem_append_right _ (List.mem_singleton.mpr rfl)⟩, fun f hf => ?_⟩
    simp only [methodFlags, if_true, List.mem_append, List.mem_singleton, hf, or_false]

/-- The extra parameter of an overload delegate (overloading.py:186-188) is accepted: overloads force
parsing of keywords (overloading.py:95-96, 169), so the assertions of `get_wrapper_signature` hold. -/
theorem C40_delegate_signature (ins : List Str) (isStatic : Bool) (pystruct : Str) (extra : List Str) :
    ∃ base, methodArgs (methodFlags (expectedFlags ins (some .keywords)) isStatic) pystruct extra =
      .ok (base ++ extra) ∧ base.length = 3 := by
  have h : expectedFlags ins (some .keywords) = ["METH_VARARGS".toList, "METH_KEYWORDS".toList] := by
    simp [expectedFlags]
  rw [h]
  cases isStatic <;> exact ⟨_, rfl, rfl⟩

/-- Constructors force parsing of keywords too (cppmethod.py:564), and take what `tp_init`
passes. -/
theorem C40_constructor_signature (ins : List Str) (pystruct : Str) :
    (constructorArgs pystruct []).length = cpythonPasses (expectedFlags ins (some .keywords)) := by
  simp [constructorArgs, expectedFlags, cpythonPasses]

/-! Non-vacuity. -/

example : ∃ w, generateBody exampleConfig {} = .ok w ∧
    w.flags = ["METH_VARARGS".toList, "METH_KEYWORDS".toList] := by
  have : (generateBody exampleConfig {}).toOption.map (fun w => w.flags) =
    some ["METH_VARARGS".toList, "METH_KEYWORDS".toList] := by decide +kernel
  cases h : generateBody exampleConfig {} with
  | error e => rw [h] at this; cases this
  | ok w => rw [h] at this; exact ⟨w, rfl, Option.some.inj this⟩

example : (generateBody (funConfig false [.scalar (byRef "i".toList "int".toList "b".toList false true)] none
    [] "f".toList [] [] none .void [] []) {}).toOption.map (fun w => w.flags) =
    some ["METH_NOARGS".toList] := by decide +kernel

end Verif.Wrap
