import Verif.Wrapper.ConverterProps

/-!
# C96: converter functions do what the types say
-/
namespace Verif.Convert
open Verif Verif.Flow Verif.Params Verif.DeclScope Verif.Wrap Verif.IntRange

variable {T D : Type}

/-! ## From Python to C++ -/

/-- Arguments for which the converters are right.  Not included: integers outside of the type for the types
that do not refuse them, -128 for `int8_t`, objects whose truth value cannot be had, `Glib::ustring`, and
wrappers without C++ object. -/
def Fair (E : Env T D) (t : VT) (x : PyV T D) : Prop :=
  match t with
  | .plain (.int i) =>
    i ∈ [IntT.int, .int16, .long, .longlong] ∨
      ∀ n, asInt x = some n → i.ctype.lo ≤ n ∧ n ≤ i.ctype.hi ∧ ¬(i = .int8 ∧ n = -128)
  | .plain .bool => E.truth x ≠ none
  | .plain .glib => False
  | .plain _ => True
  | .cls c => c.Good ∧ E.instOf x ≠ some none

theorem receive_fits (i : IntT) {n : Int} (h1 : i.ctype.lo ≤ n) (h2 : n ≤ i.ctype.hi) (h3 : ¬(i = .int8 ∧ n = -128)) :
    (handlerOf i).receive n = some n := by
  have hc := C39_complete_partial
  cases i
  case int8 =>
    have e1 : s8.lo = -128 := by decide
    have e2 : s8.hi = 127 := by decide
    have h1 : (-128 : Int) ≤ n := e1 ▸ h1
    have h2 : n ≤ 127 := e2 ▸ h2
    have h4 : n ≠ -128 := fun h => h3 ⟨rfl, h⟩
    show int8Return.receive n = _
    rw [int8Return, receive_gtOrLt n _ _ _ (by decide) (by decide), if_pos (by omega),
      wrap_of_fits (by decide) (by rw [e1]; exact h1) (by rw [e2]; exact h2)]
  case int => exact hc intAll (by decide) n h1 h2
  case uint => exact hc uintAll (by decide) n h1 h2
  case int16 => exact hc int16Return (by decide) n h1 h2
  case uint16 => exact hc uint16Return (by decide) n h1 h2
  case uint8 => exact hc uint8Return (by decide) n h1 h2
  case long => exact hc longAll (by decide) n h1 h2
  case ulong => exact hc ulongAll (by decide) n h1 h2
  case longlong => exact hc longlongAll (by decide) n h1 h2
  case ulonglong => exact hc ulonglongAll (by decide) n h1 h2
  case size => exact hc ulonglongAll (by decide) n h1 h2

theorem receive_exact (i : IntT) (h : i ∈ [IntT.int, .int16, .long, .longlong]) (n : Int) :
    (handlerOf i).receive n = if i.ctype.lo ≤ n ∧ n ≤ i.ctype.hi then some n else none := by
  obtain ⟨e1, _, e3, e4, e5⟩ := C39_exact_partial
  cases i
  case int => exact e3 n
  case int16 => exact e1 n
  case long => exact e4 n
  case longlong => exact e5 n
  all_goals exact absurd h (by decide)

/-- C96: a fair call of the converter of any type stores the value the object stands for, with the references C++ is to
own and no exception, or, if the object stands for no value of the type, raises an exception and leaves
everything as it was. -/
theorem C96_from_python_partial (E : Env T D) (t : VT) (x : PyV T D) (old : Option (CE T D)) (hf : Fair E t x) :
    call E t x old = some (right t old (wanted E t x)) := by
  cases t with
  | cls c =>
    obtain ⟨hg, hi⟩ := hf
    rw [call_class E c hg]
    show _ = some (right _ old ((E.instOf x).bind _))
    cases h : E.instOf x with
    | none => rfl
    | some o =>
      cases o with
      | none => exact absurd h hi
      | some k => rfl
  | plain t =>
    cases t with
    | int i =>
      rw [call_intT]
      show _ = some (right _ old ((asInt x).bind _))
      cases ha : asInt x with
      | none => rfl
      | some n =>
        show some (right _ old (((handlerOf i).receive n).map CE.num)) =
          some (right _ old (if i.ctype.lo ≤ n ∧ n ≤ i.ctype.hi then some (CE.num n) else none))
        rcases hf with h | h
        · rw [receive_exact i h]
          by_cases hr : i.ctype.lo ≤ n ∧ n ≤ i.ctype.hi
          · rw [if_pos hr, if_pos hr]; rfl
          · rw [if_neg hr, if_neg hr]; rfl
        · obtain ⟨h1, h2, h3⟩ := h n ha
          rw [receive_fits i h1 h2 h3, if_pos ⟨h1, h2⟩]
          rfl
    | bool =>
      rw [call_bool]
      show _ = some (right _ old ((E.truth x).map _))
      have hf : E.truth x ≠ none := hf
      unfold Lib.isTrueC
      cases ht : E.truth x with
      | none => exact absurd ht hf
      | some b => rfl
    | double => exact call_double E x old
    | float => exact call_float E x old
    | char => exact call_char E x old
    | cstring f => exact call_cstring E f x old
    | std => exact call_std E x old
    | glib => exact hf.elim
    | pyobject own => exact call_pyobject E own x old

/-- The hypotheses are met by ordinary arguments: 200 for a `uint8_t`, an object that is not a number for an
`int`, an instance of a wrapped class. -/
example (E : Env T D) (x : PyV T D) (k : Nat) (hx : E.instOf x = some (some k)) :
    Fair E (.plain (.int .uint8)) (.int 200) ∧ Fair E (.plain (.int .int)) (.bytes []) ∧
    Fair E (.cls ⟨"ns::Foo".toList, "Foo".toList, "PyNsFoo".toList, "PyNsFoo_Type".toList⟩) x ∧
    wanted E (.plain (.int .uint8)) (.int 200) = some (.num 200) ∧
    wanted E (.plain (.int .int)) (.bytes []) = none := by
  refine ⟨.inr ?_, .inl (by decide), ⟨⟨⟨"PyNsFo".toList, 'o', by decide, by decide, by decide⟩, by decide, by decide⟩, ?_⟩,
    rfl, rfl⟩
  · intro n hn
    have hn : (200 : Int) = n := Option.some.inj hn
    subst hn
    decide
  · rw [hx]; exact nofun

/-- C96 (integers, fair or not): what is stored is what the integer handler of the type lets through, see C39. -/
theorem C96_integers (E : Env T D) (i : IntT) (x : PyV T D) (old : Option (CE T D)) :
    call E (.plain (.int i)) x old =
      some (right (.plain (.int i)) old (((asInt x).bind (handlerOf i).receive).map .num)) := call_intT E i x old

/-- C96 (`Glib::ustring`): text with a zero byte is refused; otherwise the text is stored, and one buffer is
left behind. -/
theorem C96_glib (E : Env T D) (x : PyV T D) (old : Option (CE T D)) :
    call E (.plain .glib) x old =
      some (match wanted E (.plain .glib) x with
        | some (.ustr b) => if 0 ∈ b then ⟨false, old, 0, 0, true⟩ else ⟨true, some (.ustr b), 0, 1, false⟩
        | _ => ⟨false, old, 0, 0, true⟩) := call_glib E x old

/-- C96 (refusal, all calls): a converter that says no has set an exception, stored nothing, taken no
reference and left no buffer behind. -/
theorem C96_refused (E : Env T D) (t : VT) (x : PyV T D) (old : Option (CE T D)) (s : Seen T D)
    (hg : ∀ c, t = .cls c → c.Good) (h : call E t x old = some s) (hs : s.ok = false) :
    s = ⟨false, old, 0, 0, true⟩ := by
  have hr : ∀ o, some (right t old o) = some s → s = ⟨false, old, 0, 0, true⟩ := by
    intro o ho
    have ho := (Option.some.inj ho).symm
    cases o with
    | none => exact ho
    | some v => rw [ho] at hs; exact absurd hs (by simp [right])
  cases t with
  | cls c =>
    rw [call_class E c (hg c rfl)] at h
    cases hi : E.instOf x with
    | none => rw [hi] at h; exact (Option.some.inj h).symm
    | some o =>
      rw [hi] at h
      cases o with
      | none => cases h
      | some k => rw [← Option.some.inj h] at hs; cases hs
  | plain t =>
    cases t with
    | int i => rw [call_intT] at h; exact hr _ h
    | bool => rw [call_bool] at h; rw [← Option.some.inj h] at hs; cases hs
    | double => rw [call_double] at h; exact hr _ h
    | float => rw [call_float] at h; exact hr _ h
    | char => rw [call_char] at h; exact hr _ h
    | cstring f => rw [call_cstring] at h; exact hr _ h
    | std => rw [call_std] at h; exact hr _ h
    | pyobject own => rw [call_pyobject] at h; exact hr _ h
    | glib =>
      rw [C96_glib] at h
      have h := (Option.some.inj h).symm
      split at h
      · split at h
        · exact h
        · rw [h] at hs; cases hs
      · exact h

/-- C96 (acceptance, all calls): a converter that says yes has stored something and holds the references C++
is to own, and no others. -/
theorem C96_accepted (E : Env T D) (t : VT) (x : PyV T D) (old : Option (CE T D)) (s : Seen T D)
    (hg : ∀ c, t = .cls c → c.Good) (h : call E t x old = some s) (hs : s.ok = true) :
    s.held = owned t ∧ ∃ v, s.stored = some v := by
  have hr : ∀ o, some (right t old o) = some s → s.held = owned t ∧ ∃ v, s.stored = some v := by
    intro o ho
    have ho := (Option.some.inj ho).symm
    cases o with
    | none => rw [ho] at hs; cases hs
    | some v => rw [ho]; exact ⟨rfl, v, rfl⟩
  cases t with
  | cls c =>
    rw [call_class E c (hg c rfl)] at h
    cases hi : E.instOf x with
    | none => rw [hi] at h; rw [← Option.some.inj h] at hs; cases hs
    | some o =>
      rw [hi] at h
      cases o with
      | none => cases h
      | some k => rw [← Option.some.inj h]; exact ⟨rfl, _, rfl⟩
  | plain t =>
    cases t with
    | int i => rw [call_intT] at h; exact hr _ h
    | bool => rw [call_bool] at h; rw [← Option.some.inj h]; exact ⟨rfl, _, rfl⟩
    | double => rw [call_double] at h; exact hr _ h
    | float => rw [call_float] at h; exact hr _ h
    | char => rw [call_char] at h; exact hr _ h
    | cstring f => rw [call_cstring] at h; exact hr _ h
    | std => rw [call_std] at h; exact hr _ h
    | pyobject own => rw [call_pyobject] at h; exact hr _ h
    | glib =>
      rw [C96_glib] at h
      have h := (Option.some.inj h).symm
      split at h
      · split at h
        · rw [h] at hs; cases hs
        · rw [h]; exact ⟨rfl, _, rfl⟩
      · rw [h] at hs; cases hs

/-- A call always has a meaning, but for wrappers without C++ object. -/
theorem C96_defined_partial (E : Env T D) (t : VT) (x : PyV T D) (old : Option (CE T D))
    (hg : ∀ c, t = .cls c → c.Good ∧ E.instOf x ≠ some none) : ∃ s, call E t x old = some s := by
  cases t with
  | cls c => exact ⟨_, C96_from_python_partial E _ x old (hg c rfl)⟩
  | plain t =>
    cases t with
    | int i => exact ⟨_, call_intT E i x old⟩
    | bool => exact ⟨_, call_bool E x old⟩
    | glib => exact ⟨_, call_glib E x old⟩
    | double => exact ⟨_, call_double E x old⟩
    | float => exact ⟨_, call_float E x old⟩
    | char => exact ⟨_, call_char E x old⟩
    | cstring f => exact ⟨_, call_cstring E f x old⟩
    | std => exact ⟨_, call_std E x old⟩
    | pyobject own => exact ⟨_, call_pyobject E own x old⟩

/-- Counterexamples: an object whose `__bool__` raises is converted to `true` with the exception pending; a
`Glib::ustring` leaves a buffer behind; text with a zero byte is refused although it is a valid
`Glib::ustring`; -1 becomes 255 in a `uint8_t`; -128 is no `int8_t` and 128 is; a wrapper without C++
object is dereferenced. -/
theorem C96_from_python_counterexample (E : Env T D) (old : Option (CE T D)) (c : Names) (hg : c.Good)
    (x : PyV T D) (hx : E.instOf x = some none) :
    call E (.plain .bool) (.other 0 none) old = some ⟨true, some (.bool true), 0, 0, true⟩ ∧
    call E (.plain .glib) (.bytes [104]) old = some ⟨true, some (.ustr [104]), 0, 1, false⟩ ∧
    call E (.plain .glib) (.bytes [104, 0]) old = some ⟨false, old, 0, 0, true⟩ ∧
    call E (.plain (.int .uint8)) (.int (-1)) old = some ⟨true, some (.num 255), 0, 0, false⟩ ∧
    call E (.plain (.int .int8)) (.int (-128)) old = some ⟨false, old, 0, 0, true⟩ ∧
    call E (.plain (.int .int8)) (.int 128) old = some ⟨true, some (.num (-128)), 0, 0, false⟩ ∧
    call E (.cls c) x old = none := by
  refine ⟨call_bool E _ old, (call_glib E _ old).trans rfl, (call_glib E _ old).trans rfl,
    (call_intT E _ _ old).trans ?_, (call_intT E _ _ old).trans ?_, (call_intT E _ _ old).trans ?_, ?_⟩
  · show some (right _ old ((uint8Return.receive (-1)).map CE.num)) = _
    rw [show uint8Return.receive (-1) = some 255 by decide]
    rfl
  · show some (right _ old ((int8Return.receive (-128)).map CE.num)) = _
    rw [show int8Return.receive (-128) = none by decide]
    rfl
  · show some (right _ old ((int8Return.receive 128).map CE.num)) = _
    rw [show int8Return.receive 128 = some (-128) by decide]
    rfl
  · rw [call_class E c hg, hx]

/-! ## From C++ to Python -/

/-- Values of a type.  Values of `float` are those that rounding leaves alone; a `char *` is null or ends at
its first zero byte. -/
def HasType (E : Env T D) : Plain → CE T D → Prop
  | .int i, .num n => i.ctype.lo ≤ n ∧ n ≤ i.ctype.hi
  | .bool, .bool _ => True
  | .double, .real _ => True
  | .float, .real y => E.narrow y = y
  | .char, .char _ => True
  | .cstring _, .chars none => True
  | .cstring _, .chars (some b) => 0 ∉ b
  | .std, .str _ => True
  | .glib, .ustr _ => True
  | .pyobject _, .obj _ => True
  | _, _ => False

/-- The Python object for a value; `none`: the bytes are not UTF-8 (an exception). -/
def pyOf (E : Env T D) : CE T D → Option (PyV T D)
  | .num n => some (.int n)
  | .bool b => some (.bool b)
  | .real x => some (.float x)
  | .char c => some (.bytes [c])
  | .chars none => some .none
  | .chars (some b) => (E.codec.dec b).map .str
  | .str b => (E.codec.dec b).map .str
  | .ustr b => (E.codec.dec b).map .str
  | .obj x => some x
  | .size n => some (.int n)
  | .inst _ => none

/-- The meaning of the statement generated. -/
def buildOf : Plain → Build
  | .int .int | .int .int16 | .int .uint16 | .int .int8 | .int .uint8 => .num .i
  | .int .uint | .int .ulong => .num .k
  | .int .long => .num .l
  | .int .longlong => .num .L
  | .int .ulonglong | .int .size => .num .K
  | .bool => .bool
  | .double | .float => .real
  | .char => .char
  | .cstring _ => .chars
  | .std => .bytes "size".toList
  | .glib => .bytes "bytes".toList
  | .pyobject own => .obj own

/-- The code is one statement with this meaning and the return. -/
def written (t : Plain) (s : Str) : Bool :=
  (match cToPy t {} with
    | .ok w => ((Gen.fresh (fun _ => "return 0;".toList)).run w.ops).body 3 = [.act (.code s), .act (.ret "return py_retval;".toList)]
    | .error _ => false) && buildTable.lookup s = some (buildOf t)

def codeText : Plain → Str
  | .int .int | .int .int16 | .int .uint16 | .int .int8 => "py_retval = Py_BuildValue((char *) \"i\", *cvalue);".toList
  | .int .uint8 => "py_retval = Py_BuildValue((char *) \"i\", (int)*cvalue);".toList
  | .int .uint => "py_retval = Py_BuildValue((char *) \"N\", PyLong_FromUnsignedLong(*cvalue));".toList
  | .int .ulong => "py_retval = Py_BuildValue((char *) \"k\", *cvalue);".toList
  | .int .long => "py_retval = Py_BuildValue((char *) \"l\", *cvalue);".toList
  | .int .longlong => "py_retval = Py_BuildValue((char *) \"L\", *cvalue);".toList
  | .int .ulonglong => "py_retval = Py_BuildValue((char *) \"K\", *cvalue);".toList
  | .int .size => "py_retval = Py_BuildValue((char *) \"K\", ((unsigned PY_LONG_LONG) *cvalue));".toList
  | .bool => "py_retval = Py_BuildValue((char *) \"N\", PyBool_FromLong(*cvalue));".toList
  | .double => "py_retval = Py_BuildValue((char *) \"d\", *cvalue);".toList
  | .float => "py_retval = Py_BuildValue((char *) \"f\", *cvalue);".toList
  | .char => "py_retval = Py_BuildValue((char *) \"c\", (int) *cvalue);".toList
  | .cstring _ => "py_retval = Py_BuildValue((char *) \"s\", *cvalue);".toList
  | .std => "py_retval = Py_BuildValue((char *) \"s#\", (*cvalue).c_str(), (*cvalue).size());".toList
  | .glib => "py_retval = Py_BuildValue((char *) \"s#\", (*cvalue).c_str(), (*cvalue).bytes());".toList
  | .pyobject false => "py_retval = Py_BuildValue((char *) \"O\", *cvalue);".toList
  | .pyobject true => "py_retval = Py_BuildValue((char *) \"N\", *cvalue);".toList

set_option maxHeartbeats 4000000 in
theorem written_text (t : Plain) (h : t ≠ .cstring true) : written t (codeText t) = true := by
  cases t with
  | int i => cases i <;> decide +kernel
  | cstring f =>
    cases f with
    | true => exact absurd rfl h
    | false => decide +kernel
  | pyobject own => cases own <;> decide +kernel
  | _ => decide +kernel

theorem give_written (E : Env T D) (t : Plain) (h : t ≠ .cstring true) (v : CE T D) :
    callCToPy E t v = E.build v (buildOf t) := by
  have hw := written_text t h
  unfold written at hw
  unfold callCToPy
  cases hc : cToPy t {} with
  | error e => rw [hc] at hw; cases hw
  | ok w =>
    rw [hc] at hw
    simp only [Bool.and_eq_true, decide_eq_true_eq] at hw
    dsimp only
    rw [hw.1]
    dsimp only [Env.give]
    rw [hw.2]
    dsimp only
    cases E.build v (buildOf t) <;> rfl

theorem num_wrap (i : IntT) {n : Int} (h1 : i.ctype.lo ≤ n) (h2 : n ≤ i.ctype.hi) :
    ∃ f, buildOf (.int i) = .num f ∧ f.ctype.wrap n = n := by
  have e : ∀ f : Fmt, 0 < f.ctype.bits → f.ctype.lo ≤ i.ctype.lo → i.ctype.hi ≤ f.ctype.hi → f.ctype.wrap n = n :=
    fun f hb ha hc => wrap_of_fits hb (by omega) (by omega)
  cases i <;> exact ⟨_, rfl, e _ (by decide) (by decide) (by decide)⟩

/-- C96: the converter of any type gives Python the object for the value, with the reference C++ had for
`caller_owns_return`, otherwise with a new one. -/
theorem C96_to_python_partial (E : Env T D) (t : Plain) (v : CE T D) (ht : HasType E t v) (h : t ≠ .cstring true) :
    callCToPy E t v = some ⟨pyOf E v, if t = .pyobject false then 1 else 0⟩ := by
  rw [give_written E t h]
  cases t with
  | int i =>
    cases v <;> try exact False.elim ht
    rename_i n
    obtain ⟨f, hf, hw⟩ := num_wrap i ht.1 ht.2
    rw [hf]
    dsimp only [Env.build, pyOf]
    rw [hw]
    rfl
  | bool => cases v <;> first | rfl | exact False.elim ht
  | double => cases v <;> first | rfl | exact False.elim ht
  | float => cases v <;> first | rfl | exact False.elim ht
  | char => cases v <;> first | rfl | exact False.elim ht
  | cstring f =>
    cases v <;> try exact False.elim ht
    rename_i b
    cases b with
    | none => rfl
    | some b =>
      dsimp only [buildOf, Env.build, pyOf]
      rw [cut_all ht]
      rfl
  | std =>
    cases v <;> try exact False.elim ht
    rename_i b
    dsimp only [buildOf, Env.build, pyOf]
    rw [if_pos rfl]
    unfold Lib.decodeN
    rw [take_all]
    rfl
  | glib =>
    cases v <;> try exact False.elim ht
    rename_i b
    dsimp only [buildOf, Env.build, pyOf]
    rw [if_pos rfl]
    unfold Lib.decodeN
    rw [take_all]
    rfl
  | pyobject own =>
    cases v <;> try exact False.elim ht
    cases own <;> rfl

/-- Counterexample: there is no converter for `char *` with `free_after_copy`: generating it raises
`AttributeError`. -/
theorem C96_free_counterexample : cToPy (.cstring true) {} = .error .attributeError := rfl

/-- C96 (round trip): what the converter to Python makes of a value is converted back to that value; not so
-128 for `int8_t`, null pointers, and `Glib::ustring` (see `C96_glib`). -/
theorem C96_round_trip_partial (E : Env T D) (t : Plain) (v : CE T D) (ht : HasType E t v) (x : PyV T D) (added : Int)
    (hg : callCToPy E t v = some ⟨some x, added⟩) (h1 : t ≠ .glib) (h2 : ¬(t = .int .int8 ∧ v = .num (-128)))
    (h3 : v ≠ .chars none) (old : Option (CE T D)) :
    call E (.plain t) x old = some (right (.plain t) old (some v)) := by
  have hc : t ≠ .cstring true := by
    rintro rfl
    unfold callCToPy at hg
    rw [C96_free_counterexample] at hg
    cases hg
  rw [C96_to_python_partial E t v ht hc] at hg
  have hp : pyOf E v = some x := congrArg Given.result (Option.some.inj hg)
  have hdec : ∀ b, (E.codec.dec b).map PyV.str = some x → ∃ s, x = .str s ∧ E.codec.enc s = some b := by
    intro b hb
    cases hd : E.codec.dec b with
    | none => rw [hd] at hb; cases hb
    | some s => rw [hd] at hb; exact ⟨s, (Option.some.inj hb).symm, (E.codec.law b s).mp hd⟩
  have hw : Fair E (.plain t) x ∧ wanted E (.plain t) x = some v := by
    cases t with
    | int i =>
      cases v <;> try exact False.elim ht
      rename_i n
      have hp : x = .int n := (Option.some.inj hp).symm
      subst hp
      refine ⟨.inr ?_, if_pos ht⟩
      intro m hm
      have hm : m = n := (Option.some.inj hm).symm
      subst hm
      refine ⟨ht.1, ht.2, ?_⟩
      rintro ⟨rfl, rfl⟩
      exact h2 ⟨rfl, rfl⟩
    | bool =>
      cases v <;> try exact False.elim ht
      have hp := (Option.some.inj hp).symm
      subst hp
      exact ⟨nofun, rfl⟩
    | double =>
      cases v <;> try exact False.elim ht
      have hp := (Option.some.inj hp).symm
      subst hp
      exact ⟨trivial, rfl⟩
    | float =>
      cases v <;> try exact False.elim ht
      have hp := (Option.some.inj hp).symm
      subst hp
      refine ⟨trivial, ?_⟩
      show some (CE.real (E.narrow _)) = _
      rw [show E.narrow _ = _ from ht]
    | char =>
      cases v <;> try exact False.elim ht
      have hp := (Option.some.inj hp).symm
      subst hp
      exact ⟨trivial, rfl⟩
    | cstring f =>
      cases v <;> try exact False.elim ht
      rename_i b
      cases b with
      | none => exact absurd rfl h3
      | some b =>
        obtain ⟨s, rfl, hs⟩ := hdec b hp
        refine ⟨trivial, ?_⟩
        show (E.codec.enc s).bind _ = _
        rw [hs]
        exact if_neg ht
    | std =>
      cases v <;> try exact False.elim ht
      rename_i b
      obtain ⟨s, rfl, hs⟩ := hdec b hp
      refine ⟨trivial, ?_⟩
      show (E.codec.enc s).map _ = _
      rw [hs]
      rfl
    | glib => exact absurd rfl h1
    | pyobject own =>
      cases v <;> try exact False.elim ht
      have hp := (Option.some.inj hp).symm
      subst hp
      exact ⟨trivial, rfl⟩
  rw [C96_from_python_partial E _ x old hw.1, hw.2]

/-- The hypotheses are met: an integer makes the round trip. -/
example (E : Env T D) (old : Option (CE T D)) :
    call E (.plain (.int .uint16)) (.int 65535) old = some ⟨true, some (.num 65535), 0, 0, false⟩ :=
  C96_round_trip_partial E (.int .uint16) (.num 65535) ⟨by decide, by decide⟩ (.int 65535) 0
    (C96_to_python_partial E _ _ ⟨by decide, by decide⟩ (by decide)) (by decide) (fun h => absurd h.1 (by decide)) nofun old

/-- Counterexamples: the `int8_t` -128 and null pointers can be given to Python and are refused on the way
back. -/
theorem C96_round_trip_counterexample (E : Env T D) (old : Option (CE T D)) :
    callCToPy E (.int .int8) (.num (-128)) = some ⟨some (.int (-128)), 0⟩ ∧
    call E (.plain (.int .int8)) (.int (-128)) old = some ⟨false, old, 0, 0, true⟩ ∧
    callCToPy E (.cstring false) (.chars none) = some ⟨some .none, 0⟩ ∧
    call E (.plain (.cstring false)) .none old = some ⟨false, old, 0, 0, true⟩ := by
  refine ⟨C96_to_python_partial E _ _ ⟨by decide, by decide⟩ (by decide), ?_,
    C96_to_python_partial E _ _ trivial (by decide), call_cstring E false .none old⟩
  refine (call_intT E _ _ old).trans ?_
  show some (right _ old ((int8Return.receive (-128)).map CE.num)) = _
  rw [show int8Return.receive (-128) = none by decide]
  rfl

end Verif.Convert
