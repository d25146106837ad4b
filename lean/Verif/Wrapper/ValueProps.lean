import Verif.Wrapper.StringProps

/-!
# C91, C92: booleans, arrays, containers and Python objects as arguments
-/
namespace Verif.Wrap
open Verif Verif.Flow Verif.Params Verif.DeclScope

variable {T D : Type}

/-! ## C91: booleans -/

/-- A boolean parameter. -/
inductive BoolPar where
  | value (ctype : Str) (dflt : Option Str)
  | ref (ctype : Str) (isIn isOut : Bool)
  | ptr (ctype : Str) (isIn isOut : Bool)
  deriving DecidableEq, Repr

def BoolPar.isIn : BoolPar → Bool
  | .value _ _ => true
  | .ref _ i _ => i
  | .ptr _ i _ => i

def BoolPar.isOut : BoolPar → Bool
  | .value _ _ => false
  | .ref _ _ o => o
  | .ptr _ _ o => o

def BoolPar.dflt : BoolPar → Option Str
  | .value _ d => d
  | _ => none

/-- The handler pybindgen uses, booltype.py. -/
def BoolPar.desc (name : Str) : BoolPar → Desc
  | .value c d => boolDesc c name d
  | .ref c i o => boolRefDesc c name i o false
  | .ptr c i o => boolRefDesc c name i o true

/-- A `bool` argument, or the address of one. -/
def BoolPar.value' (b : Bool) : BoolPar → CV T D
  | .ptr _ _ _ => .boolAt b
  | _ => .bool b

theorem conv_O (L : Lib T D) (x : PyV T D) : L.sem.conv "O".toList [] x = some [.obj (some x)] := rfl

theorem accept_O (L : Lib T D) {d : Desc} {i : Nat} {o : Bool} (hu : d.unit = some ⟨"O".toList, [.addr i], o⟩) (x : PyV T D) :
    d.accept L.sem (some (some x)) = prep L.sem d.before ((d.start L.sem).set i (.obj (some x))) := by
  rw [accept_some hu]
  show ((L.sem.conv "O".toList [] x).map _).bind _ = _
  rw [conv_O]
  rfl

/-- **C91, into C++.**  Every object whose truth value can be determined is accepted, and the function gets its
truth value. -/
theorem C91_in_partial (L : Lib T D) (p : BoolPar) (name : Str) (hin : p.isIn = true) (x : PyV T D) (b : Bool)
    (hx : L.truth x = some b) :
    ∃ ρ, (p.desc name).accept L.sem (some (some x)) = some ρ ∧
      (p.desc name).passes L.sem ρ = some (p.value' b) := by
  have hc : (L.isTrueC x) = b := by simp [Lib.isTrueC, hx]
  cases p with
  | value c d =>
    cases d with
    | none =>
      refine ⟨(((boolDesc c name none).start L.sem).set 1 (.obj (some x))).set 0 (.bool b), ?_, rfl⟩
      show (boolDesc c name none).accept _ _ = _
      rw [accept_O L (i := 1) (o := false) rfl]
      exact prep_one (i := 0) (show some (CV.bool (L.isTrueC x)) = _ by rw [hc])
    | some d =>
      refine ⟨(((boolDesc c name (some d)).start L.sem).set 1 (.obj (some x))).set 0 (.bool b), ?_, rfl⟩
      show (boolDesc c name (some d)).accept _ _ = _
      rw [accept_O L (i := 1) (o := true) rfl]
      cases d with
      | nil => exact prep_one (i := 0) (show some (CV.bool (L.isTrueC x)) = _ by rw [hc])
      | cons a d => exact prep_one (i := 0) (show some (CV.bool (L.isTrueC x)) = _ by rw [hc])
  | ref c i o =>
    cases hin
    refine ⟨(((boolRefDesc c name true o false).start L.sem).set 1 (.obj (some x))).set 0 (.bool b), ?_, rfl⟩
    show (boolRefDesc c name true o false).accept _ _ = _
    rw [accept_O L (i := 1) (o := false) rfl]
    exact prep_one (i := 0) (show some (CV.bool (L.isTrueC x)) = _ by rw [hc])
  | ptr c i o =>
    cases hin
    refine ⟨(((boolRefDesc c name true o true).start L.sem).set 1 (.obj (some x))).set 0 (.bool b), ?_, rfl⟩
    show (boolRefDesc c name true o true).accept _ _ = _
    rw [accept_O L (i := 1) (o := false) rfl]
    exact prep_one (i := 0) (show some (CV.bool (L.isTrueC x)) = _ by rw [hc])

/-- **C91, default values.**  (An empty text counts as no value where the statement is written, but makes the
parameter optional: the hypothesis.) -/
theorem C91_default_partial (L : Lib T D) (p : BoolPar) (name : Str) (hin : p.isIn = true)
    (hd : p.dflt ≠ some []) :
    match p.dflt with
    | some d => ∃ ρ, (p.desc name).accept L.sem (some none) = some ρ ∧
        (p.desc name).passes L.sem ρ = some (L.expr d)
    | none => (p.desc name).accept L.sem (some none) = none := by
  cases p with
  | value c d =>
    cases d with
    | none => rfl
    | some d =>
      cases d with
      | nil => exact absurd rfl hd
      | cons a d =>
        refine ⟨((boolDesc c name (some (a :: d))).start L.sem).set 0 (L.expr (a :: d)), ?_, rfl⟩
        show prep L.sem _ ((boolDesc c name (some (a :: d))).start L.sem) = _
        exact prep_one (i := 0) (x := L.expr (a :: d)) rfl
  | ref c i o => cases hin; rfl
  | ptr c i o => cases hin; rfl

/-- **C91, out parameters and return values.** -/
theorem C91_out (L : Lib T D) (p : BoolPar) (name : Str) (ρ : Loc (CV T D)) (b : Bool) :
    (p.desc name).gives L.sem ρ (.bool b) = (if p.isOut then [some (.bool b)] else []) ∧
    (scalarRet "N".toList "PyBool_FromLong(retval)".toList).gives L.sem (.bool b) = [some (.bool b)] := by
  refine ⟨?_, rfl⟩
  cases p with
  | value c d => rfl
  | ref c i o => cases o <;> rfl
  | ptr c i o => cases o <;> rfl

/-- An object whose `__bool__` raises is accepted all the same: the C++ function is called with `true`, with the
exception still pending. -/
theorem C91_raises_counterexample (L : Lib T D) (p : BoolPar) (name : Str) (hin : p.isIn = true) (n : Nat) :
    ∃ ρ, (p.desc name).accept L.sem (some (some (.other n none))) = some ρ ∧
      (p.desc name).passes L.sem ρ = some (p.value' true) := by
  cases p with
  | value c d =>
    cases d with
    | none => exact ⟨_, rfl, rfl⟩
    | some d => cases d <;> exact ⟨_, rfl, rfl⟩
  | ref c i o => cases hin; exact ⟨_, rfl, rfl⟩
  | ptr c i o => cases hin; exact ⟨_, rfl, rfl⟩

example : exampleLib.truth (PyV.str []) = some false ∧ exampleLib.truth (PyV.int 3) = some true ∧ (BoolPar.ref "bool".toList true true).isIn = true := ⟨rfl, rfl, rfl⟩

/-! ## C92: arrays -/

/-- The element types of array parameters. -/
inductive Elem where
  | float
  | unsigned
  deriving DecidableEq, Repr

/-- The check of an element, its conversion, and the conversion back: floattype.py:84-99 (see
`C92_element_counterexample` for the variable in the check), inttype.py:93-109. -/
def Elem.check : Elem → Tmpl → Tmpl
  | .float, e => tx "!PyFloat_Check(" :: e ++ [tx ")"]
  | .unsigned, e => tx "!PyNumber_Check(" :: e ++ [tx ")"]

def Elem.get : Elem → Tmpl → Tmpl
  | .float, e => tx "(float) PyFloat_AsDouble(" :: e ++ [tx ")"]
  | .unsigned, e => tx "PyLong_AsUnsignedInt(" :: e ++ [tx ")"]

def Elem.mk : Elem → Tmpl → Tmpl
  | .float, e => tx "PyFloat_FromDouble(" :: e ++ [tx ")"]
  | .unsigned, e => tx "PyLong_FromUnsignedLong(" :: e ++ [tx ")"]

/-- The handler of `T *` with `array_length=len`. -/
def Elem.desc (t : Elem) (ctype name : Str) (len : Nat) (isIn isOut : Bool) : Desc :=
  arrayDesc ctype name len isIn isOut t.check t.get t.mk

/-- The array a list of Python numbers stands for, if all elements are of the right type. -/
def Elem.array (L : Lib T D) : Elem → List (PyV T D) → Option (CV T D)
  | .float, xs => (xs.mapM (fun x : PyV T D => match x with | .float y => some (L.narrow y) | _ => none)).map .floats
  | .unsigned, xs => (xs.mapM (fun x : PyV T D => if x.isNumber then some (L.asUnsigned x) else none)).map .uints

theorem fill_mapM {α : Type} (check : PyV T D → Bool) (get : PyV T D → Option α) : ∀ xs : List (PyV T D),
    fill check get xs = xs.mapM (fun x => if check x then get x else none)
  | [] => rfl
  | x :: xs => by
    rw [List.mapM_cons, fill, fill_mapM check get xs]
    cases check x
    · rfl
    · simp only [if_true]
      cases get x
      · rfl
      · cases List.mapM (fun x => if check x = true then get x else none) xs <;> rfl

theorem accept_list (L : Lib T D) {d : Desc} (hu : d.unit = some ⟨"O!".toList, [.text "&PyList_Type".toList, .addr 1], false⟩)
    (x : PyV T D) : d.accept L.sem (some (some x)) =
      match x with
      | .list l => prep L.sem d.before ((d.start L.sem).set 1 (.obj (some (.list l))))
      | _ => none := by
  rw [accept_some hu]
  cases x <;> rfl

theorem run_loop (L : Lib T D) (n ck get : Str) (e1 e2 : Tmpl) (ρ : Loc (CV T D)) :
    L.run [.check [tx "PyList_Size(", .var 1, tx ") != ", .text n] (some e1), .write (loopHead 2 n),
      .write [.var 3, tx " = PyList_GET_ITEM(", .var 1, tx ", ", .var 2, tx ");"],
      .check [.text ck, .var 3, tx ")"] (some e2),
      .write [.var 0, tx "[", .var 2, tx "] = ", .text get, .var 3, tx ")", tx ";"], .write [tx "}"]] ρ =
    match ρ 1 with
      | some (.obj (some (.list xs))) =>
        if n = natStr xs.length then
          if ck = "!PyFloat_Check(".toList ∧ get = "(float) PyFloat_AsDouble(".toList then
            (fill PyV.isFloat (fun x => match x with | .float y => some (L.narrow y) | _ => none) xs).map .floats
          else if ck = "!PyNumber_Check(".toList ∧ get = "PyLong_AsUnsignedInt(".toList then
            (fill PyV.isNumber (fun x => some (L.asUnsigned x)) xs).map .uints
          else none
        else none
      | _ => none :=
  if_pos ⟨rfl, rfl, rfl, rfl, rfl, rfl, rfl, rfl, rfl, rfl, rfl, rfl, rfl, rfl, rfl, rfl⟩

/-- The loop that fills the array. -/
theorem run_array (L : Lib T D) (t : Elem) (len : Nat) (ρ : Loc (CV T D)) (xs : List (PyV T D))
    (h1 : ρ 1 = some (.obj (some (.list xs)))) (ctype name : Str) (o : Bool) :
    prep L.sem (t.desc ctype name len true o).before ρ =
      if natStr len = natStr xs.length then (t.array L xs).map (fun a => ρ.set 0 a) else none := by
  have e : ∀ ops, (t.desc ctype name len true o).before = [{ ops, target := some 0 }] →
      prep L.sem (t.desc ctype name len true o).before ρ = (L.run ops ρ).map (fun a => ρ.set 0 a) := by
    intro ops h
    rw [h]
    simp only [prep, setTarget]
    show (L.run ops ρ).bind _ = _
    cases L.run ops ρ <;> rfl
  cases t with
  | float =>
    rw [e _ rfl]
    refine (congrArg _ (run_loop L (natStr len) "!PyFloat_Check(".toList "(float) PyFloat_AsDouble(".toList _ _ ρ)).trans ?_
    rw [h1]
    simp only
    by_cases hl : natStr len = natStr xs.length
    · rw [if_pos hl, if_pos hl, if_pos ⟨trivial, trivial⟩, fill_mapM]
      have : (fun x : PyV T D => if x.isFloat = true then (match x with | .float y => some (L.narrow y) | _ => none) else none) =
          fun x => match x with | .float y => some (L.narrow y) | _ => none := by
        funext x
        cases x <;> rfl
      rw [this]
      rfl
    · rw [if_neg hl, if_neg hl]; rfl
  | unsigned =>
    rw [e _ rfl]
    refine (congrArg _ (run_loop L (natStr len) "!PyNumber_Check(".toList "PyLong_AsUnsignedInt(".toList _ _ ρ)).trans ?_
    rw [h1]
    simp only
    by_cases hl : natStr len = natStr xs.length
    · rw [if_pos hl, if_pos hl, if_neg (by decide), if_pos ⟨trivial, trivial⟩, fill_mapM]
      rfl
    · rw [if_neg hl, if_neg hl]; rfl

/-- **C92, into C++.**  An array parameter of length `len` accepts exactly the lists of `len` objects of the
element type, and the function gets the converted elements in order. -/
theorem C92_in_partial (L : Lib T D) (t : Elem) (ctype name : Str) (len : Nat) (o : Bool) (x : PyV T D) :
    ((t.desc ctype name len true o).accept L.sem (some (some x))).bind ((t.desc ctype name len true o).passes L.sem) =
      match x with
      | .list xs => if xs.length = len then t.array L xs else none
      | _ => none := by
  rw [accept_list L (d := t.desc ctype name len true o) rfl]
  cases x with
  | list xs =>
    simp only
    rw [run_array L t len _ xs rfl]
    by_cases hl : xs.length = len
    · rw [if_pos (by rw [hl]), if_pos hl]
      cases t.array L xs <;> rfl
    · rw [if_neg (fun h => hl (natStr_injective h).symm), if_neg hl]; rfl
  | _ => rfl

/-- Arrays of the right length. -/
def Elem.holds (t : Elem) (len : Nat) (ys : List D) (us : List Nat) : CV T D → Prop := fun v =>
  match t with
  | .float => v = .floats ys ∧ ys.length = len
  | .unsigned => v = .uints us ∧ us.length = len

/-- **C92, out parameters.**  Python gets the list of the elements the function leaves in the array. -/
theorem C92_out (L : Lib T D) (t : Elem) (ctype name : Str) (len : Nat) (i : Bool) (ρ : Loc (CV T D)) (ys : List D)
    (us : List Nat) (v : CV T D) (hv : t.holds len ys us v) :
    (t.desc ctype name len i true).gives L.sem ρ v =
      [some (.list (match t with | .float => ys.map .float | .unsigned => us.map (fun u => .int u)))] := by
  have key : ∀ p : CV T D, L.post [[.var 1, tx " = PyList_New(", .text (natStr len), tx ");"], loopHead 2 (natStr len),
      tx "PyList_SET_ITEM(" :: .var 1 :: tx ", " :: .var 2 :: tx ", " :: t.mk [.var 0, tx "[", .var 2, tx "]"] ++ [tx ");"],
      [tx "}"]] (ρ.set 0 v) = p →
      (t.desc ctype name len i true).gives L.sem ρ v = [L.out "N".toList [[.var 1]] ((ρ.set 0 v).set 1 p)] := by
    rintro p rfl
    rfl
  cases t with
  | float =>
    obtain ⟨rfl, hl⟩ := hv
    rw [key (.obj (some (.list (ys.map .float))))]
    · rfl
    · refine (if_pos ⟨rfl, rfl, rfl, rfl, rfl, rfl, rfl, rfl, rfl, rfl, rfl, rfl, rfl⟩).trans ?_
      show (if _ then _ else _) = _
      rw [if_pos ⟨rfl, by rw [hl]⟩]
  | unsigned =>
    obtain ⟨rfl, hl⟩ := hv
    rw [key (.obj (some (.list (us.map (fun u => .int u)))))]
    · rfl
    · refine (if_pos ⟨rfl, rfl, rfl, rfl, rfl, rfl, rfl, rfl, rfl, rfl, rfl, rfl, rfl⟩).trans ?_
      show (if _ then _ else _) = _
      rw [if_pos ⟨rfl, by rw [hl]⟩]

example : Elem.float.holds (T := Unit) (D := Nat) 2 [3, 4] [] (.floats [3, 4]) := ⟨rfl, rfl⟩

/-- A list element that does not fit an `unsigned int` is not refused: the result of the conversion is not
checked. -/
theorem C92_unsigned_counterexample (L : Lib T D) (ctype name : Str) (o : Bool) :
    ∃ ρ, (Elem.unsigned.desc ctype name 1 true o).accept L.sem (some (some (.list [.int (-1)]))) = some ρ ∧
      (Elem.unsigned.desc ctype name 1 true o).passes L.sem ρ = some (.uints [L.asUnsigned (.int (-1))]) := by
  have := C92_in_partial L .unsigned ctype name 1 o (.list [.int (-1)])
  cases h : (Elem.unsigned.desc ctype name 1 true o).accept L.sem (some (some (.list [.int (-1)]))) with
  | none => rw [h] at this; cases this
  | some ρ => rw [h] at this; exact ⟨ρ, rfl, this⟩

/-- The handler of `float *` with `array_length` as it is, floattype.py:66-103: the check of an element is written
with the text `element`, not with the name of the variable. -/
def floatArrayDesc (ctype name : Str) (len : Nat) (isIn isOut : Bool) : Desc :=
  arrayDesc ctype name len isIn isOut (fun _ => [tx "!PyFloat_Check(element)"]) Elem.float.get Elem.float.mk

/-- If the variable is called `element`, that is, for the first array of a wrapper, the two are the same. -/
theorem floatArray_first (ctype name : Str) (len : Nat) (i o : Bool) (vs : List Str) (h : vs.getD 3 [] = "element".toList) :
    (floatArrayDesc ctype name len i o).opsAt vs = (Elem.float.desc ctype name len i o).opsAt vs ∧
    (floatArrayDesc ctype name len i o).items vs = (Elem.float.desc ctype name len i o).items vs ∧
    (floatArrayDesc ctype name len i o).builds vs = (Elem.float.desc ctype name len i o).builds vs ∧
    (floatArrayDesc ctype name len i o).vars = (Elem.float.desc ctype name len i o).vars ∧
    (floatArrayDesc ctype name len i o).arg = (Elem.float.desc ctype name len i o).arg := by
  refine ⟨?_, ?_, ?_, rfl, rfl⟩
  · cases i
    · rfl
    · have e : render vs [tx "!PyFloat_Check(element)"] = render vs (Elem.float.check [.var 3]) := by
        simp only [Elem.check, render, List.map_cons, Piece.render, List.map_nil, List.flatten_cons, List.flatten_nil,
          List.cons_append, List.nil_append, List.append_nil, tx, h]
        decide
      have : ∀ (a b c d f : TOp) (g : List Op) (t t' : Tmpl) (m : Option Tmpl), render vs t = render vs t' →
          ([a, b, c, .check t m, d, f].map (TOp.op vs)) ++ g = ([a, b, c, .check t' m, d, f].map (TOp.op vs)) ++ g := by
        intro a b c d f g t t' m h
        simp only [List.map_cons, TOp.op, h]
      exact this _ _ _ _ _ _ _ _ _ e
  · cases i <;> rfl
  · cases o <;> rfl

/-- `void f(float a[2], float b[2])`: the elements of the second list, held by `element2`, are not checked;
what is checked is the last element of the first list. -/
theorem C92_element_counterexample :
    (generate none [fun _ => floatArrayDesc "float".toList "a".toList 2 true false,
        fun _ => floatArrayDesc "float".toList "b".toList 2 true false] "" voidRet).toOption.map
      (fun w => (w.ops.filterMap (fun o => match o with
        | .check 1 c _ => some (String.ofList c)
        | .write 1 t => some (String.ofList t)
        | _ => none)).take 12) =
    some ["PyList_Size(py_list) != 2", "for (idx = 0; idx < 2; idx++) {", "element = PyList_GET_ITEM(py_list, idx);",
      "!PyFloat_Check(element)", "a[idx] = (float) PyFloat_AsDouble(element);", "}",
      "PyList_Size(py_list2) != 2", "for (idx2 = 0; idx2 < 2; idx2++) {", "element2 = PyList_GET_ITEM(py_list2, idx2);",
      "!PyFloat_Check(element)", "b[idx2] = (float) PyFloat_AsDouble(element2);", "}"] := by
  decide +kernel

/-! ## C93: containers and Python objects -/

/-- **C93, containers.**  A container parameter accepts what the container's converter accepts, and the function
gets what the converter made of it: by value or reference the container itself, by pointer its address or
the address of a new copy that the function owns.  An out parameter gives Python a new wrapper of what
the function left in it. -/
theorem C93_container (L : Lib T D) (full conv pystruct pytype short name : Str) (i o : Bool) (d : Option Str)
    (transfer : Bool) (x : PyV T D) (ρ : Loc (CV T D)) (k : Nat) :
    (((containerDesc full conv pystruct pytype short name true o d).accept L.sem (some (some x))).bind
      ((containerDesc full conv pystruct pytype short name true o d).passes L.sem) =
      (L.converter conv x).map .container) ∧
    (((containerPtrInDesc full conv name transfer).accept L.sem (some (some x))).bind
      ((containerPtrInDesc full conv name transfer).passes L.sem) =
      (L.converter conv x).map (fun k => if transfer then .containerNew k else .containerAt k)) ∧
    ((containerDesc full conv pystruct pytype short name i o d).gives L.sem ρ (.container k) =
      if o then [some (.wrapper k)] else []) ∧
    (containerPtrInDesc full conv name transfer).gives L.sem ρ (.container k) = [] ∧
    (containerPtrOutDesc full pystruct pytype short name).gives L.sem ρ (.containerAt k) = [some (.wrapper k)] ∧
    (containerRet full full pystruct pytype short).gives L.sem (.container k) = [some (.wrapper k)] := by
  refine ⟨?_, ?_, ?_, rfl, rfl, rfl⟩
  · rw [accept_some (u := ⟨"O&".toList, [.text conv, .addr 0], d.isSome⟩) rfl]
    show (Option.bind (Option.map _ ((L.converter conv x).map _)) _).bind _ = _
    cases L.converter conv x <;> rfl
  · rw [accept_some (u := ⟨"O&".toList, [.text conv, .addr 0], false⟩) rfl]
    show (Option.bind (Option.map _ ((L.converter conv x).map _)) _).bind _ = _
    cases L.converter conv x
    · rfl
    · cases transfer <;> rfl
  · cases o <;> rfl

/-- **C93, Python objects.**  A `PyObject *` parameter passes the object given, and a returned object reaches
Python as it is. -/
theorem C93_object (L : Lib T D) (ctype name : Str) (transfer owned : Bool) (x : PyV T D) :
    (((pyObjectDesc ctype name transfer).accept L.sem (some (some x))).bind
      ((pyObjectDesc ctype name transfer).passes L.sem) = some (.obj (some x))) ∧
    (pyObjectDesc ctype name transfer).accept L.sem (some none) = none ∧
    (pyObjectRet "retval".toList owned).gives L.sem (.obj (some x)) = [some x] := by
  refine ⟨?_, ?_, ?_⟩
  · cases transfer <;> rfl
  · rfl
  · cases owned <;> rfl

/-- A null pointer returned is not `None`: nothing can be built from it (`N` and `O` with a null pointer fail with
`SystemError`). -/
theorem C93_null (L : Lib T D) (owned : Bool) :
    (pyObjectRet "retval".toList owned).gives L.sem (.obj none) = [none] := by
  cases owned <;> rfl

end Verif.Wrap
