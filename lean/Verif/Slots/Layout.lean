import Verif.PyDict

/-!
# Type structures  (pybindgen/pytypeobject.py, cppclass.py:1935-2240)

The three C structures describing a Python type are written from a dictionary of slots.  Templates
are kept as lists of lines; the text written is `TLine.render`.  What a C compiler makes of it is
the list of initializers left by the preprocessor, in order.
-/
namespace Verif.Slots
open Verif

/-- `dict.setdefault(k, v)`. -/
def setdefault (d : Dict Str Str) (k v : Str) : Dict Str Str :=
  match d.get k with
  | some _ => d
  | none => d.set k v

/-- A series of `setdefault` calls. -/
def setdefaults (d : Dict Str Str) : List (Str × Str) → Dict Str Str
  | [] => d
  | (k, v) :: r => setdefaults (setdefault d k v) r

/-- What a line of a template puts into the structure: fixed text, or `%(key)s` between fixed
text. -/
inductive Item where
  | lit (s : Str)
  | slot (before key after : Str)
  deriving DecidableEq, Repr

/-- A line of a template. -/
inductive TLine where
  /-- opening and closing lines (they may refer to a key), comments -/
  | other (i : Item)
  /-- an initializer: the cast, the value, the rest of the line -/
  | field (cast : Str) (i : Item) (rest : Str)
  /-- `#if PY_VERSION_HEX >= n` (`PY_MAJOR_VERSION >= 3` is the same for `0x03000000`) -/
  | ifGe (n : Nat) (text : Str)
  /-- `#if PY_VERSION_HEX < n` -/
  | ifLt (n : Nat) (text : Str)
  | els
  | endif
  deriving DecidableEq, Repr

/-- `%`-formatting of one piece; a missing key raises `KeyError`. -/
def Item.render (d : Dict Str Str) : Item → PyRes Str
  | .lit s => .ok s
  | .slot b k a =>
    match d.get k with
    | some v => .ok (b ++ v ++ a)
    | none => .error .keyError

/-- A line after `TEMPLATE % slots`. -/
inductive OLine where
  | other (s : Str)
  | field (cast value rest : Str)
  | ifGe (n : Nat) (text : Str)
  | ifLt (n : Nat) (text : Str)
  | els
  | endif
  deriving DecidableEq, Repr

def TLine.render (d : Dict Str Str) : TLine → PyRes OLine
  | .other i => (i.render d).map .other
  | .field c i r => (i.render d).map (fun v => .field c v r)
  | .ifGe n t => .ok (.ifGe n t)
  | .ifLt n t => .ok (.ifLt n t)
  | .els => .ok .els
  | .endif => .ok .endif

/-- `TEMPLATE % slots`. -/
def renderAll (d : Dict Str Str) : List TLine → PyRes (List OLine)
  | [] => .ok []
  | l :: ls => do
    let o ← l.render d
    let os ← renderAll d ls
    pure (o :: os)

/-! ## Templates -/

private def f (cast key rest : String) : TLine := .field cast.toList (.slot [] key.toList []) rest.toList
private def fx (cast value rest : String) : TLine := .field cast.toList (.lit value.toList) rest.toList

/-- `PyTypeObject.TEMPLATE`, pytypeobject.py:6-60. -/
def typeTemplate : List TLine :=
  [.other (.slot "PyTypeObject ".toList "typestruct".toList " = {".toList),
   .other (.lit "    PyVarObject_HEAD_INIT(NULL, 0)".toList),
   .field [] (.slot "(char *) \"".toList "tp_name".toList "\"".toList) "/* tp_name */".toList,
   f "" "tp_basicsize" "/* tp_basicsize */",
   fx "" "0" "/* tp_itemsize */",
   .other (.lit "    /* methods */".toList),
   f "(destructor)" "tp_dealloc" "/* tp_dealloc */",
   fx "(printfunc)" "0" "/* tp_print */",
   f "(getattrfunc)" "tp_getattr" "/* tp_getattr */",
   f "(setattrfunc)" "tp_setattr" "/* tp_setattr */",
   .ifGe 0x03000000 "#if PY_MAJOR_VERSION >= 3".toList,
   fx "" "NULL" "",
   .els,
   f "(cmpfunc)" "tp_compare" "/* tp_compare */",
   .endif,
   f "(reprfunc)" "tp_repr" "/* tp_repr */",
   f "(PyNumberMethods*)" "tp_as_number" "/* tp_as_number */",
   f "(PySequenceMethods*)" "tp_as_sequence" "/* tp_as_sequence */",
   f "(PyMappingMethods*)" "tp_as_mapping" "/* tp_as_mapping */",
   f "(hashfunc)" "tp_hash" "/* tp_hash */",
   f "(ternaryfunc)" "tp_call" "/* tp_call */",
   f "(reprfunc)" "tp_str" "/* tp_str */",
   f "(getattrofunc)" "tp_getattro" "/* tp_getattro */",
   f "(setattrofunc)" "tp_setattro" "/* tp_setattro */",
   f "(PyBufferProcs*)" "tp_as_buffer" "/* tp_as_buffer */",
   f "" "tp_flags" "/* tp_flags */",
   f "" "tp_doc" "/* Documentation string */",
   f "(traverseproc)" "tp_traverse" "/* tp_traverse */",
   f "(inquiry)" "tp_clear" "/* tp_clear */",
   f "(richcmpfunc)" "tp_richcompare" "/* tp_richcompare */",
   f "" "tp_weaklistoffset" "/* tp_weaklistoffset */",
   f "(getiterfunc)" "tp_iter" "/* tp_iter */",
   f "(iternextfunc)" "tp_iternext" "/* tp_iternext */",
   f "(struct PyMethodDef*)" "tp_methods" "/* tp_methods */",
   fx "(struct PyMemberDef*)" "0" "/* tp_members */",
   f "" "tp_getset" "/* tp_getset */",
   fx "" "NULL" "/* tp_base */",
   fx "" "NULL" "/* tp_dict */",
   f "(descrgetfunc)" "tp_descr_get" "/* tp_descr_get */",
   f "(descrsetfunc)" "tp_descr_set" "/* tp_descr_set */",
   f "" "tp_dictoffset" "/* tp_dictoffset */",
   f "(initproc)" "tp_init" "/* tp_init */",
   f "(allocfunc)" "tp_alloc" "/* tp_alloc */",
   f "(newfunc)" "tp_new" "/* tp_new */",
   f "(freefunc)" "tp_free" "/* tp_free */",
   f "(inquiry)" "tp_is_gc" "/* tp_is_gc */",
   fx "" "NULL" "/* tp_bases */",
   fx "" "NULL" "/* tp_mro */",
   fx "" "NULL" "/* tp_cache */",
   fx "" "NULL" "/* tp_subclasses */",
   fx "" "NULL" "/* tp_weaklist */",
   fx "(destructor) " "NULL" "/* tp_del */",
   .other (.lit "};".toList)]

private def nul (k : String) : Str × Str := (k.toList, "NULL".toList)

/-- The defaults, pytypeobject.py:73-104. -/
def typeDefaults : List (Str × Str) :=
  [nul "tp_dealloc", nul "tp_getattr", nul "tp_setattr", nul "tp_compare", nul "tp_repr",
   nul "tp_as_number", nul "tp_as_sequence", nul "tp_as_mapping", nul "tp_hash", nul "tp_call",
   nul "tp_str", nul "tp_getattro", nul "tp_setattro", nul "tp_as_buffer",
   ("tp_flags".toList, "Py_TPFLAGS_DEFAULT".toList), nul "tp_doc", nul "tp_traverse", nul "tp_clear",
   nul "tp_richcompare", ("tp_weaklistoffset".toList, "0".toList), nul "tp_iter", nul "tp_iternext",
   nul "tp_methods", nul "tp_getset", nul "tp_descr_get", nul "tp_descr_set",
   ("tp_dictoffset".toList, "0".toList), nul "tp_init",
   ("tp_alloc".toList, "PyType_GenericAlloc".toList), ("tp_new".toList, "PyType_GenericNew".toList),
   ("tp_free".toList, "0".toList), nul "tp_is_gc"]

/-- `PyTypeObject.generate`, pytypeobject.py:65-106. -/
def generateType (slots : Dict Str Str) : PyRes (List OLine) :=
  renderAll (setdefaults slots typeDefaults) typeTemplate

private def nb (cast key : String) : TLine := f cast key ""

/-- `PyNumberMethods.TEMPLATE`, pytypeobject.py:110-204. -/
def numberTemplate : List TLine :=
  [.other (.slot "static PyNumberMethods ".toList "variable".toList " = {".toList),
   .ifLt 0x03000000 "#if PY_VERSION_HEX < 0x03000000".toList,
   nb "(binaryfunc)" "nb_add", nb "(binaryfunc)" "nb_subtract", nb "(binaryfunc)" "nb_multiply",
   nb "(binaryfunc)" "nb_divide", nb "(binaryfunc)" "nb_remainder", nb "(binaryfunc)" "nb_divmod",
   nb "(ternaryfunc)" "nb_power", nb "(unaryfunc)" "nb_negative", nb "(unaryfunc)" "nb_positive",
   nb "(unaryfunc)" "nb_absolute", nb "(inquiry)" "nb_nonzero", nb "(unaryfunc)" "nb_invert",
   nb "(binaryfunc)" "nb_lshift", nb "(binaryfunc)" "nb_rshift", nb "(binaryfunc)" "nb_and",
   nb "(binaryfunc)" "nb_xor", nb "(binaryfunc)" "nb_or", nb "(coercion)" "nb_coerce",
   nb "(unaryfunc)" "nb_int", nb "(unaryfunc)" "nb_long", nb "(unaryfunc)" "nb_float",
   nb "(unaryfunc)" "nb_oct", nb "(unaryfunc)" "nb_hex",
   .other (.lit "    /* Added in release 2.0 */".toList),
   nb "(binaryfunc)" "nb_inplace_add", nb "(binaryfunc)" "nb_inplace_subtract",
   nb "(binaryfunc)" "nb_inplace_multiply", nb "(binaryfunc)" "nb_inplace_divide",
   nb "(binaryfunc)" "nb_inplace_remainder", nb "(ternaryfunc)" "nb_inplace_power",
   nb "(binaryfunc)" "nb_inplace_lshift", nb "(binaryfunc)" "nb_inplace_rshift",
   nb "(binaryfunc)" "nb_inplace_and", nb "(binaryfunc)" "nb_inplace_xor",
   nb "(binaryfunc)" "nb_inplace_or",
   .other (.lit "    /* Added in release 2.2 */".toList),
   nb "(binaryfunc)" "nb_floor_divide", nb "(binaryfunc)" "nb_true_divide",
   nb "(binaryfunc)" "nb_inplace_floor_divide", nb "(binaryfunc)" "nb_inplace_true_divide",
   .ifGe 0x020500F0 "#if PY_VERSION_HEX >= 0x020500F0".toList,
   nb "(unaryfunc)" "nb_index",
   .endif,
   .els,
   nb "(binaryfunc)" "nb_add", nb "(binaryfunc)" "nb_subtract", nb "(binaryfunc)" "nb_multiply",
   nb "(binaryfunc)" "nb_remainder", nb "(binaryfunc)" "nb_divmod", nb "(ternaryfunc)" "nb_power",
   nb "(unaryfunc)" "nb_negative", nb "(unaryfunc)" "nb_positive", nb "(unaryfunc)" "nb_absolute",
   nb "(inquiry)" "nb_bool", nb "(unaryfunc)" "nb_invert", nb "(binaryfunc)" "nb_lshift",
   nb "(binaryfunc)" "nb_rshift", nb "(binaryfunc)" "nb_and", nb "(binaryfunc)" "nb_xor",
   nb "(binaryfunc)" "nb_or", nb "(unaryfunc)" "nb_int", fx "" "NULL" "",
   nb "(unaryfunc)" "nb_float", nb "(binaryfunc)" "nb_inplace_add",
   nb "(binaryfunc)" "nb_inplace_subtract", nb "(binaryfunc)" "nb_inplace_multiply",
   nb "(binaryfunc)" "nb_inplace_remainder", nb "(ternaryfunc)" "nb_inplace_power",
   nb "(binaryfunc)" "nb_inplace_lshift", nb "(binaryfunc)" "nb_inplace_rshift",
   nb "(binaryfunc)" "nb_inplace_and", nb "(binaryfunc)" "nb_inplace_xor",
   nb "(binaryfunc)" "nb_inplace_or", nb "(binaryfunc)" "nb_floor_divide",
   nb "(binaryfunc)" "nb_divide", nb "(binaryfunc)" "nb_inplace_floor_divide",
   nb "(binaryfunc)" "nb_inplace_divide", nb "(unaryfunc)" "nb_index",
   .endif,
   .other (.lit "};".toList)]

/-- The defaults, pytypeobject.py:216-255. -/
def numberDefaults : List (Str × Str) :=
  ["nb_add", "nb_bool", "nb_subtract", "nb_multiply", "nb_divide", "nb_remainder", "nb_divmod",
   "nb_power", "nb_negative", "nb_positive", "nb_absolute", "nb_nonzero", "nb_invert", "nb_lshift",
   "nb_rshift", "nb_and", "nb_xor", "nb_or", "nb_coerce", "nb_int", "nb_long", "nb_float", "nb_oct",
   "nb_hex", "nb_inplace_add", "nb_inplace_subtract", "nb_inplace_multiply", "nb_inplace_divide",
   "nb_inplace_remainder", "nb_inplace_power", "nb_inplace_lshift", "nb_inplace_rshift",
   "nb_inplace_and", "nb_inplace_xor", "nb_inplace_or", "nb_floor_divide", "nb_true_divide",
   "nb_inplace_floor_divide", "nb_inplace_true_divide", "nb_index"].map nul

/-- `PyNumberMethods.generate`, pytypeobject.py:209-257. -/
def generateNumber (slots : Dict Str Str) : PyRes (List OLine) :=
  renderAll (setdefaults slots numberDefaults) numberTemplate

/-- `PySequenceMethods.TEMPLATE`, pytypeobject.py:260-283. -/
def sequenceTemplate : List TLine :=
  [.other (.slot "static PySequenceMethods ".toList "variable".toList " = {".toList),
   nb "(lenfunc)" "sq_length", nb "(binaryfunc)" "sq_concat", nb "(ssizeargfunc)" "sq_repeat",
   nb "(ssizeargfunc)" "sq_item",
   .ifLt 0x03000000 "#if PY_MAJOR_VERSION < 3".toList,
   nb "(ssizessizeargfunc)" "sq_slice",
   .els,
   fx "" "NULL" "",
   .endif,
   nb "(ssizeobjargproc)" "sq_ass_item",
   .ifLt 0x03000000 "#if PY_MAJOR_VERSION < 3".toList,
   nb "(ssizessizeobjargproc)" "sq_ass_slice",
   .els,
   fx "" "NULL" "",
   .endif,
   nb "(objobjproc)" "sq_contains",
   .other (.lit "    /* Added in release 2.0 */".toList),
   nb "(binaryfunc)" "sq_inplace_concat", nb "(ssizeargfunc)" "sq_inplace_repeat",
   .other (.lit "};".toList)]

/-- The defaults, pytypeobject.py:548-557. -/
def sequenceDefaults : List (Str × Str) :=
  ["sq_length", "sq_concat", "sq_repeat", "sq_item", "sq_slice", "sq_ass_item", "sq_ass_slice",
   "sq_contains", "sq_inplace_concat", "sq_inplace_repeat"].map nul

/-- `PySequenceMethods.generate`, pytypeobject.py:541-559. -/
def generateSequence (slots : Dict Str Str) : PyRes (List OLine) :=
  renderAll (setdefaults slots sequenceDefaults) sequenceTemplate

/-! ## What the compiler sees -/

/-- The initializers left by the preprocessor when compiling for Python `hex`; `stack` holds, for
every open `#if`, whether its current branch is taken. -/
def initializers (hex : Nat) : List Bool → List OLine → List Str
  | _, [] => []
  | st, .other _ :: ls => initializers hex st ls
  | st, .field _ v _ :: ls =>
    if st.all id then v :: initializers hex st ls else initializers hex st ls
  | st, .ifGe n _ :: ls => initializers hex (decide (n ≤ hex) :: st) ls
  | st, .ifLt n _ :: ls => initializers hex (decide (hex < n) :: st) ls
  | b :: st, .els :: ls => initializers hex ((!b) :: st) ls
  | [], .els :: ls => initializers hex [] ls
  | st, .endif :: ls => initializers hex st.tail ls

/-! ## Specification: the structures as CPython declares them -/

/-- Members of `PyTypeObject` after the object header, Python 3 (Include/cpython/object.h). -/
def cpythonType3 : List String :=
  ["tp_name", "tp_basicsize", "tp_itemsize", "tp_dealloc", "tp_vectorcall_offset", "tp_getattr",
   "tp_setattr", "tp_as_async", "tp_repr", "tp_as_number", "tp_as_sequence", "tp_as_mapping",
   "tp_hash", "tp_call", "tp_str", "tp_getattro", "tp_setattro", "tp_as_buffer", "tp_flags",
   "tp_doc", "tp_traverse", "tp_clear", "tp_richcompare", "tp_weaklistoffset", "tp_iter",
   "tp_iternext", "tp_methods", "tp_members", "tp_getset", "tp_base", "tp_dict", "tp_descr_get",
   "tp_descr_set", "tp_dictoffset", "tp_init", "tp_alloc", "tp_new", "tp_free", "tp_is_gc",
   "tp_bases", "tp_mro", "tp_cache", "tp_subclasses", "tp_weaklist", "tp_del"]

/-- The same in Python 2. -/
def cpythonType2 : List String :=
  cpythonType3.map (fun m => if m = "tp_vectorcall_offset" then "tp_print"
    else if m = "tp_as_async" then "tp_compare" else m)

/-- Members of `PyNumberMethods`, Python 3 up to `nb_index`. -/
def cpythonNumber3 : List String :=
  ["nb_add", "nb_subtract", "nb_multiply", "nb_remainder", "nb_divmod", "nb_power", "nb_negative",
   "nb_positive", "nb_absolute", "nb_bool", "nb_invert", "nb_lshift", "nb_rshift", "nb_and",
   "nb_xor", "nb_or", "nb_int", "nb_reserved", "nb_float", "nb_inplace_add", "nb_inplace_subtract",
   "nb_inplace_multiply", "nb_inplace_remainder", "nb_inplace_power", "nb_inplace_lshift",
   "nb_inplace_rshift", "nb_inplace_and", "nb_inplace_xor", "nb_inplace_or", "nb_floor_divide",
   "nb_true_divide", "nb_inplace_floor_divide", "nb_inplace_true_divide", "nb_index"]

/-- Members of `PyNumberMethods`, Python 2.5 to 2.7. -/
def cpythonNumber2 : List String :=
  ["nb_add", "nb_subtract", "nb_multiply", "nb_divide", "nb_remainder", "nb_divmod", "nb_power",
   "nb_negative", "nb_positive", "nb_absolute", "nb_nonzero", "nb_invert", "nb_lshift", "nb_rshift",
   "nb_and", "nb_xor", "nb_or", "nb_coerce", "nb_int", "nb_long", "nb_float", "nb_oct", "nb_hex",
   "nb_inplace_add", "nb_inplace_subtract", "nb_inplace_multiply", "nb_inplace_divide",
   "nb_inplace_remainder", "nb_inplace_power", "nb_inplace_lshift", "nb_inplace_rshift",
   "nb_inplace_and", "nb_inplace_xor", "nb_inplace_or", "nb_floor_divide", "nb_true_divide",
   "nb_inplace_floor_divide", "nb_inplace_true_divide", "nb_index"]

/-- Members of `PySequenceMethods`; in Python 3 the two slice members are unused. -/
def cpythonSequence3 : List String :=
  ["sq_length", "sq_concat", "sq_repeat", "sq_item", "was_sq_slice", "sq_ass_item",
   "was_sq_ass_slice", "sq_contains", "sq_inplace_concat", "sq_inplace_repeat"]

def cpythonSequence2 : List String :=
  ["sq_length", "sq_concat", "sq_repeat", "sq_item", "sq_slice", "sq_ass_item", "sq_ass_slice",
   "sq_contains", "sq_inplace_concat", "sq_inplace_repeat"]

/-- The members of a type structure which can not be chosen. -/
def fixedType : List (String × String) :=
  [("tp_itemsize", "0"), ("tp_vectorcall_offset", "0"), ("tp_print", "0"), ("tp_as_async", "NULL"),
   ("tp_members", "0"), ("tp_base", "NULL"), ("tp_dict", "NULL"), ("tp_bases", "NULL"),
   ("tp_mro", "NULL"), ("tp_cache", "NULL"), ("tp_subclasses", "NULL"), ("tp_weaklist", "NULL"),
   ("tp_del", "NULL")]

/-- The value of a member not set in the dictionary. -/
def memberDefault (m : String) : String :=
  if m = "tp_flags" then "Py_TPFLAGS_DEFAULT"
  else if m = "tp_weaklistoffset" ∨ m = "tp_dictoffset" ∨ m = "tp_free" then "0"
  else if m = "tp_alloc" then "PyType_GenericAlloc"
  else if m = "tp_new" then "PyType_GenericNew"
  else "NULL"

/-- What member `m` of the type structure is initialized with. -/
def typeMember (d : Dict Str Str) (m : String) : Str :=
  match fixedType.lookup m with
  | some v => v.toList
  | none =>
    let v := (d.get m.toList).getD (memberDefault m).toList
    if m = "tp_name" then "(char *) \"".toList ++ v ++ "\"".toList else v

/-- What a number or sequence member is initialized with: the slot of the same name; in Python 3
division is true division. -/
def methodMember (py3 : Bool) (d : Dict Str Str) (m : String) : Str :=
  if py3 ∧ (m = "nb_reserved" ∨ m = "was_sq_slice" ∨ m = "was_sq_ass_slice") then "NULL".toList
  else
    let key := if py3 ∧ m = "nb_true_divide" then "nb_divide"
      else if py3 ∧ m = "nb_inplace_true_divide" then "nb_inplace_divide" else m
    (d.get key.toList).getD "NULL".toList

/-! ## Proofs -/

theorem get_setdefault (d : Dict Str Str) (k v k' : Str) :
    (setdefault d k v).get k' = if k = k' then some ((d.get k').getD v) else d.get k' := by
  unfold setdefault
  split
  · rename_i x h
    split
    · rename_i e; subst e; rw [h]; rfl
    · rfl
  · rename_i h
    rw [Dict.get_set]
    split
    · rename_i e; subst e; rw [h]; rfl
    · rfl

theorem get_setdefaults : ∀ (l : List (Str × Str)) (d : Dict Str Str) (k : Str),
    (setdefaults d l).get k =
      match l.lookup k with
      | some v => some ((d.get k).getD v)
      | none => d.get k
  | [], d, k => rfl
  | (a, v) :: r, d, k => by
    unfold setdefaults
    rw [get_setdefaults r, get_setdefault, List.lookup_cons]
    by_cases h : a = k
    · subst h
      simp only [beq_self_eq_true, if_true, Option.getD_some]
      split <;> rfl
    · have : (k == a) = false := by simpa using fun e => h e.symm
      rw [this, if_neg h]

/-- The value a piece gets from the user's slots and the defaults. -/
def Item.value (defs : List (Str × Str)) (d : Dict Str Str) : Item → Option Str
  | .lit s => some s
  | .slot b k a =>
    match defs.lookup k with
    | some v => some (b ++ (d.get k).getD v ++ a)
    | none => (d.get k).map (fun v => b ++ v ++ a)

theorem render_value (defs : List (Str × Str)) (d : Dict Str Str) (i : Item) :
    i.render (setdefaults d defs) =
      match i.value defs d with
      | some s => .ok s
      | none => .error .keyError := by
  cases i with
  | lit s => rfl
  | slot b k a =>
    simp only [Item.render, Item.value, get_setdefaults]
    cases hl : defs.lookup k with
    | some v => simp
    | none =>
      simp only
      cases d.get k <;> simp

/-- The keys a template needs from the user. -/
def required (defs : List (Str × Str)) : TLine → List Str
  | .other (.slot _ k _) => if (defs.lookup k).isSome then [] else [k]
  | .field _ (.slot _ k _) _ => if (defs.lookup k).isSome then [] else [k]
  | _ => []

theorem value_isSome {defs : List (Str × Str)} {d : Dict Str Str} {b k a : Str} :
    ((Item.slot b k a).value defs d).isSome = ((defs.lookup k).isSome || (d.get k).isSome) := by
  unfold Item.value
  cases h : defs.lookup k <;> simp [h]

/-- The template line initializers, before substitution. -/
def tInitializers (hex : Nat) : List Bool → List TLine → List Item
  | _, [] => []
  | st, .other _ :: ls => tInitializers hex st ls
  | st, .field _ i _ :: ls =>
    if st.all id then i :: tInitializers hex st ls else tInitializers hex st ls
  | st, .ifGe n _ :: ls => tInitializers hex (decide (n ≤ hex) :: st) ls
  | st, .ifLt n _ :: ls => tInitializers hex (decide (hex < n) :: st) ls
  | b :: st, .els :: ls => tInitializers hex ((!b) :: st) ls
  | [], .els :: ls => tInitializers hex [] ls
  | st, .endif :: ls => tInitializers hex st.tail ls

theorem render_ok_value {defs : List (Str × Str)} {d : Dict Str Str} {i : Item} {s : Str}
    (h : i.render (setdefaults d defs) = .ok s) : i.value defs d = some s := by
  rw [render_value] at h
  split at h
  · rename_i s' e; rw [e, Except.ok.inj h]
  · cases h

theorem map_ok {α β : Type} {x : PyRes α} {g : α → β} {y : β} (h : x.map g = .ok y) :
    ∃ a, x = .ok a ∧ g a = y := by
  cases x with
  | error e => cases h
  | ok a => exact ⟨a, rfl, Except.ok.inj h⟩

theorem renderAll_cons (d : Dict Str Str) (l : TLine) (ls : List TLine) :
    renderAll d (l :: ls) =
      match l.render d with
      | .error e => .error e
      | .ok o =>
        match renderAll d ls with
        | .error e => .error e
        | .ok os => .ok (o :: os) := by
  rw [renderAll]
  cases l.render d with
  | error e => rfl
  | ok o => cases renderAll d ls <;> rfl

theorem initializers_render (hex : Nat) (defs : List (Str × Str)) (d : Dict Str Str) :
    ∀ (t : List TLine) (st : List Bool) (os : List OLine),
      renderAll (setdefaults d defs) t = .ok os →
      (initializers hex st os).map some = (tInitializers hex st t).map (Item.value defs d)
  | [], st, os, h => by
    cases h
    cases st <;> simp [initializers, tInitializers]
  | l :: ls, st, os, h => by
    rw [renderAll_cons] at h
    cases hl : l.render (setdefaults d defs) with
    | error e => rw [hl] at h; cases h
    | ok o =>
      rw [hl] at h
      cases hr : renderAll (setdefaults d defs) ls with
      | error e => rw [hr] at h; cases h
      | ok os' =>
        rw [hr] at h
        have h := (Except.ok.inj h).symm
        subst h
        have ih := fun st => initializers_render hex defs d ls st os' hr
        cases l with
        | other i =>
          obtain ⟨s, -, rfl⟩ := map_ok hl
          simpa [initializers, tInitializers] using ih st
        | field c i r =>
          obtain ⟨s, hs, rfl⟩ := map_ok hl
          have hv := render_ok_value hs
          by_cases hst : st.all id = true
          · simp [initializers, tInitializers, hst, hv, ih st]
          · simp [initializers, tInitializers, hst, ih st]
        | ifGe n t => cases hl; simpa [initializers, tInitializers] using ih _
        | ifLt n t => cases hl; simpa [initializers, tInitializers] using ih _
        | els =>
          cases hl
          cases st with
          | nil => simpa [initializers, tInitializers] using ih []
          | cons b st => simpa [initializers, tInitializers] using ih ((!b) :: st)
        | endif => cases hl; simpa [initializers, tInitializers] using ih st.tail

/-- Generation succeeds exactly when the required keys are there. -/
theorem renderAll_ok (defs : List (Str × Str)) (d : Dict Str Str) : ∀ (t : List TLine),
    (∃ os, renderAll (setdefaults d defs) t = .ok os) ↔
      ∀ k ∈ t.flatMap (required defs), (d.get k).isSome
  | [] => by simp [renderAll]
  | l :: ls => by
    have ih := renderAll_ok defs d ls
    have hl : (∃ o, l.render (setdefaults d defs) = .ok o) ↔ ∀ k ∈ required defs l, (d.get k).isSome := by
      have key : ∀ i : Item, (∃ s, i.render (setdefaults d defs) = .ok s) ↔
          (i.value defs d).isSome := by
        intro i; rw [render_value]
        cases i.value defs d <;> simp
      have slotc : ∀ b k a, ((Item.slot b k a).value defs d).isSome ↔
          ∀ k' ∈ (if (defs.lookup k).isSome then [] else [k]), (d.get k').isSome := by
        intro b k a
        rw [value_isSome]
        cases defs.lookup k <;> simp
      cases l with
      | other i =>
        have e : (∃ o, (TLine.other i).render (setdefaults d defs) = .ok o) ↔
            ∃ s, i.render (setdefaults d defs) = .ok s := by
          simp only [TLine.render]
          cases i.render (setdefaults d defs) <;> simp [Except.map]
        rw [e, key]
        cases i with
        | lit s => simp [required, Item.value]
        | slot b k a => exact slotc b k a
      | field c i r =>
        have e : (∃ o, (TLine.field c i r).render (setdefaults d defs) = .ok o) ↔
            ∃ s, i.render (setdefaults d defs) = .ok s := by
          simp only [TLine.render]
          cases i.render (setdefaults d defs) <;> simp [Except.map]
        rw [e, key]
        cases i with
        | lit s => simp [required, Item.value]
        | slot b k a => exact slotc b k a
      | ifGe n t => simp [required, TLine.render]
      | ifLt n t => simp [required, TLine.render]
      | els => simp [required, TLine.render]
      | endif => simp [required, TLine.render]
    have e : (∃ os, renderAll (setdefaults d defs) (l :: ls) = .ok os) ↔
        (∃ o, l.render (setdefaults d defs) = .ok o) ∧ ∃ os, renderAll (setdefaults d defs) ls = .ok os := by
      rw [renderAll_cons]
      cases l.render (setdefaults d defs) with
      | error e => simp
      | ok o => cases renderAll (setdefaults d defs) ls <;> simp
    rw [e, hl, ih]
    simp only [List.flatMap_cons, List.mem_append]
    constructor
    · rintro ⟨h1, h2⟩ k (hk | hk)
      · exact h1 k hk
      · exact h2 k hk
    · intro h
      exact ⟨fun k hk => h k (Or.inl hk), fun k hk => h k (Or.inr hk)⟩

theorem renderAll_err {d : Dict Str Str} {e : PyErr} : ∀ {t : List TLine},
    renderAll d t = .error e → e = .keyError
  | [], h => by cases h
  | l :: ls, h => by
    rw [renderAll_cons] at h
    cases hl : l.render d with
    | error e' =>
      rw [hl] at h
      have h := Except.error.inj h
      subst h
      cases l with
      | other i => cases i with
        | lit s => cases hl
        | slot b k a =>
          simp only [TLine.render, Item.render] at hl
          split at hl <;> cases hl; rfl
      | field c i r => cases i with
        | lit s => cases hl
        | slot b k a =>
          simp only [TLine.render, Item.render] at hl
          split at hl <;> cases hl; rfl
      | ifGe n t => cases hl
      | ifLt n t => cases hl
      | els => cases hl
      | endif => cases hl
    | ok o =>
      rw [hl] at h
      cases hr : renderAll d ls with
      | error e' =>
        rw [hr] at h
        have h := Except.error.inj h
        subst h
        exact renderAll_err hr
      | ok os => rw [hr] at h; cases h

/-- The versions a line asks about. -/
def threshold : TLine → List Nat
  | .ifGe n _ => [n]
  | .ifLt n _ => [n]
  | _ => []

/-- Two version numbers on the same side of all version checks give the same initializers. -/
theorem tInitializers_hex {h1 h2 : Nat} : ∀ (t : List TLine) (st : List Bool),
    (∀ n ∈ t.flatMap threshold, n ≤ h1 ↔ n ≤ h2) → tInitializers h1 st t = tInitializers h2 st t
  | [], _, _ => by simp [tInitializers]
  | l :: ls, st, h => by
    simp only [List.flatMap_cons, List.mem_append] at h
    have ih := fun st => tInitializers_hex ls st (fun n hn => h n (Or.inr hn))
    cases l with
    | other i => simpa [tInitializers] using ih st
    | field c i r => simp only [tInitializers]; rw [ih st]
    | ifGe n t =>
      have hl := h n (Or.inl (by simp [threshold]))
      simp only [tInitializers]; rw [ih, decide_eq_decide.mpr hl]
    | ifLt n t =>
      have hl : h1 < n ↔ h2 < n := by have := h n (Or.inl (by simp [threshold])); omega
      simp only [tInitializers]; rw [ih, decide_eq_decide.mpr hl]
    | els =>
      cases st with
      | nil => simpa [tInitializers] using ih []
      | cons b st => simpa [tInitializers] using ih ((!b) :: st)
    | endif => simpa [tInitializers] using ih st.tail

/-- How an initializer corresponds to a structure member. -/
def ItemIs (defs : List (Str × Str)) (exp : Dict Str Str → String → Str) (i : Item) (m : String) : Prop :=
  ∀ d : Dict Str Str, ∀ s, i.value defs d = some s → exp d m = s

theorem map_eq_of_forall2 {defs : List (Str × Str)} {exp : Dict Str Str → String → Str} (d : Dict Str Str) :
    ∀ {is : List Item} {ms : List String} {vs : List Str}, List.Forall₂ (ItemIs defs exp) is ms →
      vs.map some = is.map (Item.value defs d) → vs = ms.map (exp d)
  | [], [], vs, _, h => by simpa using h
  | i :: is, m :: ms, vs, .cons h1 h2, h => by
    cases vs with
    | nil => simp at h
    | cons v vs =>
      simp only [List.map_cons, List.cons.injEq] at h
      rw [map_eq_of_forall2 d h2 h.2, List.map_cons, h1 d v h.1.symm]

end Verif.Slots
