import Verif.Wrapper.DescGen

/-!
# The meaning of the texts written by the package's handlers

C41 (Wrapper/DescGen.lean) holds for every meaning of the texts.  This file gives the texts of the
handlers for strings, booleans, Python objects, arrays and containers the meaning C++ and CPython give
them.  A text is recognized by its shape: any other text has no value, so a handler that wrote
something else would not pass anything.

Trusted, from the documentation of CPython and C++: the format units `s`, `s#`, `c`, `et`, `O`, `O!`, `O&`
of `PyArg_ParseTuple`, `s`, `s#`, `c`, `O`, `N` of `Py_BuildValue`, `PyObject_IsTrue`, `PyBool_FromLong`,
`PyList_*`, `PyFloat_*`, the constructors and members of `std::string` and `Glib::ustring`.
-/
namespace Verif.Wrap
open Verif Verif.Flow Verif.Params Verif.DeclScope

/-- Bytes in memory. -/
abbrev Bytes := List UInt8

/-- UTF-8, with the laws CPython's strict codec obeys: it decodes exactly what it encodes.  (A `str` with lone
surrogates has no encoding.) -/
structure Codec (T : Type) where
  enc : T → Option Bytes
  dec : Bytes → Option T
  law : ∀ b s, dec b = some s ↔ enc s = some b

/-- Python objects; `T` are the values of `str`, `D` those of `float`. -/
inductive PyV (T D : Type) where
  | none
  | str (s : T)
  | bytes (b : Bytes)
  | bool (b : Bool)
  | int (n : Int)
  | float (x : D)
  | list (l : List (PyV T D))
  /-- a new wrapper of a container holding a copy of container `k` -/
  | wrapper (k : Nat)
  /-- anything else: `n` tells them apart, `truth` is what `__bool__` says (`none`: it raises) -/
  | other (n : Nat) (truth : Option Bool)

/-- What C++ variables and expressions hold. -/
inductive CV (T D : Type) where
  /-- a `const char *`: null, or the bytes up to the terminating zero byte that was put after them -/
  | chars (b : Option Bytes)
  /-- a length -/
  | size (n : Nat)
  /-- a `std::string`, and the address of one -/
  | string (b : Bytes)
  | stringAt (b : Bytes)
  /-- a `Glib::ustring`, and the address of one -/
  | ustring (b : Bytes)
  | ustringAt (b : Bytes)
  | char (c : UInt8)
  /-- a `bool`, and the address of one -/
  | bool (b : Bool)
  | boolAt (b : Bool)
  /-- a `PyObject *` -/
  | obj (o : Option (PyV T D))
  /-- arrays of `float` and `unsigned int` -/
  | floats (xs : List D)
  | uints (xs : List Nat)
  /-- a container, a new copy of one on the heap, and the address of one -/
  | container (k : Nat)
  | containerNew (k : Nat)
  | containerAt (k : Nat)

/-- The environment of a wrapper: things the handlers are parametric in. -/
structure Lib (T D : Type) where
  codec : Codec T
  /-- truth values of `str` and `float` objects -/
  strTruth : T → Bool
  floatTruth : D → Bool
  /-- conversion of a `double` to `float` -/
  narrow : D → D
  /-- `PyLong_AsUnsignedInt` (not part of CPython's API) -/
  asUnsigned : PyV T D → Nat
  /-- the generated converter functions of containers, see Container/Model.lean -/
  converter : Str → PyV T D → Option Nat
  /-- default values and other initializers -/
  init : Str → CV T D

variable {T D : Type}

/-- `PyObject_IsTrue`: `none` if it fails with `-1`. -/
def Lib.truth (L : Lib T D) : PyV T D → Option Bool
  | .none => some false
  | .str s => some (L.strTruth s)
  | .bytes b => some (!b.isEmpty)
  | .bool b => some b
  | .int n => some (n != 0)
  | .float x => some (L.floatTruth x)
  | .list l => some (!l.isEmpty)
  | .wrapper _ => some true
  | .other _ t => t

/-- The value of `(bool) PyObject_IsTrue(x)`: `-1` counts as true. -/
def Lib.isTrueC (L : Lib T D) (x : PyV T D) : Bool := (L.truth x).getD true

/-- `std::string(p, n)`: `n` bytes starting at `p`; the terminating zero byte is the last that may be
read. -/
def takeBytes (b : Bytes) (n : Nat) : Option Bytes := if n ≤ b.length + 1 then some ((b ++ [0]).take n) else none

/-- A zero-terminated string: the bytes before the first zero byte. -/
def cut (b : Bytes) : Bytes := b.takeWhile (· != 0)

/-- Number of characters of a UTF-8 text: the bytes that do not continue a character
(`Glib::ustring::size`). -/
def charCount (b : Bytes) : Nat := (b.filter (fun x => !(0x80 ≤ x && x < 0xC0))).length

/-! ## Parsing -/

/-- `PyArg_ParseTuple`, one unit. -/
def Lib.conv (L : Lib T D) (fmt : Str) (texts : List Str) (x : PyV T D) : Option (List (CV T D)) :=
  if fmt = "s".toList then
    match x with
    | .str s => (L.codec.enc s).bind (fun b => if 0 ∈ b then none else some [.chars (some b)])
    | _ => none
  else if fmt = "s#".toList then
    match x with
    | .str s => (L.codec.enc s).map (fun b => [.chars (some b), .size b.length])
    | .bytes b => some [.chars (some b), .size b.length]
    | _ => none
  else if fmt = "c".toList then
    match x with
    | .bytes [c] => some [.char c]
    | _ => none
  else if fmt = "et".toList ∧ texts = ["\"utf-8\"".toList] then
    match x with
    | .str s => (L.codec.enc s).bind (fun b => if 0 ∈ b then none else some [.chars (some b)])
    | .bytes b => if 0 ∈ b then none else some [.chars (some b)]
    | _ => none
  else if fmt = "O".toList then some [.obj (some x)]
  else if fmt = "O!".toList ∧ texts = ["&PyList_Type".toList] then
    match x with
    | .list l => some [.obj (some (.list l))]
    | _ => none
  else if fmt = "O&".toList then
    match texts with
    | [f] => (L.converter f x).map (fun k => [.container k])
    | _ => none
  else none

/-- Initializers. -/
def Lib.expr (L : Lib T D) (s : Str) : CV T D :=
  if s = "NULL".toList then .chars none
  else if s = "new std::string".toList then .stringAt []
  else if s = "new Glib::ustring".toList then .ustringAt []
  else L.init s

/-! ## Expressions -/

/-- `std::string(p, n)` -/
def mkStd : Option (CV T D) → Option (CV T D) → Option (CV T D)
  | some (.chars (some b)), some (.size n) => (takeBytes b n).map .string
  | _, _ => none

/-- `Glib::ustring(p)` -/
def mkU : Option (CV T D) → Option (CV T D)
  | some (.chars (some b)) => some (.ustring (cut b))
  | _ => none

/-- `&v` -/
def addrOf : Option (CV T D) → Option (CV T D)
  | some (.string b) => some (.stringAt b)
  | some (.ustring b) => some (.ustringAt b)
  | some (.bool b) => some (.boolAt b)
  | some (.container k) => some (.containerAt k)
  | _ => none

/-- `*v` -/
def derefOf : Option (CV T D) → Option (CV T D)
  | some (.stringAt b) => some (.string b)
  | some (.ustringAt b) => some (.ustring b)
  | some (.boolAt b) => some (.bool b)
  | some (.containerAt k) => some (.container k)
  | _ => none

/-- `p ? a : b` for a pointer `p`; a variable never assigned has no truth value. -/
def ifPtr (p : Option (CV T D)) (a b : Option (CV T D)) : Option (CV T D) :=
  match p with
  | some (.chars none) => b
  | some (.chars (some _)) => a
  | some (.obj none) => b
  | some (.obj (some _)) => a
  | _ => none

/-- `(bool) PyObject_IsTrue(p)` -/
def isTrueOf (L : Lib T D) : Option (CV T D) → Option (CV T D)
  | some (.obj (some x)) => some (.bool (L.isTrueC x))
  | _ => none

/-- Call expressions and right-hand sides. -/
def Lib.eval (L : Lib T D) (t : Tmpl) (ρ : Loc (CV T D)) : Option (CV T D) :=
  match t with
  | [.var i] => ρ i
  | [.text a, .var i] =>
    if a = "&".toList then addrOf (ρ i) else if a = "*".toList then derefOf (ρ i) else none
  | [.text a, .var i, .text b] =>
    if a = "Glib::ustring(".toList ∧ b = ")".toList then mkU (ρ i) else none
  | [.text a, .text _, .text b, .var i, .text c] =>
    -- `new T(v)`
    if a = "new ".toList ∧ b = "(".toList ∧ c = ")".toList then
      match ρ i with
      | some (.container k) => some (.containerNew k)
      | _ => none
    else none
  | [.text a, .var i, .text b, .var j, .text c] =>
    if a = "std::string(".toList ∧ b = ", ".toList ∧ c = ")".toList then mkStd (ρ i) (ρ j) else none
  | [.text a, .var h, .text b, .text c, .var i, .text d, .text e, .text x, .text f] =>
    if a = "(".toList ∧ b = " ? ".toList ∧ c = "Glib::ustring(".toList ∧ d = ")".toList ∧ e = " : ".toList ∧
        f = ")".toList then ifPtr (ρ h) (mkU (ρ i)) (some (L.expr x)) else none
  | [.text a, .var h, .text b, .text c, .var i, .text d, .var j, .text e, .text g, .text x, .text f] =>
    if a = "(".toList ∧ b = " ? ".toList ∧ c = "std::string(".toList ∧ d = ", ".toList ∧ e = ")".toList ∧
        g = " : ".toList ∧ f = ")".toList then ifPtr (ρ h) (mkStd (ρ i) (ρ j)) (some (L.expr x)) else none
  | _ => none

/-! ## Statements before the call -/

/-- `v = e;`, `*v = e;`: the new content of the variable. -/
def Lib.assign (L : Lib T D) (t : Tmpl) (ρ : Loc (CV T D)) : Option (CV T D) :=
  match t with
  | [.var _, .text a, .text b, .var i, .text c, .text d] =>
    -- `v = Glib::ustring(p);`
    if a = " = ".toList ∧ d = ";".toList then L.eval [.text b, .var i, .text c] ρ else none
  | [.var _, .text a, .text b, .var i, .text c, .var j, .text d, .text e] =>
    -- `v = std::string(p, n);`
    if a = " = ".toList ∧ e = ";".toList then L.eval [.text b, .var i, .text c, .var j, .text d] ρ else none
  | [.text s, .var _, .text a, .text b, .var i, .text c, .text d] =>
    -- `*v = Glib::ustring(p);`
    if s = "*".toList ∧ a = " = ".toList ∧ d = ";".toList then addrOf (L.eval [.text b, .var i, .text c] ρ) else none
  | [.text s, .var _, .text a, .text b, .var i, .text c, .var j, .text d, .text e] =>
    -- `*v = std::string(p, n);`
    if s = "*".toList ∧ a = " = ".toList ∧ e = ";".toList then
      addrOf (L.eval [.text b, .var i, .text c, .var j, .text d] ρ) else none
  | [.text a, .var h, .text b, .var _, .text c, .text d, .var i, .text e, .var j, .text f, .text g, .var _, .text k,
      .text x, .text l] =>
    -- `if (p) v = std::string(p, n); else v = x;`
    if a = "if (".toList ∧ b = ")\n    ".toList ∧ c = " = ".toList ∧ d = "std::string(".toList ∧ e = ", ".toList ∧
        f = ")".toList ∧ g = ";\nelse\n    ".toList ∧ k = " = ".toList ∧ l = ";".toList then
      ifPtr (ρ h) (mkStd (ρ i) (ρ j)) (some (L.expr x)) else none
  | [.var _, .text a, .var i, .text b] =>
    -- `v = PyObject_IsTrue(p);` for a `bool`
    if (a = " = (bool) PyObject_IsTrue(".toList ∨ a = " = PyObject_IsTrue(".toList) ∧ b = ");".toList then
      isTrueOf L (ρ i) else none
  | [.var _, .text a, .var h, .text b, .var i, .text c, .text x, .text d] =>
    -- `v = p? (bool) PyObject_IsTrue(p) : x;`
    if a = " = ".toList ∧ b = "? (bool) PyObject_IsTrue(".toList ∧ c = ") : ".toList ∧ d = ";".toList then
      ifPtr (ρ h) (isTrueOf L (ρ i)) (some (L.expr x)) else none
  | [.text a, .var i, .text b] =>
    -- `Py_INCREF((PyObject*) p);`
    if a = "Py_INCREF((PyObject*) ".toList ∧ b = ");".toList then ρ i else none
  | _ => none

/-- Storing all elements of a list, unless the check refuses one. -/
def fill {α : Type} (check : PyV T D → Bool) (get : PyV T D → Option α) : List (PyV T D) → Option (List α)
  | [] => some []
  | x :: xs => if check x then (get x).bind (fun y => (fill check get xs).map (y :: ·)) else none

/-- `PyNumber_Check` -/
def PyV.isNumber : PyV T D → Bool
  | .bool _ => true
  | .int _ => true
  | .float _ => true
  | _ => false

/-- `PyFloat_Check` -/
def PyV.isFloat : PyV T D → Bool
  | .float _ => true
  | _ => false

/-- The head of a loop over the array: `for (i = 0; i < n; i++) {` -/
def loopHead (i : Nat) (n : Str) : Tmpl :=
  [tx "for (", .var i, tx " = 0; ", .var i, tx " < ", .text n, tx "; ", .var i, tx "++) {"]

/-- Statements before the call: assignments, and the loops that fill arrays. -/
def Lib.run (L : Lib T D) (ops : List TOp) (ρ : Loc (CV T D)) : Option (CV T D) :=
  match ops with
  | [.write t] => L.assign t ρ
  | [.check [.text p, .var l, .text ne, .text n] (some _), .write hd,
      .write [.var e, .text g, .var l', .text c, .var i, .text cl], .check [.text ck, .var e', .text ck'] (some _),
      .write [.var _, .text ob, .var i', .text as, .text get, .var e'', .text gc, .text semi], .write [.text cb]] =>
    if p = "PyList_Size(".toList ∧ ne = ") != ".toList ∧ l' = l ∧ hd = loopHead i n ∧ g = " = PyList_GET_ITEM(".toList ∧
        c = ", ".toList ∧ cl = ");".toList ∧ e' = e ∧ e'' = e ∧ i' = i ∧ ck' = ")".toList ∧ ob = "[".toList ∧
        as = "] = ".toList ∧ gc = ")".toList ∧ semi = ";".toList ∧ cb = "}".toList then
      match ρ l with
      | some (.obj (some (.list xs))) =>
        if n = natStr xs.length then
          if ck = "!PyFloat_Check(".toList ∧ get = "(float) PyFloat_AsDouble(".toList then
            (fill PyV.isFloat (fun x => match x with | .float y => some (L.narrow y) | _ => none) xs).map .floats
          else if ck = "!PyNumber_Check(".toList ∧ get = "PyLong_AsUnsignedInt(".toList then
            (fill PyV.isNumber (fun x => some (L.asUnsigned x)) xs).map .uints
          else none
        else none
      | _ => none
    else none
  | _ => none

/-! ## Statements after the call -/

/-- Statements after the call: lists made from arrays, wrappers made from containers.  A text of another
shape leaves a null pointer. -/
def Lib.post (_ : Lib T D) (ts : List Tmpl) (ρ : Loc (CV T D)) : CV T D :=
  match ts with
  | [[.var l, .text nw, .text n, .text cl], hd,
      [.text si, .var l', .text c, .var i, .text c', .text mkf, .var a, .text ob, .var i', .text cbk, .text mkc, .text cl'],
      [.text cb]] =>
    if nw = " = PyList_New(".toList ∧ cl = ");".toList ∧ hd = loopHead i n ∧ si = "PyList_SET_ITEM(".toList ∧ l' = l ∧
        c = ", ".toList ∧ c' = ", ".toList ∧ ob = "[".toList ∧ i' = i ∧ cbk = "]".toList ∧ mkc = ")".toList ∧
        cl' = ");".toList ∧ cb = "}".toList then
      match ρ a with
      | some (.floats xs) =>
        if mkf = "PyFloat_FromDouble(".toList ∧ n = natStr xs.length then .obj (some (.list (xs.map .float)))
        else .obj none
      | some (.uints xs) =>
        if mkf = "PyLong_FromUnsignedLong(".toList ∧ n = natStr xs.length then
          .obj (some (.list (xs.map (fun x => .int x)))) else .obj none
      | _ => .obj none
    else .obj none
  | [[.var p, .text nw, .text _, .text cm, .text _, .text cl], [.var p', .text o, .text _, .text op, .var v, .text cl']] =>
    -- `p = PyObject_New(S, &T); p->obj = new C(v);`
    if nw = " = PyObject_New(".toList ∧ cm = ", &".toList ∧ cl = ");".toList ∧ p' = p ∧ o = "->obj = new ".toList ∧
        op = "(".toList ∧ cl' = ");".toList then
      match ρ v with
      | some (.container k) => .obj (some (.wrapper k))
      | _ => .obj none
    else .obj none
  | [[.var p, .text nw, .text _, .text cm, .text _, .text cl], [.var p', .text o, .var v, .text cl']] =>
    -- `p = PyObject_New(S, &T); p->obj = v;`
    if nw = " = PyObject_New(".toList ∧ cm = ", &".toList ∧ cl = ");".toList ∧ p' = p ∧ o = "->obj = ".toList ∧
        cl' = ";".toList then
      match ρ v with
      | some (.containerAt k) => .obj (some (.wrapper k))
      | _ => .obj none
    else .obj none
  | _ => .obj none

/-! ## The result -/

/-- `s#`: decoding `n` bytes at `p`. -/
def Lib.decodeN (L : Lib T D) (b : Bytes) (n : Nat) : Option (PyV T D) :=
  (takeBytes b n).bind (fun b => (L.codec.dec b).map .str)

/-- `(s).c_str()`: bytes, and the length by member `m`: `size` counts characters in a
`Glib::ustring`, `bytes` is not a member of `std::string`. -/
def Lib.decodeBy (L : Lib T D) (s : Option (CV T D)) (m : Str) : Option (PyV T D) :=
  match s with
  | some (.string b) => if m = ").size()".toList then L.decodeN b b.length else none
  | some (.ustring b) =>
    if m = ").bytes()".toList then L.decodeN b b.length
    else if m = ").size()".toList then L.decodeN b (charCount b) else none
  | _ => none

/-- `Py_BuildValue`, one unit. -/
def Lib.out (L : Lib T D) (fmt : Str) (vs : List Tmpl) (ρ : Loc (CV T D)) : Option (PyV T D) :=
  if fmt = "s#".toList then
    match vs with
    | [[.text a, .var i, .text b], [.text c, .var j, .text m]] =>
      if a = "(".toList ∧ b = ").c_str()".toList ∧ c = "(".toList ∧ j = i then L.decodeBy (ρ i) m else none
    | [[.text a, .text s, .var i, .text b], [.text c, .text s', .var j, .text m]] =>
      if a = "(".toList ∧ s = "*".toList ∧ b = ").c_str()".toList ∧ c = "(".toList ∧ s' = "*".toList ∧ j = i then
        L.decodeBy (derefOf (ρ i)) m else none
    | _ => none
  else if fmt = "N".toList then
    match vs with
    | [[.var i]] => match ρ i with
      | some (.obj (some x)) => some x
      | _ => none
    | [[.text a, .var i, .text b]] =>
      if a = "PyBool_FromLong(".toList ∧ b = ")".toList then
        match ρ i with
        | some (.bool x) => some (.bool x)
        | _ => none
      else none
    | _ => none
  else none

/-- The return value: `retval` is the name of the variable holding it. -/
def Lib.ret (L : Lib T D) (ops : List ROp) (o : Str × List Tmpl) (x : CV T D) : Option (PyV T D) :=
  if o.1 = "s#".toList then
    match o.2 with
    | [[.text a, .text v, .text b], [.text c, .text v', .text m]] =>
      if a = "(".toList ∧ v = "retval".toList ∧ b = ").c_str()".toList ∧ c = "(".toList ∧ v' = v then
        L.decodeBy (some x) m else none
    | _ => none
  else if o.1 = "s".toList then
    match o.2, x with
    | [[.text v]], .chars (some b) => if v = "retval".toList then (L.codec.dec (cut b)).map .str else none
    | [[.text v]], .chars none => if v = "retval".toList then some .none else none
    | _, _ => none
  else if o.1 = "c".toList then
    match o.2, x with
    | [[.text a, .text v]], .char c => if a = "(int) ".toList ∧ v = "retval".toList then some (.bytes [c]) else none
    | _, _ => none
  else if o.1 = "N".toList ∧ ops = [] then
    match o.2, x with
    | [[.text v]], .obj (some y) => if v = "retval".toList then some y else none
    | [[.text v]], .bool b => if v = "PyBool_FromLong(retval)".toList then some (.bool b) else none
    | _, _ => none
  else if o.1 = "N".toList then
    match ops, o.2, x with
    | [.write [.var p, .text nw, .text _, .text cm, .text _, .text cl], .write [.var p', .text ob, .text _, .text cl']],
        [[.var q]], .container k =>
      if nw = " = PyObject_New(".toList ∧ cm = ", &".toList ∧ cl = ");".toList ∧ p' = p ∧ q = p ∧
          ob = "->obj = new ".toList ∧ cl' = "(retval);".toList then some (.wrapper k) else none
    | _, _, _ => none
  else if o.1 = "O".toList then
    match o.2, x with
    | [[.text v]], .obj (some y) => if v = "retval".toList then some y else none
    | _, _ => none
  else none

/-- The meaning of the texts. -/
def Lib.sem (L : Lib T D) : Sem (CV T D) (PyV T D) where
  conv := L.conv
  expr := L.expr
  run := L.run
  post := L.post
  eval := L.eval
  out := L.out
  ret := L.ret

end Verif.Wrap
