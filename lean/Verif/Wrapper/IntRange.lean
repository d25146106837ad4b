import Verif.Basic

/-!
# Integer type handlers: which Python integers get through, and as what

pybindgen/typehandlers/inttype.py.  The handlers emit three things that decide what reaches the
other side: a `PyArg_ParseTuple` format unit with the variable it stores to, an error check on that
variable, and a use of the variable as the C type (by value, by reference or by assignment).

CPython's format units are modelled after its documentation (Doc/c-api/arg.rst) on an LP64
platform: `b` rejects values outside 0..255, `h`, `i`, `l`, `L` reject values outside their signed
C type, `B`, `H`, `I`, `k`, `K` take the value modulo the size of their unsigned C type.  C's
conversion to a narrower integer type is modelled as reduction modulo its size (two's complement).
-/
namespace Verif.IntRange

/-- A C integer type: signedness and width in bits. -/
structure CInt where
  signed : Bool
  bits : Nat
  deriving DecidableEq, Repr

/-- Smallest and largest value of the type. -/
def CInt.lo (t : CInt) : Int := if t.signed then -(2 ^ (t.bits - 1)) else 0
def CInt.hi (t : CInt) : Int := if t.signed then 2 ^ (t.bits - 1) - 1 else 2 ^ t.bits - 1

/-- C conversion of an integer to the type. -/
def CInt.wrap (t : CInt) (n : Int) : Int :=
  if t.signed then (n + 2 ^ (t.bits - 1)) % 2 ^ t.bits - 2 ^ (t.bits - 1) else n % 2 ^ t.bits

/-- `PyArg_ParseTuple` on one integer argument; `none` is an exception.  The stored value is a
value of the C type of the format unit. -/
inductive Fmt where
  | b | B | h | H | i | I | l | k | L | K
  deriving DecidableEq, Repr

/-- The C type a format unit stores. -/
def Fmt.ctype : Fmt → CInt
  | .b => ⟨false, 8⟩ | .B => ⟨false, 8⟩
  | .h => ⟨true, 16⟩ | .H => ⟨false, 16⟩
  | .i => ⟨true, 32⟩ | .I => ⟨false, 32⟩
  | .l => ⟨true, 64⟩ | .k => ⟨false, 64⟩
  | .L => ⟨true, 64⟩ | .K => ⟨false, 64⟩

/-- Does the unit check the range (or mask)? -/
def Fmt.checked : Fmt → Bool
  | .b | .h | .i | .l | .L => true
  | _ => false

def Fmt.parse (f : Fmt) (n : Int) : Option Int :=
  if f.checked then (if f.ctype.lo ≤ n ∧ n ≤ f.ctype.hi then some n else none)
  else some (f.ctype.wrap n)

/-- The conditions of the error checks in inttype.py. -/
inductive Cond where
  /-- `x > k` -/
  | gt (k : Int)
  /-- `x > k || x < l` -/
  | gtOrLt (k l : Int)
  deriving DecidableEq, Repr

def Cond.holds (x : Int) : Cond → Bool
  | .gt k => decide (x > k)
  | .gtOrLt k l => decide (x > k) || decide (x < l)

/-- A handler: format unit, type of the variable parsed into, error check, type of the C++ side. -/
structure Handler where
  fmt : Fmt
  var : CInt
  check : Option Cond
  target : CInt
  deriving DecidableEq, Repr

/-- What the C++ side receives for a Python integer; `none` when the wrapper raises. -/
def Handler.receive (h : Handler) (n : Int) : Option Int :=
  match h.fmt.parse n with
  | none => none
  | some v =>
    let x := h.var.wrap v
    match h.check with
    | some c => if c.holds x then none else some (h.target.wrap x)
    | none => some (h.target.wrap x)

def s8 : CInt := ⟨true, 8⟩
def u8 : CInt := ⟨false, 8⟩
def s16 : CInt := ⟨true, 16⟩
def u16 : CInt := ⟨false, 16⟩
def s32 : CInt := ⟨true, 32⟩
def u32 : CInt := ⟨false, 32⟩
def s64 : CInt := ⟨true, 64⟩
def u64 : CInt := ⟨false, 64⟩

/-! ## The handlers -/

/-- `Int8Param`, inttype.py:431-437. -/
def int8Param : Handler := ⟨.i, s32, some (.gt 0x7f), s8⟩
/-- `UInt8Param`, inttype.py:374-380. -/
def uint8Param : Handler := ⟨.i, s32, some (.gt 0xff), u8⟩
/-- `Int16Param`, inttype.py:335-341. -/
def int16Param : Handler := ⟨.i, s32, some (.gt 0x7fff), s16⟩
/-- `UInt16Param`, inttype.py:296-302. -/
def uint16Param : Handler := ⟨.i, s32, some (.gt 0xffff), u16⟩
/-- `Int8Return.convert_python_to_c`, inttype.py:466-472. -/
def int8Return : Handler := ⟨.i, s32, some (.gtOrLt 128 (-127)), s8⟩
/-- `UInt8Return.convert_python_to_c`, inttype.py:411-417. -/
def uint8Return : Handler := ⟨.i, s32, some (.gt 0xff), u8⟩
/-- `Int16Return.convert_python_to_c`, inttype.py:275-281. -/
def int16Return : Handler := ⟨.i, s32, some (.gtOrLt 32767 (-32768)), s16⟩
/-- `UInt16Return.convert_python_to_c`, inttype.py:256-262. -/
def uint16Return : Handler := ⟨.i, s32, some (.gt 0xffff), u16⟩
/-- `Int8RefParam` and `Int8PtrParam`, inttype.py:451-457 and 700-706. -/
def int8Ref : Handler := ⟨.b, s8, none, s8⟩
/-- `UInt8RefParam` and `UInt8PtrParam`, inttype.py:394-400 and 729-735. -/
def uint8Ref : Handler := ⟨.B, u8, none, u8⟩
/-- `Int16RefParam`, inttype.py:356-362. -/
def int16Ref : Handler := ⟨.h, s16, none, s16⟩
/-- `UInt16RefParam` and `UnsignedInt16PtrParam`, inttype.py:316-322 and 757-763. -/
def uint16Ref : Handler := ⟨.H, u16, none, u16⟩
/-- `IntParam`, `IntRefParam`, `IntPtrParam`, `IntReturn`, inttype.py:22-26, 217-224, 196-201,
122-123. -/
def intAll : Handler := ⟨.i, s32, none, s32⟩
/-- `UnsignedIntParam`, `UnsignedIntRefParam`, `UnsignedIntPtrParam` (not an array),
`UnsignedIntReturn`, inttype.py:38-42, 238-245, 66-72, 136-137. -/
def uintAll : Handler := ⟨.I, u32, none, u32⟩
/-- `LongParam`, `LongRefParam`, `LongReturn`, inttype.py:571-575, 592-593. -/
def longAll : Handler := ⟨.l, s64, none, s64⟩
/-- `UnsignedLongParam`, `UnsignedLongRefParam`, `UnsignedLongReturn`, inttype.py:532-536, 553-554. -/
def ulongAll : Handler := ⟨.k, u64, none, u64⟩
/-- `LongLongParam`, `LongLongRefParam`, `LongLongReturn`, inttype.py:650-654, 672-673. -/
def longlongAll : Handler := ⟨.L, s64, none, s64⟩
/-- `UnsignedLongLongParam`, its reference, its return, `SizeTParam`, `SizeTReturn`,
inttype.py:492-496, 513-514, 606-612, 630-634. -/
def ulonglongAll : Handler := ⟨.K, u64, none, u64⟩

/-! ## The specification -/

/-- The property: a Python integer is accepted exactly when the C type can represent it, and the
C++ side gets that very integer. -/
def Exact (h : Handler) : Prop :=
  ∀ n : Int, h.receive n = if h.target.lo ≤ n ∧ n ≤ h.target.hi then some n else none

/-- Nothing is received but the integer given. -/
def Faithful (h : Handler) : Prop := ∀ n m, h.receive n = some m → m = n

/-- Every representable integer can be given. -/
def Complete (h : Handler) : Prop :=
  ∀ n, h.target.lo ≤ n → n ≤ h.target.hi → h.receive n = some n

end Verif.IntRange
