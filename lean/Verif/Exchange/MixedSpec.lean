import Verif.Exchange.MixedModel

/-!
# C103: specification
-/
namespace Verif.Exchange
open Verif Verif.Flow Verif.Params Verif.DeclScope Verif.Wrap

variable {T D N : Type}

/-- The C++ type a handler is for. -/
def VK.ty : VK → VT
  | .bool | .boolRef _ _ => .bool
  | .boolPtr _ _ => .boolPtr
  | .cont c | .contRef c _ _ => .cont c
  | .obj _ => .obj
  | .num f => .num f
  | .numPtr f _ _ => .numPtr f

def VR.ty : VR → VT
  | .bool => .bool
  | .cont c _ => .cont c
  | .obj _ => .obj
  | .num f => .num f

/-- The override gets an argument for the parameter: input parameters, and containers by reference always. -/
def VK.passes : VK → Bool
  | .boolPtr i _ | .boolRef i _ | .numPtr _ i _ => i
  | _ => true

def VK.isIn : VK → Bool
  | .boolPtr i _ | .boolRef i _ | .numPtr _ i _ | .contRef _ i _ => i
  | _ => true

def VK.isOut : VK → Bool
  | .boolPtr _ o | .boolRef _ o | .numPtr _ _ o | .contRef _ _ o => o
  | _ => false

/-- Values of a type. -/
def VT.has : VT → CVal T D N → Prop
  | .bool, .bool _ | .boolPtr, .bool _ | .cont _, .cont _ | .obj, .obj _ | .num _, .num _ | .numPtr _, .num _ => True
  | _, _ => False

/-- Format units of numbers. -/
def IsNum (f : Str) : Prop := f ≠ [] ∧ f ≠ "N".toList ∧ f ≠ "O".toList ∧ f ≠ "O&".toList

def VK.Good : VK → Prop
  | .num f | .numPtr f _ _ => IsNum f
  | _ => True

def VR.Good : VR → Prop
  | .num f => IsNum f
  | _ => True

/-- An argument of the virtual method. -/
structure XArg (T D N : Type) where
  name : Str
  kind : K
  cell : XC T D N

/-- The argument has the type of the parameter and nothing has been done with it yet. -/
def XArg.Good (a : XArg T D N) : Prop :=
  match a.kind, a.cell with
  | .s k, .s c => Arg.Good ⟨a.name, k, c⟩
  | .v k, .v c => k.Good ∧ c.ty = k.ty ∧ k.ty.has c.val ∧ c.taken = 0 ∧ c.added = 0
  | _, _ => False

def K.passes : K → Bool
  | .s k => k.isIn
  | .v k => k.passes
def K.isIn : K → Bool
  | .s k => k.isIn
  | .v k => k.isIn
def K.isOut : K → Bool
  | .s k => k.isOut
  | .v k => k.isOut

/-- What Python sees of an argument, if it can be expressed: a bool, a new wrapper with a copy of the container, the object
itself, a number.  For a container that is output only: a new wrapper of an empty container. -/
def VK.input (L : XLib T D N) : VK → CVal T D N → Option (PyV T D)
  | .bool, .bool b | .boolPtr _ _, .bool b | .boolRef _ _, .bool b => some (.bool b)
  | .cont _, .cont k => some (.wrapper k)
  | .contRef c i _, .cont k => some (.wrapper (if i then k else L.empty c.full))
  | .obj _, .obj o => o
  | .num f, .num n | .numPtr f _ _, .num n => some (L.numOut f n)
  | _, _ => none

def XArg.input (L : XLib T D N) (a : XArg T D N) : Option (PyV T D) :=
  match a.kind, a.cell with
  | .s k, .s c => Arg.input L.lib.codec ⟨a.name, k, c⟩
  | .v k, .v c => k.input L c.val
  | _, _ => none

/-- The arguments for Python, in order. -/
def inputsX (L : XLib T D N) : List (XArg T D N) → Option (List (PyV T D))
  | [] => some []
  | a :: as => if a.kind.passes then (a.input L).bind (fun x => (inputsX L as).map (x :: ·)) else inputsX L as

/-- An argument after the call of the override: a reference handed over was used up. -/
def VK.sent (k : VK) (c : VCell T D N) : VCell T D N :=
  match k, c.val with
  | .obj true, .obj (some _) => { c with taken := 1 }
  | _, _ => c

def XArg.sent (a : XArg T D N) : XC T D N :=
  match a.kind, a.cell with
  | .v k, .v c => .v (k.sent c)
  | _, c => c

/-- An argument nothing is stored into, after a successful call: strings handed over were deleted. -/
def XArg.result (a : XArg T D N) : XC T D N :=
  match a.kind, a.cell with
  | .s k, .s c => .s (Arg.result [] ⟨a.name, k, c⟩)
  | .v k, .v c => .v (k.sent c)
  | _, c => c

/-- What becomes of the object Python returned: accepted or not, what it is stored as, whether an exception is left set,
and memory left behind. -/
structure Took (α : Type) where
  ok : Bool
  val : α
  pending : Bool := false
  leaked : List Bytes := []

/-- Taking a value for an output parameter. -/
def VK.took (L : XLib T D N) (x : PyV T D) : VK → CVal T D N → Took (CVal T D N)
  | .boolPtr _ _, _ | .boolRef _ _, _ => { ok := true, val := .bool (L.lib.isTrueC x), pending := (L.lib.truth x).isNone }
  | .contRef c _ _, .cont k => { ok := (L.conv c.conv x k).1, val := .cont (L.conv c.conv x k).2 }
  | .numPtr f _ _, v =>
    match L.numIn f x with
    | some n => { ok := true, val := .num n }
    | none => { ok := false, val := v }
  | _, v => { ok := false, val := v }

def XArg.took (L : XLib T D N) (x : PyV T D) (a : XArg T D N) : Took (XC T D N) :=
  match a.kind, a.cell with
  | .s k, .s c =>
    match k.take L.lib.codec x with
    | some b => { ok := true, val := .s (Arg.result b ⟨a.name, k, c⟩), leaked := if k.isGlib then [b] else [] }
    | none => { ok := false, val := .s c }
  | .v k, .v c =>
    { ok := (k.took L x c.val).ok, val := .v { c with val := (k.took L x c.val).val }, pending := (k.took L x c.val).pending }
  | _, c => { ok := false, val := c }

/-- Taking the return value.  A `char *` and a `PyObject *` that is not for the caller to own point to what is gone. -/
def R.took (L : XLib T D N) (x : PyV T D) : R → Took (BackX T D N)
  | .s k =>
    match k.take L.lib.codec x with
    | some b =>
      { ok := true, val := if k = .void then .nothing else if k = .cstr then .dangling else .bytes b
        leaked := if k = .glib then [b] else [] }
    | none => { ok := false, val := .nothing }
  | .v .bool => { ok := true, val := .value (.bool (L.lib.isTrueC x)), pending := (L.lib.truth x).isNone }
  | .v (.cont c _) =>
    { ok := (L.conv c.conv x (L.empty c.full)).1, val := .value (.cont (L.conv c.conv x (L.empty c.full)).2) }
  | .v (.obj owned) => { ok := true, val := if owned then .value (.obj (some x)) else .dangling }
  | .v (.num f) =>
    match L.numIn f x with
    | some n => { ok := true, val := .value (.num n) }
    | none => { ok := false, val := .nothing }

/-- The statement that ends a call in which no value came from Python. -/
def giveUpX (p : Proxy) : BackX T D N :=
  if p.isVoid then .nothing
  else if p.noParent = false then .other ("return ".toList ++ cppCall p.cls p.method p.params)
  else if p.trivialRet then .other p.errorReturn else .other fatalText

/-- A call that came to nothing. -/
def failedX (p : Proxy) (given : Option (List (PyV T D))) (cells : List (XC T D N)) (pending : Bool) : FinX T D N :=
  { given, cells, parent := !p.isVoid && !p.noParent, leaked := [], pending, back := giveUpX p }

/-- What happens after the override returned `x`. -/
def returnedX (L : XLib T D N) (p : Proxy) (args : List (XArg T D N)) (r : R) (xs : List (PyV T D)) (x : PyV T D) :
    FinX T D N :=
  match args.filter (fun a => a.kind.isOut), decide (r = .s .void) with
  | [], true =>
    if isNone x then
      { given := some xs, cells := args.map (·.result), parent := false, leaked := [], pending := false, back := .nothing }
    else failedX p (some xs) (args.map (·.sent)) true
  | [], false =>
    if (r.took L x).ok then
      { given := some xs, cells := args.map (·.result), parent := false, leaked := (r.took L x).leaked
        pending := (r.took L x).pending, back := (r.took L x).val }
    else failedX p (some xs) (args.map (·.sent)) false
  | [a], true =>
    if (a.took L x).ok then
      { given := some xs, cells := args.map (fun c => if c.kind.isOut then (c.took L x).val else c.result), parent := false
        leaked := (a.took L x).leaked, pending := (a.took L x).pending, back := .nothing }
    else failedX p (some xs) (args.map (fun c => if c.kind.isOut then (c.took L x).val else c.sent)) false
  | _, _ => failedX p (some xs) (args.map (·.sent)) false

/-- The whole call. -/
def calledX (L : XLib T D N) (p : Proxy) (args : List (XArg T D N)) (r : R)
    (f : List (PyV T D) → Option (PyV T D)) : FinX T D N :=
  match inputsX L args with
  | none => failedX p none (args.map (·.sent)) false
  | some xs =>
    match f xs with
    | none => failedX p (some xs) (args.map (·.sent)) false
    | some x => returnedX L p args r xs x

/-- The return variable before it is assigned: containers are empty. -/
def R.cell (L : XLib T D N) : R → XC T D N
  | .s k => .s { ty := k.ty }
  | .v (.cont c t) => .v { ty := VR.ty (.cont c t), val := .cont (L.empty c.full) }
  | .v k => .v { ty := k.ty, val := .unset }

def mkX (d : RevD) : XC T D N → X T D N
  | .s c => .s { d, cell := c }
  | .v c => .v { d, cell := c }

def XArg.start (a : XArg T D N) : X T D N := mkX (a.kind.desc a.name) a.cell

/-- A method with the given handlers, called with the given arguments. -/
def startX (L : XLib T D N) (args : List (XArg T D N)) (r : R) : MX T D N :=
  { params := args.map (·.start), ret := mkX r.desc (r.cell L) }

/-- Handlers and proxy agree on the return type. -/
structure FitsX (p : Proxy) (r : R) : Prop where
  void : p.isVoid = decide (r = .s .void)
  error : p.isVoid = true → p.errorReturn = "return;".toList
  error' : p.errorReturn ≠ "return retval;".toList ∧ (p.isVoid = false → p.errorReturn ≠ "return;".toList)

end Verif.Exchange
