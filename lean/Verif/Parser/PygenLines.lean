import Verif.Parser.PygenProps

/-!
# C85: the calls written into a script are read back as the calls they stand for
-/
namespace Verif.Pygen
open Verif

/-! ## Values and how they are written -/

/-- The values that occur as keyword arguments. -/
inductive PyVal where
  | none
  | bool (b : Bool)
  | int (i : Int)
  | str (s : Str)
  | strs (l : List Str)
  /-- a class or exception, by its full name -/
  | ref (full : Str)
  /-- a list of those -/
  | refs (l : List Str)
  /-- memory policies: the class, positional and keyword arguments (text or `None`) -/
  | policy (cls : Str) (args : List (Option Str × Option Str))
  deriving DecidableEq, Repr

def comma : Str := ", ".toList

/-- `repr` of text or `None`. -/
def reprOpt (pr : Char → Bool) : Option Str → Str
  | some s => reprStr pr s
  | none => "None".toList

/-- `'root_module[%r]' % full_name`. -/
def refText (pr : Char → Bool) (f : Str) : Str := "root_module[".toList ++ reprStr pr f ++ "]".toList

/-- `repr` of a value (classes: cppclass.py:814-815; policies: cppclass.py:191-193, 218-220, 237-238, where the
arguments are given as the format strings have them). -/
def reprVal (pr : Char → Bool) : PyVal → Str
  | .none => "None".toList
  | .bool true => "True".toList
  | .bool false => "False".toList
  | .int i => reprInt i
  | .str s => reprStr pr s
  | .strs l => "[".toList ++ pyJoin comma (l.map (reprStr pr)) ++ "]".toList
  | .ref f => "<pybindgen.CppClass ".toList ++ reprStr pr f ++ ">".toList
  | .refs l => "[".toList ++ pyJoin comma (l.map (fun f => "<pybindgen.CppClass ".toList ++ reprStr pr f ++ ">".toList)) ++
      "]".toList
  | .policy c args => c ++ "(".toList ++ pyJoin comma (args.map (fun a => keyText a.1 ++ reprOpt pr a.2)) ++ ")".toList

abbrev Kw := List (Str × PyVal)

/-- One keyword argument, castxmlparser.py:247-256. -/
def kwText (pr : Char → Bool) (k : Str) : PyVal → Str
  | .ref f => k ++ "=root_module[".toList ++ reprStr pr f ++ "]".toList
  | .refs l =>
    if k = "throw".toList then "throw=[".toList ++ pyJoin comma (l.map (refText pr)) ++ "]".toList
    else if k = "parent".toList then "parent=[".toList ++ pyJoin comma (l.map (refText pr)) ++ "]".toList
    else k ++ "=".toList ++ reprVal pr (.refs l)
  | v => k ++ "=".toList ++ reprVal pr v

/-- Python's order of strings. -/
def strLe : Str → Str → Bool
  | [], _ => true
  | _ :: _, [] => false
  | a :: s, b :: t => a.toNat < b.toNat || (a = b && strLe s t)

/-- `sorted(kwargs.items(), key=itemgetter(0))`. -/
def sortKw (kw : Kw) : Kw := kw.mergeSort (fun a b => strLe a.1 b.1)

/-- `_pygen_kwargs`, lines 245-257. -/
def pygenKwargs (pr : Char → Bool) (kw : Kw) : List Str := (sortKw kw).map (fun p => kwText pr p.1 p.2)

/-- What `lookup_return` and `lookup_parameter` return: positional arguments and keyword arguments. -/
structure Spec where
  args : List Str
  kw : Kw
  deriving DecidableEq, Repr

/-- `_pygen_args_kwargs`, lines 259-260. -/
def pygenArgs (pr : Char → Bool) (s : Spec) : Str := pyJoin comma (s.args.map (reprStr pr) ++ pygenKwargs pr s.kw)

/-- `_pygen_retval`, lines 268-271. -/
def pygenRetval (pr : Char → Bool) (s : Spec) : Str :=
  match s.args, s.kw with
  | [a], [] => reprStr pr a
  | _, _ => "retval(".toList ++ pygenArgs pr s ++ ")".toList

/-- `_pygen_param`, lines 273-274. -/
def pygenParam (pr : Char → Bool) (s : Spec) : Str := "param(".toList ++ pygenArgs pr s ++ ")".toList

/-- The list of parameters, lines 1987, 2073 and 2349. -/
def pygenParams (pr : Char → Bool) (l : List Spec) : Str := "[".toList ++ pyJoin comma (l.map (pygenParam pr)) ++ "]".toList

/-- `"\n" + n*' '`. -/
def pad (n : Nat) : Str := '\n' :: List.replicate n ' '

/-- `kwargs_repr[0] = '\n' + n*' ' + kwargs_repr[0]` -/
def padFirst (n : Nat) : List Str → List Str
  | [] => []
  | x :: l => (pad n ++ x) :: l

/-! ## Lines of a script -/

/-- The calls a script consists of. -/
inductive Line where
  /-- `module.add_function(…)` (false) or `cls.add_method(…)` (true), lines 2411-2418 and 1991-1999 -/
  | func (method : Bool) (name : Str) (ret : Spec) (ps : List Spec) (kw : Kw)
  /-- `root_module[…].add_function_as_method(…)`, lines 2360-2363 -/
  | asMethod (cls name : Str) (ret : Spec) (ps : List Spec) (custom : Str)
  /-- `root_module[…].add_function_as_constructor(…)`, lines 2378-2380 -/
  | asCtor (cls name : Str) (ret : Spec) (ps : List Spec)
  /-- `cls.add_constructor(…)`, lines 2090-2094 and 2179 -/
  | ctor (ps : List Spec) (kw : Kw)
  /-- `cls.add_copy_constructor()`, line 2188 -/
  | copyCtor
  /-- `cls.add_static_attribute(…)` (true), `cls.add_instance_attribute(…)`, lines 2146-2153 -/
  | attr (static : Bool) (name : Str) (ret : Spec) (const : Bool)
  /-- `module.add_class(…)`, `module.add_exception(…)` (true), lines 1376-1381 -/
  | type (exc : Bool) (name : Str) (kw : Kw)
  /-- `module.add_enum(…)`, lines 1118-1128 -/
  | enum (name : Str) (values : List Str) (outer : Option Str) (imp : Option (Option Str))
  /-- `root_module[…].implicitly_converts_to(root_module[…])`, lines 1453-1454 -/
  | conv (cls other : Str)
  /-- `module.add_typedef(root_module[…], …)`, lines 1534-1535 -/
  | typedef (cls name : Str)
  /-- `typehandlers.add_type_alias(…, …)`, line 1481 -/
  | alias (old new : Str)
  /-- `module.add_container(…)`; maps have a key type, lines 1682-1689 -/
  | container (name : Str) (key : Option Spec) (elem : Spec) (kw : Kw)
  /-- `cls.add_binary_numeric_operator(…)`, lines 1798-1799 -/
  | binop (op ret left : Str) (right : Spec)
  /-- `cls.add_inplace_numeric_operator(…)`, line 1808 -/
  | inplace (op : Str) (right : Spec)
  /-- `cls.add_unary_numeric_operator(…)`, line 1814 -/
  | unop (op : Str)
  /-- `cls.add_binary_comparison_operator(…)`, line 1749 -/
  | cmp (op : Str)
  /-- `cls.add_output_stream_operator()`, line 1740 -/
  | stream
  deriving DecidableEq, Repr

def funcPad : Bool → Nat
  | true => 15
  | false => 20

def boolText (b : Bool) : Str := if b then "True".toList else "False".toList

/-- The element type of a container, or `(key, element)`, lines 1682-1686. -/
def contentText (pr : Char → Bool) (key : Option Spec) (elem : Spec) : Str :=
  match key with
  | some k => "(".toList ++ pygenRetval pr k ++ ", ".toList ++ pygenRetval pr elem ++ ")".toList
  | none => pygenRetval pr elem

/-- The text of a line. -/
def Line.text (pr : Char → Bool) : Line → Str
  | .func m name ret ps kw =>
    (if m then "cls.add_method(".toList else "module.add_function(".toList) ++
      pyJoin comma ([reprStr pr name, pad (funcPad m) ++ pygenRetval pr ret, pad (funcPad m) ++ pygenParams pr ps] ++
        padFirst (funcPad m) (pygenKwargs pr kw)) ++ ")".toList
  | .asMethod c name ret ps custom =>
    "root_module[".toList ++ reprStr pr c ++ "].add_function_as_method(".toList ++
      pyJoin comma [reprStr pr name, pygenRetval pr ret, pygenParams pr ps] ++ ", custom_name=".toList ++
      reprStr pr custom ++ ")".toList
  | .asCtor c name ret ps =>
    "root_module[".toList ++ reprStr pr c ++ "].add_function_as_constructor(".toList ++
      pyJoin comma [reprStr pr name, pygenRetval pr ret, pygenParams pr ps] ++ ")".toList
  | .ctor ps kw =>
    "cls.add_constructor(".toList ++ pyJoin comma (pygenParams pr ps :: padFirst 20 (pygenKwargs pr kw)) ++ ")".toList
  | .copyCtor => "cls.add_copy_constructor()".toList
  | .attr st name ret const =>
    (if st then "cls.add_static_attribute(".toList else "cls.add_instance_attribute(".toList) ++ reprStr pr name ++
      comma ++ pygenRetval pr ret ++ ", is_const=".toList ++ boolText const ++ ")".toList
  | .type exc name kw =>
    (if exc then "module.add_exception(".toList else "module.add_class(".toList) ++
      pyJoin comma (reprStr pr name :: pygenKwargs pr kw) ++ ")".toList
  | .enum name values outer imp =>
    "module.add_enum(".toList ++
      pyJoin comma ([reprStr pr name, "[".toList ++ pyJoin comma (values.map (reprStr pr)) ++ "]".toList] ++
        (match outer with
          | some o => ["outer_class=root_module[".toList ++ reprStr pr o ++ "]".toList]
          | none => []) ++
        (match imp with
          | some i => ["import_from_module=".toList ++ reprOpt pr i]
          | none => [])) ++ ")".toList
  | .conv c o =>
    "root_module[".toList ++ reprStr pr c ++ "].implicitly_converts_to(root_module[".toList ++ reprStr pr o ++ "])".toList
  | .typedef c n => "module.add_typedef(root_module[".toList ++ reprStr pr c ++ "], ".toList ++ reprStr pr n ++ ")".toList
  | .alias a b => "typehandlers.add_type_alias(".toList ++ reprStr pr a ++ ", ".toList ++ reprStr pr b ++ ")".toList
  | .container name key elem kw =>
    "module.add_container(".toList ++
      pyJoin comma ([reprStr pr name, contentText pr key elem] ++ pygenKwargs pr kw) ++ ")".toList
  | .binop op ret l r =>
    "cls.add_binary_numeric_operator(".toList ++ reprStr pr op ++ ", root_module[".toList ++ reprStr pr ret ++
      "], root_module[".toList ++ reprStr pr l ++ "], ".toList ++ pygenParam pr r ++ ")".toList
  | .inplace op r =>
    "cls.add_inplace_numeric_operator(".toList ++ reprStr pr op ++ ", ".toList ++ pygenParam pr r ++ ")".toList
  | .unop op => "cls.add_unary_numeric_operator(".toList ++ reprStr pr op ++ ")".toList
  | .cmp op => "cls.add_binary_comparison_operator(".toList ++ reprStr pr op ++ ")".toList
  | .stream => "cls.add_output_stream_operator()".toList

/-! ## What Python makes of a line -/

/-- Positional arguments and keyword arguments of a call. -/
def Es.items : Es → List (Option Str × E)
  | .nil => []
  | .cons _ k e rest => (k, e) :: rest.items

def rootName : Str := "root_module".toList

/-- A class found in the module. -/
def evalRef : E → Option Str
  | .index f s => if f = rootName then some s else none
  | _ => none

def evalStr : E → Option Str
  | .str s => some s
  | _ => none

/-- `None` or text. -/
def evalOpt : E → Option (Option Str)
  | .str s => some (some s)
  | .name n => if n = "None".toList then some none else none
  | _ => none

def allSome {α β : Type} (f : α → Option β) : List α → Option (List β)
  | [] => some []
  | a :: l => (f a).bind (fun b => (allSome f l).map (fun r => b :: r))

/-- The value of an expression. -/
def evalVal : E → Option PyVal
  | .name n =>
    if n = "None".toList then some .none
    else if n = "True".toList then some (.bool true)
    else if n = "False".toList then some (.bool false)
    else none
  | .int i => some (.int i)
  | .str s => some (.str s)
  | .index f s => if f = rootName then some (.ref s) else none
  | .list es =>
    match allSome (fun p => if p.1.isSome then none else evalStr p.2) es.items with
    | some l => some (.strs l)
    | none => (allSome (fun p => if p.1.isSome then none else evalRef p.2) es.items).map .refs
  | .call f es => (allSome (fun p => (evalOpt p.2).map (fun v => (p.1, v))) es.items).map (.policy f)
  | .tuple _ => none
  | .meth _ _ _ _ => none

/-- The keyword arguments among items; fails if there is a positional one. -/
def evalKw (l : List (Option Str × E)) : Option Kw :=
  allSome (fun p => p.1.bind (fun k => (evalVal p.2).map (fun v => (k, v)))) l

/-- The text arguments at the start, and the keyword arguments after them. -/
def evalArgs : List (Option Str × E) → Option Spec
  | (none, .str s) :: r => (evalArgs r).map (fun p => ⟨s :: p.args, p.kw⟩)
  | r => (evalKw r).map (fun kw => ⟨[], kw⟩)

/-- `param(…)` and `parse_param_spec` (utils.py:218-224, 236-247). -/
def evalParam : E → Option Spec
  | .call f es => if f = "param".toList then evalArgs es.items else none
  | _ => none

/-- `retval(…)` or just the type, and `parse_retval_spec` (utils.py:227-233, 250-264). -/
def evalRet : E → Option Spec
  | .str s => some ⟨[s], []⟩
  | .call f es => if f = "retval".toList then evalArgs es.items else none
  | _ => none

/-- The element type of a container, or a pair of key and element type. -/
def evalContent : E → Option (Option Spec × Spec)
  | .tuple es =>
    match es.items with
    | [(none, k), (none, e)] => (evalRet k).bind (fun k => (evalRet e).map (fun e => (some k, e)))
    | _ => none
  | e => (evalRet e).map (fun e => (none, e))

/-- A list of parameters. -/
def evalParams : E → Option (List Spec)
  | .list es => allSome (fun p => if p.1.isSome then none else evalParam p.2) es.items
  | _ => none

def evalStrs : E → Option (List Str)
  | .list es => allSome (fun p => if p.1.isSome then none else evalStr p.2) es.items
  | _ => none

/-- The arguments of `add_function`. -/
def evalFunc (l : List (Option Str × E)) : Option (Str × Spec × List Spec × Kw) :=
  match l with
  | (none, .str name) :: (none, r) :: (none, ps) :: kw =>
    (evalRet r).bind (fun r => (evalParams ps).bind (fun ps => (evalKw kw).map (fun kw => (name, r, ps, kw))))
  | _ => none

/-- `outer_class` and `import_from_module` of an enumeration. -/
def evalEnum (l : List (Option Str × E)) : Option (Option Str × Option (Option Str)) :=
  match l with
  | [] => some (none, none)
  | [(some k, e)] =>
    if k = "outer_class".toList then (evalRef e).map (fun o => (some o, none))
    else if k = "import_from_module".toList then (evalOpt e).map (fun i => (none, some i))
    else none
  | [(some k, e), (some k', e')] =>
    if k = "outer_class".toList ∧ k' = "import_from_module".toList then
      (evalRef e).bind (fun o => (evalOpt e').map (fun i => (some o, some i)))
    else none
  | _ => none

/-- Which call a line of a script makes. -/
def evalLine : E → Option Line
  | .call f es =>
    if f = "module.add_function".toList then
      (evalFunc es.items).map (fun (n, r, ps, kw) => .func false n r ps kw)
    else if f = "cls.add_method".toList then
      (evalFunc es.items).map (fun (n, r, ps, kw) => .func true n r ps kw)
    else if f = "cls.add_constructor".toList then
      match es.items with
      | (none, ps) :: kw => (evalParams ps).bind (fun ps => (evalKw kw).map (fun kw => .ctor ps kw))
      | _ => none
    else if f = "cls.add_copy_constructor".toList then (match es.items with | [] => some .copyCtor | _ => none)
    else if f = "cls.add_output_stream_operator".toList then (match es.items with | [] => some .stream | _ => none)
    else if f = "cls.add_static_attribute".toList ∨ f = "cls.add_instance_attribute".toList then
      match es.items with
      | [(none, .str n), (none, r), (some k, c)] =>
        if k = "is_const".toList then
          (evalRet r).bind (fun r => match evalVal c with
            | some (.bool c) => some (.attr (decide (f = "cls.add_static_attribute".toList)) n r c)
            | _ => none)
        else none
      | _ => none
    else if f = "module.add_class".toList ∨ f = "module.add_exception".toList then
      match es.items with
      | (none, .str n) :: kw => (evalKw kw).map (fun kw => .type (decide (f = "module.add_exception".toList)) n kw)
      | _ => none
    else if f = "module.add_enum".toList then
      match es.items with
      | (none, .str n) :: (none, vs) :: r =>
        (evalStrs vs).bind (fun vs => (evalEnum r).map (fun p => .enum n vs p.1 p.2))
      | _ => none
    else if f = "module.add_typedef".toList then
      match es.items with
      | [(none, c), (none, .str n)] => (evalRef c).map (fun c => .typedef c n)
      | _ => none
    else if f = "typehandlers.add_type_alias".toList then
      match es.items with
      | [(none, .str a), (none, .str b)] => some (.alias a b)
      | _ => none
    else if f = "module.add_container".toList then
      match es.items with
      | (none, .str n) :: (none, e) :: kw =>
        (evalContent e).bind (fun p => (evalKw kw).map (fun kw => .container n p.1 p.2 kw))
      | _ => none
    else if f = "cls.add_binary_numeric_operator".toList then
      match es.items with
      | [(none, .str op), (none, a), (none, b), (none, p)] =>
        (evalRef a).bind (fun a => (evalRef b).bind (fun b => (evalParam p).map (fun p => .binop op a b p)))
      | _ => none
    else if f = "cls.add_inplace_numeric_operator".toList then
      match es.items with
      | [(none, .str op), (none, p)] => (evalParam p).map (fun p => .inplace op p)
      | _ => none
    else if f = "cls.add_unary_numeric_operator".toList then
      match es.items with
      | [(none, .str op)] => some (.unop op)
      | _ => none
    else if f = "cls.add_binary_comparison_operator".toList then
      match es.items with
      | [(none, .str op)] => some (.cmp op)
      | _ => none
    else none
  | .meth o c f es =>
    if o = rootName then
      if f = "add_function_as_method".toList then
        match evalFunc es.items with
        | some (n, r, ps, [(k, .str v)]) => if k = "custom_name".toList then some (.asMethod c n r ps v) else none
        | _ => none
      else if f = "add_function_as_constructor".toList then
        match evalFunc es.items with
        | some (n, r, ps, []) => some (.asCtor c n r ps)
        | _ => none
      else if f = "implicitly_converts_to".toList then
        match es.items with
        | [(none, x)] => (evalRef x).map (fun x => .conv c x)
        | _ => none
      else none
    else none
  | _ => none

/-- Reading a line. -/
def readLine (s : Str) : Option Line :=
  match readE (2 * s.length + 1) s with
  | some (e, []) => evalLine e
  | _ => none

end Verif.Pygen
