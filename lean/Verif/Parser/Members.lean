import Verif.Parser.Lookup

/-!
# Scanning members and functions

`_scan_class_operators` (castxmlparser.py:1727-1837), `_scan_class_methods` (1840-2188) and the functions of a
namespace (2261-2424): what is registered in memory, what is written into the script, and what is warned about.  There
is a script for every declaration; scan hooks and log messages are left out.
-/
namespace Verif.Scan
open Verif Verif.Pygen
open Verif.Annot (ODict)

/-! ## Declarations -/

/-- An argument: `type` is the normalized name of the type that is looked up (for a method, lines 1930-1939, the
type behind a typedef of the scanned namespace). -/
structure ArgDecl where
  type : Str
  name : Str
  default : Option Str := none
  pointer : Bool := false
  deriving DecidableEq, Repr

inductive Virt where
  | no | yes | pure
  deriving DecidableEq, Repr

structure MethodDecl where
  ret : Str
  args : List ArgDecl
  virt : Virt := .no
  access : Str := "public".toList
  isConst : Bool := false
  isStatic : Bool := false
  /-- the symbol, for an operator -/
  op : Option Str := none
  /-- the template arguments, if `check_template` finds that it is an instance of a template -/
  tmpl : Option (List Str) := none
  deprecated : Bool := false
  /-- exception specification: the text and the exception class registered for it -/
  throws : List (Str × Option Str) := []
  deriving DecidableEq, Repr

structure CtorDecl where
  args : List ArgDecl
  access : Str := "public".toList
  /-- the only argument is a reference to the class itself (lines 1861-1865) -/
  selfRef : Bool := false
  deprecated : Bool := false
  throws : List (Str × Option Str) := []
  deriving DecidableEq, Repr

structure VarDecl where
  type : Str
  access : Str := "public".toList
  isStatic : Bool := false
  isConst : Bool := false
  /-- the type has no name -/
  anonymousType : Bool := false
  deriving DecidableEq, Repr

inductive Kind where
  | method (d : MethodDecl)
  | ctor (d : CtorDecl)
  | var (d : VarDecl)
  /-- destructors, types, casting operators -/
  | other
  deriving DecidableEq, Repr

structure Member where
  name : Str
  kind : Kind
  globals : Anns := []
  params : ODict Anns := []
  deriving DecidableEq, Repr

/-- An argument of an operator. -/
structure OpArg where
  ostream : Bool := false
  /-- `is_convertible(cls, type)` -/
  convertible : Bool := false
  /-- the registered class -/
  cls : Option Str := none
  type : Str
  deriving DecidableEq, Repr

/-- An operator with all its arguments; for a member the first one is the class (line 1836). -/
structure OpDecl where
  symbol : Str
  isMember : Bool
  retOstream : Bool := false
  retCls : Option Str := none
  args : List OpArg
  params : ODict Anns := []
  /-- `dummy_global_annotations`, line 1778: nothing looks at them -/
  globals : Anns := []
  deriving DecidableEq, Repr

/-- A class: `trivialCtor`, `copyCtor` are what pygccxml says about implicit constructors (lines 2177 and 2183). -/
structure ClassDecl where
  members : List Member
  /-- free operators first, then public member operators (lines 1825-1837) -/
  operators : List OpDecl := []
  trivialCtor : Bool := false
  copyCtor : Bool := false
  deriving DecidableEq, Repr

/-- The wrapper object of a class. -/
structure Cls where
  allowSubclassing : Bool
  /-- names of the reference counting methods (lines 1867-1872) -/
  refMethods : List (Option Str) := []
  deriving DecidableEq, Repr

structure FunDecl where
  name : Str
  ret : Str
  args : List ArgDecl
  tmpl : Option (List Str) := none
  deprecated : Bool := false
  throws : List (Str × Option Str) := []
  globals : Anns := []
  params : ODict Anns := []
  deriving DecidableEq, Repr

/-! ## What happens -/

/-- A line of the script. -/
inductive Item where
  | line (l : Line)
  /-- `## …` -/
  | comment (s : Str)
  /-- line 2043 -/
  | cannot (name : Str)
  /-- line 2045 -/
  | helperOff
  deriving DecidableEq, Repr

/-- A change of the module in memory. -/
inductive Act where
  /-- the call of a line, with its types resolved -/
  | reg (l : Line)
  /-- a virtual method that cannot be wrapped is recorded (cppclass.py:1555-1569) -/
  | dummy (l : Line)
  | cannot
  | helperOff
  deriving DecidableEq, Repr

inductive Ev where
  | item (i : Item)
  | act (a : Act)
  | warn (w : Warn)
  deriving DecidableEq, Repr

/-- How making a type handler ends: `TypeLookupError` and `TypeConfigurationError` are handled by the parser. -/
inductive Res where
  | ok
  | caught
  | raised (e : PyErr)
  deriving DecidableEq, Repr

/-- How adding a method ends. -/
inductive AddRes where
  | ok
  | notSupported
  | raised (e : PyErr)
  deriving DecidableEq, Repr

/-- What is known about types and classes while scanning. -/
structure Env where
  num : Str → Option Int
  /-- the exception class for a name in an annotation -/
  exc : Str → Option Str
  /-- the class for a name in an annotation -/
  cls : Str → Option Str
  ret : Spec → Res
  par : Spec → Res
  add : Line → AddRes
  /-- the parameter handler is the one for references to the class itself (line 2116) -/
  selfParam : Spec → Bool

def warns (l : List Warn) : List Ev := l.map .warn

/-- `parameter_annotations.get(k, {})`. -/
def annsOf (params : ODict Anns) (k : Str) : Anns := (ODict.get params k).getD []

/-- The specifications of the arguments, lines 1928-1939 and 2068-2071. -/
def argSpecs (num : Str → Option Int) (params : ODict Anns) : List ArgDecl → PyRes (List Spec × List Warn)
  | [] => .ok ([], [])
  | a :: l =>
    (lookupParameter num a.type a.name (annsOf params a.name) a.default).bind (fun r =>
      (argSpecs num params l).map (fun q => (r.1 :: q.1, r.2 ++ q.2)))

/-- The exceptions found and the warnings for those that are not, `_get_calldef_exceptions`, lines 2191-2207. -/
def found (throws : List (Str × Option Str)) : List Str := throws.filterMap (·.2)
def notFound (throws : List (Str × Option Str)) : List Warn :=
  (throws.filter (fun p => p.2.isNone)).map (fun p => .exception p.1)

def setThrow (kw : Kw) (throws : List (Str × Option Str)) : Kw :=
  if found throws = [] then kw else ODict.set kw "throw".toList (.refs (found throws))

def setIf (b : Bool) (kw : Kw) (k : String) (v : PyVal) : Kw := if b then ODict.set kw k.toList v else kw

/-- `s.split('=>')`. -/
def splitArrow : Str → List Str
  | [] => [[]]
  | '=' :: '>' :: r => [] :: splitArrow r
  | c :: r =>
    match splitArrow r with
    | [] => [[c]]
    | x :: l => (c :: x) :: l

/-- The name for an instance of a template, lines 1949-1956 and 2391-2398. -/
def instanceName (targs : List Str) : List Str → PyRes (Option Str)
  | [] => .ok none
  | m :: l =>
    match splitArrow m with
    | [types, name] => if splitOn ',' types = targs then .ok (some name) else instanceName targs l
    | _ => .error .valueError

def instanceNames (globals : Anns) (targs : List Str) : PyRes (Option Str) :=
  match getNone globals "template_instance_names".toList with
  | some (c :: s) => instanceName targs (splitOn '|' (c :: s))
  | _ => .ok none

/-- The name for a template instance of a method or function, if it is one. -/
def customName (globals : Anns) : Option (List Str) → PyRes (Option Str)
  | some targs => instanceNames globals targs
  | none => .ok none

/-- `if 'pygen_comment' in global_annotations: pygen_sink.writeln('## ' + …)`. -/
def comment (globals : Anns) : PyRes (List Ev) :=
  match ODict.get globals "pygen_comment".toList with
  | none => .ok []
  | some none => .error .typeError
  | some (some s) => .ok [.item (.comment s)]

/-- Making the handler of a return value, lines 2305-2316. -/
def makeRet (env : Env) (s : Spec) : PyRes (Bool × List Warn) :=
  match env.ret s with
  | .ok => .ok (true, [])
  | .caught => .ok (false, [.type s])
  | .raised e => .error e

/-- Making the handlers of all parameters, lines 2019-2026: whether all could be made, and the warnings. -/
def makeParams (env : Env) : List Spec → PyRes (Bool × List Warn)
  | [] => .ok (true, [])
  | s :: l =>
    match env.par s with
    | .ok => makeParams env l
    | .caught => (makeParams env l).map (fun r => (false, .type s :: r.2))
    | .raised e => .error e

/-- The same up to the first that cannot be made, lines 2097-2107. -/
def makeParams' (env : Env) : List Spec → PyRes (Bool × List Warn)
  | [] => .ok (true, [])
  | s :: l =>
    match env.par s with
    | .ok => makeParams' env l
    | .caught => .ok (false, [.type s])
    | .raised e => .error e

/-! ## Methods -/

/-- Lines 1968-1969. -/
def setTemplate (kw : Kw) : Option (List Str) → Kw
  | some (t :: ts) => ODict.set kw "template_parameters".toList (.strs (t :: ts))
  | _ => kw

/-- A name that is set if there is one and it is not empty. -/
def setName (kw : Kw) (k : String) : Option Str → Kw
  | some (c :: s) => ODict.set kw k.toList (.str (c :: s))
  | _ => kw

/-- The keyword arguments of a method, lines 1960-1984, after those for annotations and exceptions. -/
def methodKw (d : MethodDecl) (custom : Option Str) (kw : Kw) : Kw :=
  let kw := setIf d.isConst kw "is_const" (.bool true)
  let kw := setIf d.isStatic kw "is_static" (.bool true)
  let kw := setIf (d.virt ≠ .no) kw "is_virtual" (.bool true)
  let kw := setIf (d.virt = .pure) kw "is_pure_virtual" (.bool true)
  let kw := setTemplate kw d.tmpl
  let kw := setName kw "custom_template_method_name" custom
  let kw := setIf (d.access ≠ "public".toList) kw "visibility" (.str d.access)
  setIf d.deprecated kw "deprecated" (.bool true)

/-- Registering the method, lines 2001-2057. -/
def addMethod (env : Env) (d : MethodDecl) (name : Str) (ret : Spec) (ps : List Spec) (kw : Kw) : PyRes (List Ev) :=
  let disable : List Ev := if d.virt = .pure then [.act .cannot, .act .helperOff] else []
  match env.ret ret with
  | .raised e => .error e
  | .caught => .ok (.warn (.type ret) :: disable)
  | .ok =>
    (makeParams env ps).bind (fun r =>
      if r.1 then
        match env.add (.func true name ret ps kw) with
        | .ok => .ok [.act (.reg (.func true name ret ps kw))]
        | .raised e => .error e
        | .notSupported =>
          .ok ((if d.virt = .pure then [.act .cannot, .act .helperOff, .item (.cannot name), .item .helperOff] else []) ++
            [.warn (.adding name)])
      else .ok (warns r.2 ++ disable))

/-- A method or operator, lines 1893-2057. -/
def scanMethod (env : Env) (cls : Cls) (m : Member) (d : MethodDecl) : PyRes (List Ev) :=
  (loop (methodStep env.exc d.tmpl.isSome) m.globals [] []).bind (fun r =>
    if d.op ≠ none ∧ d.op ≠ some "()".toList then .ok (warns r.2)
    else
      let kw := setIf d.op.isSome r.1 "custom_name" (.str "__call__".toList)
      let kw := setThrow kw d.throws
      (lookupReturn env.num d.ret (annsOf m.params "return".toList)).bind (fun ret =>
        (argSpecs env.num m.params d.args).bind (fun ps =>
          (customName m.globals d.tmpl).bind (fun custom =>
            let kw := methodKw d custom kw
            let start := warns (r.2 ++ notFound d.throws ++ ret.2 ++ ps.2) ++
              (if d.virt = .pure ∧ cls.allowSubclassing = false then [.act .cannot] else [])
            if d.access = "private".toList ∧ d.virt = .no then .ok start
            else
              (comment m.globals).bind (fun c =>
                (addMethod env d m.name ret.1 ps.1 kw).map (fun evs =>
                  start ++ c ++ .item (.line (.func true m.name ret.1 ps.1 kw)) :: evs))))))

/-! ## Constructors and attributes -/

/-- A constructor, lines 2061-2117: the annotations of its parameters are not looked at.  Also whether there is a
constructor without arguments or a copy constructor now. -/
def scanCtor (env : Env) (m : Member) (d : CtorDecl) : PyRes (List Ev × Bool × Bool) :=
  if d.access ≠ "public".toList ∧ d.access ≠ "protected".toList then .ok ([], false, false)
  else
    (argSpecs env.num [] d.args).bind (fun ps =>
      (comment m.globals).bind (fun c =>
        let kw := setIf d.deprecated [] "deprecated" (.bool true)
        let kw := setIf (d.access ≠ "public".toList) kw "visibility" (.str d.access)
        let kw := setThrow kw d.throws
        let line := Line.ctor ps.1 kw
        (makeParams' env ps.1).map (fun r =>
          let evs := warns ps.2 ++ c ++ warns (notFound d.throws) ++ [.item (.line line)]
          if r.1 then
            (evs ++ [.act (.reg line)], d.args.isEmpty, match ps.1 with
              | [p] => env.selfParam p
              | _ => false)
          else (evs ++ warns r.2, d.args.isEmpty, false))))

/-- A variable, lines 2120-2170. -/
def scanVar (env : Env) (m : Member) (d : VarDecl) : PyRes (List Ev) :=
  if m.name = [] then .ok []
  else if d.access = "protected".toList then .ok [.warn (.variable m.name)]
  else if d.access = "private".toList then .ok []
  else if d.anonymousType then .ok [.warn (.variable m.name)]
  else
    (lookupReturn env.num d.type m.globals).bind (fun ret =>
      (comment m.globals).bind (fun c =>
        let line := Line.attr d.isStatic m.name ret.1 d.isConst
        let evs := warns ret.2 ++ c ++ [.item (.line line)]
        match env.ret ret.1 with
        | .ok => .ok (evs ++ [.act (.reg line)])
        | .caught => .ok (evs ++ [.warn (.type ret.1)])
        | .raised e => .error e))

/-- One member, lines 1875-2172. -/
def scanMember (env : Env) (cls : Cls) (m : Member) : PyRes (List Ev × Bool × Bool) :=
  if some m.name ∈ cls.refMethods then .ok ([], false, false)
  else if (ODict.get m.globals "ignore".toList).isSome then .ok ([], false, false)
  else
    match m.kind with
    | .method d => (scanMethod env cls m d).map (fun evs => (evs, false, false))
    | .ctor d => scanCtor env m d
    | .var d => (scanVar env m d).map (fun evs => (evs, false, false))
    | .other => .ok ([], false, false)

/-- All members in order. -/
def scanMembers (env : Env) (cls : Cls) : List Member → PyRes (List Ev × Bool × Bool)
  | [] => .ok ([], false, false)
  | m :: l =>
    (scanMember env cls m).bind (fun a =>
      (scanMembers env cls l).map (fun b => (a.1 ++ b.1, a.2.1 || b.2.1, a.2.2 || b.2.2)))

/-! ## Operators -/

/-- `_handle_operator`, lines 1729-1821. -/
def scanOperator (env : Env) (o : OpDecl) : PyRes (List Ev) :=
  let both (l : Line) : PyRes (List Ev) := .ok [.act (.reg l), .item (.line l)]
  let nargs := if o.isMember then o.args.length - 1 else o.args.length
  if o.symbol = "<<".toList ∧ o.retOstream = true ∧ nargs = 2 ∧ o.args[0]?.any (·.ostream) ∧ o.args[1]?.any (·.convertible) then
    both .stream
  else if o.symbol ∈ ["==", "!=", "<", "<=", ">", ">="].map String.toList ∧ o.args.length = 2 ∧
      o.args[0]?.any (·.convertible) ∧ o.args[1]?.any (·.convertible) then
    both (.cmp o.symbol)
  else
    match o.args with
    | [] => .error .indexError
    | a :: rest =>
      if a.convertible = false then .ok []
      else
        match o.retCls with
        | none => .ok [.warn (.operator o.symbol)]
        | some ret =>
          match a.cls with
          | none => .ok [.warn (.operator o.symbol)]
          | some arg =>
            match rest with
            | [b] =>
              (lookupParameter env.num b.type "right".toList (annsOf o.params "right".toList) none).bind (fun p =>
                let go (ok : Bool) (w : List Ev) : PyRes (List Ev) :=
                  let put (l : Line) : List Ev := .item (.line l) :: (if ok then [.act (.reg l)] else [])
                  .ok (warns p.2 ++ w ++
                    (if o.symbol ∈ ["+", "-", "/", "*"].map String.toList then put (.binop o.symbol ret arg p.1) else []) ++
                    (if o.symbol ∈ ["+=", "-=", "/=", "*="].map String.toList then put (.inplace o.symbol p.1) else []))
                match env.par p.1 with
                | .ok => go true []
                | .caught => go false [.warn (.type p.1)]
                | .raised e => .error e)
            | [] =>
              if o.symbol = "-".toList then
                .ok [.item (.line (.unop o.symbol)), .act (.reg (.unop o.symbol))]
              else .ok []
            | _ => .ok [.warn (.operator o.symbol)]

def scanOperators (env : Env) : List OpDecl → PyRes (List Ev)
  | [] => .ok []
  | o :: l => (scanOperator env o).bind (fun a => (scanOperators env l).map (fun b => a ++ b))

/-- Whether the first loop, lines 1849-1865, finds a constructor that is not public without arguments, or a copy
constructor. -/
def hiddenTrivial (ms : List Member) : Bool :=
  ms.any (fun m => match m.kind with
    | .ctor d => (d.access = "protected".toList || d.access = "private".toList) && d.args.isEmpty
    | _ => false)

def hiddenCopy (ms : List Member) : Bool :=
  ms.any (fun m => match m.kind with
    | .ctor d => (d.access = "protected".toList || d.access = "private".toList) && d.args.length = 1 && d.selfRef
    | _ => false)

/-- `_scan_class_methods`, lines 1840-2188. -/
def scanClass (env : Env) (cls : Cls) (d : ClassDecl) : PyRes (List Ev) :=
  (scanOperators env d.operators).bind (fun ops =>
    (scanMembers env cls d.members).map (fun r =>
      ops ++ r.1 ++
        (if (hiddenTrivial d.members || r.2.1) = false ∧ d.trivialCtor = true then
          [.act (.reg (.ctor [] [])), .item (.line (.ctor [] []))] else []) ++
        (if (hiddenCopy d.members || r.2.2) = false ∧ d.copyCtor = true then
          [.act (.reg .copyCtor), .item (.line .copyCtor)] else [])))

/-! ## Functions -/

/-- The annotations of the first argument of a function that becomes a method, lines 2320-2324. -/
def selfAnns (asMethod : Bool) (i : Nat) (a : ArgDecl) (anns : Anns) : Anns :=
  let dflt (d : Anns) (k : Str) (v : Str) : Anns := if (ODict.get d k).isSome then d else ODict.set d k (some v)
  if i = 0 ∧ asMethod = true ∧ a.pointer = true then
    dflt (dflt anns "transfer_ownership".toList "false".toList) "free_after_copy".toList "false".toList
  else anns

/-- The arguments of a function, lines 2319-2343: specifications, whether all handlers could be made, warnings. -/
def funArgs (env : Env) (params : ODict Anns) (asMethod : Bool) : Nat → List ArgDecl → PyRes (List Spec × Bool × List Warn)
  | _, [] => .ok ([], true, [])
  | i, a :: l =>
    (lookupParameter env.num a.type a.name (selfAnns asMethod i a (annsOf params a.name)) a.default).bind (fun s =>
      match env.par s.1 with
      | .raised e => .error e
      | .ok => (funArgs env params asMethod (i + 1) l).map (fun r => (s.1 :: r.1, r.2.1, s.2 ++ r.2.2))
      | .caught => (funArgs env params asMethod (i + 1) l).map (fun r => (s.1 :: r.1, false, s.2 ++ .type s.1 :: r.2.2)))

/-- Lines 2390 and 2396-2397 (an empty name counts here). -/
def setTemplates (kw : Kw) : Option (List Str) → Kw
  | some targs => ODict.set kw "template_parameters".toList (.strs targs)
  | none => kw

def setCustom (kw : Kw) : Option Str → Kw
  | some n => ODict.set kw "custom_name".toList (.str n)
  | none => kw

/-- The keyword arguments of a function, lines 2388-2405. -/
def functionKw (f : FunDecl) (custom : Option Str) (kw : Kw) : Kw :=
  let kw := setTemplates kw f.tmpl
  let kw := setCustom kw custom
  let kw := setName kw "custom_name" (getNone f.globals "name".toList)
  setIf f.deprecated kw "deprecated" (.bool true)

/-- The script line of a function and its registration. -/
def emit (f : FunDecl) (ok : Bool) (l : Line) : PyRes (List Ev) :=
  (comment f.globals).map (fun c => c ++ .item (.line l) :: (if ok then [.act (.reg l)] else []))

/-- The three ways to register a function, lines 2352-2424. -/
def emitFunction (env : Env) (f : FunDecl) (ok : Bool) (ret : Spec) (ps : List Spec) (kw : Kw) : PyRes (List Ev) :=
  match getNone f.globals "as_method".toList with
  | some name =>
    match getNone f.globals "of_class".toList with
    | none => .error .assertionError
    | some c =>
      match env.cls c with
      | none => .error .keyError
      | some full => emit f ok (.asMethod full f.name ret ps name)
  | none =>
    match getNone f.globals "is_constructor_of".toList with
    | some c =>
      match env.cls c with
      | none => .error .keyError
      | some full => emit f ok (.asCtor full f.name ret ps)
    | none =>
      (customName f.globals f.tmpl).bind (fun custom => emit f ok (.func false f.name ret ps (functionKw f custom kw)))

/-- A function, lines 2261-2424; `is_constructor_of` without a value does nothing. -/
def scanFunction (env : Env) (f : FunDecl) : PyRes (List Ev) :=
  (loop (functionStep env.exc) f.globals [] []).bind (fun g =>
    if (ODict.get f.globals "ignore".toList).isSome then .ok (warns g.2)
    else
      let asMethod := getNone f.globals "as_method".toList
      let ctorOf := getNone f.globals "is_constructor_of".toList
      let retAnns := match ctorOf with
        | some (_ :: _) => ODict.set (annsOf f.params "return".toList) "caller_owns_return".toList (some "true".toList)
        | _ => annsOf f.params "return".toList
      (lookupReturn env.num f.ret retAnns).bind (fun ret =>
        (makeRet env ret.1).bind (fun retOk =>
          (funArgs env f.params asMethod.isSome 0 f.args).bind (fun ps =>
            let kw := setThrow g.1 f.throws
            let ok := retOk.1 && ps.2.1
            let start := warns (g.2 ++ ret.2 ++ retOk.2 ++ ps.2.2 ++ notFound f.throws)
            (emitFunction env f ok ret.1 ps.1 kw).map (fun evs => start ++ evs)))))

end Verif.Scan
