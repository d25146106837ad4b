import Verif.Sections.Model

/-!
# What it means that the files compile and link, and which projects are considered
-/
namespace Verif.Sections

/-- A translation unit compiles, as far as names go: what is used was declared or defined further up. -/
def Compiles (u : List Ev) : Prop :=
  ∀ pre s post, u = pre ++ .use s :: post → .decl s ∈ pre ∨ ∃ b, .defn s b ∈ pre

/-- How often a unit defines a symbol. -/
def definitions (u : List Ev) (s : Sym) : Nat := u.countP (fun e => e = .defn s true ∨ e = .defn s false)

/-- Translation units link: each compiles and defines no symbol twice, no symbol has external definitions in two
of them, and every symbol that is used is defined, either in the same unit or externally in some unit. -/
structure Links (us : List (List Ev)) : Prop where
  compiles : ∀ u ∈ us, Compiles u
  once : ∀ u ∈ us, ∀ s, definitions u s ≤ 1
  unique : ∀ (i j : Nat) (u v : List Ev) (s : Sym), us[i]? = some u → us[j]? = some v → Ev.defn s false ∈ u → Ev.defn s false ∈ v → i = j
  resolved : ∀ u ∈ us, ∀ s, Ev.use s ∈ u → (∃ b, Ev.defn s b ∈ u) ∨ ∃ v ∈ us, Ev.defn s false ∈ v

/-- A class is registered somewhere in the project. -/
def Mod.hasCls (p : Mod) (c : Cls) : Prop := ∃ b ∈ p.bodies, ∃ it ∈ b.classes, it.cls = c

/-- What code refers to is registered somewhere in the project. -/
def Mod.has (p : Mod) : Ref → Prop
  | .cls c => p.hasCls c
  | .exc e => ∃ b ∈ p.bodies, ∃ x ∈ b.excs, x.name = e
  | .cont n t => ∃ b ∈ p.bodies, ∃ k ∈ b.conts, k.name = n ∧ k.ctype = t

/-- What a class mentions: its parent, other bases, outer class, the types in its methods and operators. -/
def Item.mentions (c : Item) : List Ref :=
  (match c.cls with | .root _ => [] | .sub _ q => [.cls q]) ++ c.bases.map .cls ++
  (c.outer.toList.map .cls) ++ c.refs ++ c.convs.flatMap (·.refs)

/-- What a container mentions. -/
def Cont.mentions (c : Cont) : List Ref := (c.outer.toList.map .cls) ++ c.refs ++ c.convs.flatMap (·.refs)

/-- What an exception mentions. -/
def Exc.mentions (e : Exc) : List Ref := (e.parent.toList.map .exc) ++ (e.outer.toList.map .cls)

/-- Everything the declarations of a module mention. -/
def Body.mentions (b : Body) : List Ref :=
  b.fns.flatMap (fun fn => fn.parts.flatMap (·.refs)) ++ b.classes.flatMap Item.mentions ++
  b.conts.flatMap Cont.mentions ++ b.excs.flatMap Exc.mentions ++ b.typedefs.map .cls ++ b.enumOuter.map .cls

/-- Everything mentioned in the project is registered in it. -/
def Mod.Closed (p : Mod) : Prop := ∀ b ∈ p.bodies, ∀ r ∈ b.mentions, p.has r

/-- The symbols a module function needs. -/
def Fn.symbols (g : Cfg) (m : Str) (fn : Fn) : List Sym :=
  if (fn.code g m).isSome then
    (match fn.parts with
    | [_] => []
    | _ => fn.done.map (fun x => Sym.part m fn.name x.1)) ++ [.fn m fn.name]
  else []

/-- The symbols a class needs. -/
def Item.symbols (g : Cfg) (c : Item) : List Sym :=
  let n := c.cls.info.name
  if c.cls.info.imported then
    [.typePtr n] ++ (if c.cls.hasMap then [.typemapPtr n] else []) ++
      (if c.cls.isRoot ∧ g.registry then [.registryPtr n] else [])
  else
    (if c.cls.hasMap then [.typemap n] else []) ++ (if c.cls.isRoot ∧ g.registry then [.registry n] else []) ++
      c.helper.map (.helper n) ++ (if c.static then [.metaT g.pfx n] else []) ++ c.locals.map (.loc n) ++
      (if c.iter then [.iter n] else []) ++ [.type n]

/-- The symbols a container needs. -/
def Cont.symbols (c : Cont) : List Sym :=
  c.locals.map (.loc c.name) ++ [.conv .py2c c.ctype, .type c.name, .iter c.name]

/-- The symbols a module needs. -/
def Body.symbols (g : Cfg) (b : Body) : List Sym :=
  b.fns.flatMap (Fn.symbols g b.name) ++ [.table b.name] ++ b.ordered.flatMap (Item.symbols g) ++
  b.conts.flatMap Cont.symbols ++ b.excs.map (fun e => .exc e.name) ++ [.moddef b.name, .init b.name]

/-- The symbols of the project, converters apart. -/
def Mod.symbols (g : Cfg) (p : Mod) : List Sym := p.bodies.flatMap (Body.symbols g)

/-- Classes with static attributes: there is no name prefix, or they are in the main file.  (Without it the
claim is false: `C116_metaclass_counterexample`.) -/
def Mod.MetasDeclared (g : Cfg) (p : Mod) : Prop :=
  ∀ b ∈ p.bodies, ∀ c ∈ b.classes, c.static = true → c.cls.info.imported = false →
    g.pfx = [] ∨ g.multi = false ∨ c.sect = mainName

end Verif.Sections
