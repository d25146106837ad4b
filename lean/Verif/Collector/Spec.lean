import Verif.Collector.Model

/-!
# What is in use, and what may happen
-/
namespace Verif.Collector

/-- In use: referred to from elsewhere, or the Python part of an object C++ holds, or referred to by something that
is in use. -/
inductive Live (s : State) : Nat → Prop where
  | ext {x : Nat} : 0 < s.ext x → Live s x
  | held {x c : Nat} : c ∈ s.cids → (s.cobj c).pyself = some x → 0 < (s.cobj c).held → Live s x
  | ref {x y : Nat} : Live s y → y ∈ s.ids → x ∈ (s.node y).refs → Live s x

/-- In use, or referred to by an object that the collector does not look at. -/
inductive LiveOrHidden (s : State) : Nat → Prop where
  | ext {x : Nat} : 0 < s.ext x → LiveOrHidden s x
  | held {x c : Nat} : c ∈ s.cids → (s.cobj c).pyself = some x → 0 < (s.cobj c).held → LiveOrHidden s x
  | hidden {x y : Nat} : y ∈ s.ids → (s.node y).tracked = false → x ∈ (s.node y).refs → LiveOrHidden s x
  | ref {x y : Nat} : LiveOrHidden s y → y ∈ s.ids → x ∈ (s.node y).refs → LiveOrHidden s x

/-- Classes the collector can deal with: those with a helper class are destroyed with their wrapper, and if
references are counted the count can be read. -/
def GCls.Sound (k : GCls) : Prop :=
  k.helper.isSome = true → k.singleton = false ∧ (k.policy = .none → k.dtorPublic = true) ∧
    (k.policy.counted = true → k.policy.peeks = true)

/-- What the interpreter, C++ and the generated code do.  New objects get new addresses; references are to objects
that exist; C++ only keeps objects that are counted or were given to it; only objects without references are freed;
the collector clears what its algorithm says. -/
def Op.Ok (s : State) : Op → Prop
  | .construct x c k _ => x ∉ s.ids ∧ c ∉ s.cids ∧ (∀ y ∈ s.ids, (s.node y).obj ≠ some c) ∧ k.Sound
  | .wrap x c k _ => x ∉ s.ids ∧ (s.cobj c).dyn = none ∧ k.Sound
  | .iter x t => x ∉ s.ids ∧ t ∈ s.ids
  | .other x => x ∉ s.ids
  | .change x rs => x ∈ s.ids ∧ (∃ old, s.node x = .other old) ∧ ∀ r ∈ rs, r ∈ s.ids
  | .dict x d => x ∈ s.ids ∧ ∀ r, d = some r → r ∈ s.ids
  | .ext x _ => x ∈ s.ids
  | .hold c n => c ∈ s.cids ∧ ∀ x i, (s.cobj c).pyself = some x → s.node x = .inst i → i.obj = some c →
      n = 0 ∨ i.k.policy.counted = true
  | .transfer x => x ∈ s.ids
  | .free x => x ∈ s.ids ∧ s.refcnt x = 0
  | .collect U => ∀ x, U x = true ↔ Garbage s x

/-- A history in which everything is as it should be. -/
def Legal : State → List Op → Prop
  | _, [] => True
  | s, o :: os => o.Ok s ∧ Legal (s.step o) os

end Verif.Collector
