import Verif.CppClass.Copy
import Verif.Handlers.ReturnsProps

/-!
# C98: `copy.copy(x)`

`IsCopy` is what a user expects of `copy.copy`: a new Python object of the same type with the same attributes that
owns a new C++ object equal to the original's, nothing else changed.
-/
namespace Verif.Copy
open Verif Verif.Returns
open Verif.Lifetime (World upd upd_same upd_ne)

variable {V : Type}

/-- Everything that existed is as it was: other wrappers, C++ objects, the registry at other addresses, counts, types,
attributes. -/
structure Untouched (e : Env) (s s' : S V) : Prop where
  wrappers : ∀ w, w ≠ s.m.world.next → s'.m.world.ws w = s.m.world.ws w ∧ s'.m.refs w = s.m.refs w ∧
    s'.m.type w = s.m.type w ∧ s'.attrs w = s.attrs w ∧ s'.m.dict w = s.m.dict w
  objects : ∀ a, a ≠ e.fresh → s'.m.world.heap a = s.m.world.heap a ∧ s'.cont a = s.cont a ∧
    s'.m.world.reg a = s.m.world.reg a
  sound : s'.m.world.bad = s.m.world.bad

/-- The new wrapper: one reference, completely initialised, owner of the object at the new address, which has one
reference, and is known to the registry if there is one. -/
structure Fresh (c : CCls) (e : Env) (s s' : S V) : Prop where
  result : s'.m.py = some s.m.world.next
  wrapper : s'.m.world.ws s.m.world.next = ⟨true, some e.fresh, false, false⟩
  next : s'.m.world.next = s.m.world.next + 1
  refs : s'.m.refs s.m.world.next = 1
  dict : s'.m.dict s.m.world.next = true
  object : s'.m.world.heap e.fresh = some ⟨1, 0, none⟩
  registered : s'.m.world.reg e.fresh = if c.registry.isSome then some s.m.world.next else s.m.world.reg e.fresh

/-- What `copy.copy` should give for `self`, whose object is at `a`. -/
structure IsCopy (c : CCls) (e : Env) (self a : Nat) (s s' : S V) : Prop where
  untouched : Untouched e s s'
  fresh : Fresh c e s s'
  type : s'.m.type s.m.world.next = s.m.type self
  attrs : s'.attrs s.m.world.next = s.attrs self
  content : s'.cont e.fresh = s.cont a

/-- `execAll` over concatenation. -/
theorem execAll_append (c : CCls) (e : Env) (self : Nat) (l k : List Stmt) (s : S V) :
    execAll c e self (l ++ k) s = execAll c e self k (execAll c e self l s) := by
  induction l generalizing s with
  | nil => rfl
  | cons p l ih => exact ih _

/-- After `write_allocate_pystruct`. -/
theorem allocate_exec (c : CCls) (e : Env) (self : Nat) (s : S V) :
    ∃ w, (w.live = true ∧ w.viaInit = false) ∧ execAll c e self ((allocate c.toRCls false).map Stmt.prim) s =
      { s with m := { s.m with world := { s.m.world with ws := upd s.m.world.ws s.m.world.next w
                                                         next := s.m.world.next + 1 }
                               refs := upd s.m.refs s.m.world.next 1
                               type := upd s.m.type s.m.world.next e.stat
                               dict := upd s.m.dict s.m.world.next true
                               py := some s.m.world.next }
               attrs := upd s.attrs s.m.world.next [] } := by
  refine ⟨⟨true, if c.policy.isSmart then none else e.junkObj, e.junkFlag, false⟩, ⟨rfl, rfl⟩, ?_⟩
  unfold allocate
  cases hs : c.subclassing <;> by_cases hp : c.policy = .none <;> cases hq : c.policy.isSmart <;>
    simp_all [execAll, Stmt.exec, Prim.exec, M.withPy, upd_upd, Lifetime.setObj, Pol.isSmart]

/-- **C98, what `__copy__` does (partial: classes in shared pointers do not compile).**  For a wrapper with a live
object: a new wrapper of the class's own Python type, without attributes, that owns an object of exactly this class
copied from the part of the original that belongs to it; nothing else changes. -/
theorem C98_effect_partial (c : CCls) (e : Env) (self a : Nat) (o : Lifetime.Obj) (s : S V) (l : List Stmt)
    (h : copyCode c.toRCls = .ok l) (hself : self ≠ s.m.world.next)
    (hobj : (s.m.world.ws self).obj = some a) (hlive : s.m.world.heap a = some o) :
    Untouched e s (execAll c e self l s) ∧ Fresh c e s (execAll c e self l s) ∧
    (execAll c e self l s).m.type s.m.world.next = e.stat ∧
    (execAll c e self l s).attrs s.m.world.next = [] ∧
    (execAll c e self l s).cont e.fresh = (s.cont a).slice c := by
  unfold copyCode at h
  split at h
  · cases h
  · cases h
    obtain ⟨w, ⟨hwl, hwv⟩, hw⟩ := allocate_exec c e self s
    rw [List.append_assoc, List.append_assoc, List.append_assoc, execAll_append, hw]
    obtain ⟨wl, wo, wn, wv⟩ := w
    cases hwl; cases hwv
    cases hs : c.subclassing <;> cases hr : c.registry <;>
      simp [execAll, Stmt.exec, Prim.exec, M.withPy, registerNew, upd_ne _ _ hself, hobj, hlive, hr, Lifetime.setObj,
        Lifetime.alloc, upd_upd] <;>
      refine ⟨⟨?_, ?_, rfl⟩, ⟨rfl, ?_, rfl, ?_, ?_, ?_, ?_⟩⟩ <;>
      simp +contextual [upd_ne, upd_same, hr]

/-- **C98, `copy.copy` (partial).**  If the instance is of the class itself — not of a Python subclass, and holding an
object created as this C++ class — and has no attributes, the result is a copy. -/
theorem C98_copy_partial (c : CCls) (e : Env) (self a : Nat) (o : Lifetime.Obj) (s : S V) (l : List Stmt)
    (h : copyCode c.toRCls = .ok l) (hself : self ≠ s.m.world.next)
    (hobj : (s.m.world.ws self).obj = some a) (hlive : s.m.world.heap a = some o)
    (htype : s.m.type self = e.stat) (hattrs : s.attrs self = [])
    (hdyn : (s.cont a).dyn = c.id) (hparts : ∀ k v, (s.cont a).part k = some v → k ∈ c.anc) :
    IsCopy c e self a s (execAll c e self l s) := by
  obtain ⟨h1, h2, h3, h4, h5⟩ := C98_effect_partial c e self a o s l h hself hobj hlive
  refine ⟨h1, h2, h3.trans htype.symm, h4.trans hattrs.symm, h5.trans ?_⟩
  revert hdyn hparts
  generalize s.cont a = i
  obtain ⟨d, p⟩ := i
  rintro hd hp
  have hd : d = c.id := hd
  subst hd
  unfold Inst.slice
  congr 1
  funext k
  split
  · rfl
  · next hk =>
    cases hq : p k with
    | none => exact hq.symm ▸ rfl
    | some v => exact absurd (hp k v hq) hk

/-- `copy.copy` does to wrappers, objects and registry what the event `pyCopy` of the histories of C45 does. -/
theorem C98_refines (c : CCls) (sing dtor : Bool) (e : Env) (self a : Nat) (o : Lifetime.Obj) (s : S V) (l : List Stmt)
    (h : copyCode c.toRCls = .ok l) (hself : self ≠ s.m.world.next)
    (hobj : (s.m.world.ws self).obj = some a) (hlive : s.m.world.heap a = some o) :
    (execAll c e self l s).m.world = Lifetime.pyCopy (c.toRCls.cls sing dtor) s.m.world e.fresh := by
  obtain ⟨h1, h2, -, -, -⟩ := C98_effect_partial c e self a o s l h hself hobj hlive
  refine world_ext ?_ ?_ ?_ ?_ ?_
  · funext w
    by_cases hw : w = s.m.world.next
    · subst hw
      rw [h2.wrapper]
      cases hr : c.registry <;>
        simp [Lifetime.pyCopy, Lifetime.register, Lifetime.newWrapper, Lifetime.alloc, RCls.cls, hr]
    · rw [(h1.wrappers w hw).1]
      cases hr : c.registry <;>
        simp [Lifetime.pyCopy, Lifetime.register, Lifetime.newWrapper, Lifetime.alloc, RCls.cls, hr, upd_ne _ _ hw]
  · rw [h2.next]
    cases hr : c.registry <;> simp [Lifetime.pyCopy, Lifetime.register, Lifetime.newWrapper, Lifetime.alloc, RCls.cls, hr]
  · funext x
    by_cases hx : x = e.fresh
    · subst hx
      rw [h2.registered]
      cases hr : c.registry <;>
        simp [Lifetime.pyCopy, Lifetime.register, Lifetime.newWrapper, Lifetime.alloc, RCls.cls, hr]
    · rw [(h1.objects x hx).2.2]
      cases hr : c.registry <;>
        simp [Lifetime.pyCopy, Lifetime.register, Lifetime.newWrapper, Lifetime.alloc, RCls.cls, hr, upd_ne _ _ hx]
  · funext x
    by_cases hx : x = e.fresh
    · subst hx
      rw [h2.object]
      cases hr : c.registry <;>
        simp [Lifetime.pyCopy, Lifetime.register, Lifetime.newWrapper, Lifetime.alloc, RCls.cls, hr]
    · rw [(h1.objects x hx).1]
      cases hr : c.registry <;>
        simp [Lifetime.pyCopy, Lifetime.register, Lifetime.newWrapper, Lifetime.alloc, RCls.cls, hr, upd_ne _ _ hx]
  · rw [h1.sound]
    cases hr : c.registry <;> simp [Lifetime.pyCopy, Lifetime.register, Lifetime.newWrapper, Lifetime.alloc, RCls.cls, hr]

/-- **C98, who has the method.**  A class gets `__copy__` exactly if a copy constructor was declared and objects of it
can be made; errors are reported, or the method is left out if the error handler says so. -/
theorem C98_entry (c : RCls) (skip : Bool) :
    ((∃ l, copyEntry c skip = .ok (some l)) ↔ c.hasCopy = true ∧ c.constructible = true) ∧
    (copyEntry c skip = .ok none ↔ c.hasCopy = false ∨ (c.constructible = false ∧ skip = true)) ∧
    (∀ e, copyEntry c skip = .error e ↔
      c.hasCopy = true ∧ c.constructible = false ∧ skip = false ∧ e = .codeGenerationError) := by
  unfold copyEntry copyCode
  cases c.hasCopy <;> cases c.constructible <;> cases skip <;> simp
  exact fun e => eq_comm

/-- **C98, the code compiles (partial: not for shared pointers).** -/
theorem C98_compiles_partial (c : RCls) (l : List Stmt) (h : copyCode c = .ok l) (hp : c.policy.isSmart = false) :
    ∀ p ∈ l, p.typed c = true := by
  unfold copyCode at h
  split at h
  · cases h
  · cases h
    unfold allocate registerNew
    cases c.subclassing <;> by_cases hn : c.policy = .none <;> cases hr : c.registry <;>
      simp [hn, Stmt.typed, Prim.typed] <;> first | exact hp | rfl

/-! ## Where it goes wrong -/

def animal : CCls := { name := "Animal".toList, fullName := "Animal".toList, pystruct := "PyAnimal".toList,
                       pytype := "PyAnimal_Type".toList, subclassing := true, id := 0, anc := [0] }
def dog : CCls := { name := "Dog".toList, fullName := "Dog".toList, pystruct := "PyDog".toList, pytype := "PyDog_Type".toList,
                    subclassing := true, hasCopy := false, id := 1, anc := [1, 0] }

/-- One wrapper, number 0, of type `t`, with attributes `l`, whose object at address 7 is a `Dog` or an `Animal`. -/
def scene (t : Nat) (l : List Str) (isDog : Bool) : S Nat :=
  { m := { world := { ws := fun _ => ⟨true, some 7, false, false⟩, next := 1, reg := fun _ => none,
                      heap := fun a => if a = 7 then some ⟨1, 0, none⟩ else none, bad := false }
           refs := fun _ => 1, type := fun _ => t, dict := fun _ => true, py := none, iter := none, wtype := 0 }
    cont := fun _ => ⟨if isDog then 1 else 0, fun k => if k = 0 then some 40 else if k = 1 ∧ isDog then some 41 else none⟩
    attrs := fun _ => l }

/-- `new` gives address 8; the type object of the class `i` has number `i`. -/
def env (i : Nat) : Env := { at_ := 0, fresh := 8, same := none, dyn := 0, stat := i, junkObj := some 99, junkFlag := true }

/-- The statements of `Animal.__copy__`. -/
def animalCopy : List Stmt :=
  [.prim (.new false), .prim .dictNull, .copyObj, .prim .dictNull, .prim (.flags false)]

example : copyCode animal.toRCls = .ok animalCopy := rfl

/-- Non-vacuity: an instance of the class itself is copied. -/
example : IsCopy animal (env 0) 0 7 (scene 0 [] false) (execAll animal (env 0) 0 animalCopy (scene 0 [] false)) :=
  C98_copy_partial animal (env 0) 0 7 ⟨1, 0, none⟩ _ _ rfl (by decide) rfl rfl rfl rfl rfl (fun k v h => by
    by_cases hk : k = 0
    · subst hk; decide
    · exact absurd h (by simp [scene, hk]))

/-- **The copy of an instance of a Python subclass is not an instance of it** (the type object is that of the class). -/
theorem C98_subclass_counterexample :
    (execAll animal (env 0) 0 animalCopy (scene 5 [] false)).m.type 1 = 0 ∧ (scene 5 [] false).m.type 0 = 5 := ⟨rfl, rfl⟩

/-- **Attributes set on the instance are not copied.** -/
theorem C98_attributes_counterexample :
    (execAll animal (env 0) 0 animalCopy (scene 0 ["colour".toList] false)).attrs 1 = [] ∧
    (scene 0 ["colour".toList] false).attrs 0 = ["colour".toList] := ⟨rfl, rfl⟩

/-- **A wrapped subclass without copy constructor of its own inherits `__copy__`**: the copy of a `Dog` is an `Animal`,
with an `Animal` inside. -/
theorem C98_sliced_counterexample :
    copyEntry dog.toRCls false = .ok none ∧ copyEntry animal.toRCls false = .ok (some animalCopy) ∧
    (findCopy [(dog, none), (animal, some animalCopy)]).map (fun p => (p.1.id, p.2)) = some (0, animalCopy) ∧
    (scene 1 [] true).m.type 0 = 1 ∧ ((scene 1 [] true).cont 7).dyn = 1 ∧ ((scene 1 [] true).cont 7).part 1 = some 41 ∧
    (execAll animal (env 0) 0 animalCopy (scene 1 [] true)).m.type 1 = 0 ∧
    ((execAll animal (env 0) 0 animalCopy (scene 1 [] true)).cont 8).dyn = 0 ∧
    ((execAll animal (env 0) 0 animalCopy (scene 1 [] true)).cont 8).part 1 = none :=
  ⟨rfl, rfl, rfl, rfl, rfl, rfl, rfl, rfl, rfl⟩

/-- **A wrapper without object crashes the interpreter** (`copy.copy(K.__new__(K))`). -/
theorem C98_empty_counterexample (c : CCls) (e : Env) (self : Nat) (s : S V) (l : List Stmt)
    (h : copyCode c.toRCls = .ok l) (hself : self ≠ s.m.world.next) (hobj : (s.m.world.ws self).obj = none) :
    (execAll c e self l s).m.world.bad = true := by
  unfold copyCode at h
  split at h
  · cases h
  · cases h
    obtain ⟨w, -, hw⟩ := allocate_exec c e self s
    rw [List.append_assoc, List.append_assoc, List.append_assoc, execAll_append, hw]
    cases hs : c.subclassing <;> cases hr : c.registry <;>
      simp [execAll, Stmt.exec, Prim.exec, M.withPy, registerNew, upd_ne _ _ hself, hobj, hr, M.crash]
    all_goals
      split <;> rfl

/-- **For a class in shared pointers the method is generated and does not compile**, whatever else is true of it. -/
theorem C98_smart_counterexample (c : RCls) (hc : c.constructible = true) (hp : c.policy.isSmart = true) :
    ∃ l, copyCode c = .ok l ∧ ∃ p ∈ l, p.typed c = false := by
  unfold copyCode
  rw [hc]
  exact ⟨_, rfl, .copyObj, by simp, by simp [Stmt.typed, hp]⟩

/-- **The user's post instance creation function is not called for copies made by `copy.copy`**, though it is for copies
made when an object is returned by value. -/
theorem C98_hook_counterexample :
    (∀ c l, copyCode c = .ok l → .prim .post ∉ l) ∧
    ∃ c code, c.post.isSome = true ∧ copyReturn c true = .ok code ∧ code.has (· == .post) = true := by
  refine ⟨fun c l h => ?_, { animal.toRCls with post := some "hook();".toList }, _, rfl, rfl, rfl⟩
  unfold copyCode at h
  split at h
  · cases h
  · cases h
    unfold allocate registerNew
    cases c.subclassing <;> by_cases hn : c.policy = .none <;> cases hr : c.registry <;> simp [hn]

end Verif.Copy
