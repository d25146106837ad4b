import Verif.Exchange.Body

/-!
# C102: strings exchanged with a Python override
-/
namespace Verif.Exchange
open Verif Verif.Flow Verif.Params Verif.DeclScope Verif.Wrap

/-! ## Specification -/

/-- An argument of the virtual method: its handler and the string the C++ caller passed. -/
structure Arg where
  name : Str
  kind : PK
  cell : Cell

/-- The C++ type a handler is for. -/
def PK.ty : PK → CT
  | .cstr => .charPtr
  | .char => .char
  | .std | .stdRef _ _ => .std
  | .stdPtr _ _ _ => .stdPtr
  | .glib | .glibRef _ _ => .glib
  | .glibPtr _ _ _ => .glibPtr

def RK.ty : RK → CT
  | .void => .void
  | .char => .char
  | .cstr => .charPtr
  | .std => .std
  | .glib => .glib

def PK.isIn : PK → Bool
  | .stdRef i _ | .stdPtr i _ _ | .glibRef i _ | .glibPtr i _ _ => i
  | _ => true

def PK.isOut : PK → Bool
  | .stdRef _ o | .stdPtr _ o _ | .glibRef _ o | .glibPtr _ o _ => o
  | _ => false

/-- The override gets to own the string (`transfer_ownership`). -/
def PK.transfer : PK → Bool
  | .stdPtr _ _ t | .glibPtr _ _ t => t
  | _ => false

def PK.isGlib : PK → Bool
  | .glib | .glibRef _ _ | .glibPtr _ _ _ => true
  | _ => false

/-- The value has the parameter's type and is alive. -/
def Arg.Good (a : Arg) : Prop := a.cell.ty = a.kind.ty ∧ a.cell.deleted = 0 ∧ a.cell.ptr = none

variable {T D : Type}

/-- What Python should see of an input argument, if it can be expressed in Python: text for strings, `None` for
a null pointer, one byte for a `char`. -/
def Arg.input (L : Codec T) (a : Arg) : Option (PyV T D) :=
  match a.kind with
  | .cstr => if a.cell.null then some .none else (L.dec (cut a.cell.bytes)).map .str
  | .char => some (.bytes a.cell.bytes)
  | _ => (L.dec a.cell.bytes).map .str

/-- The arguments for Python: the input arguments in order. -/
def inputs (L : Codec T) : List Arg → Option (List (PyV T D))
  | [] => some []
  | a :: as =>
    if a.kind.isIn then (a.input L).bind (fun x => (inputs L as).map (x :: ·)) else inputs L as

/-- The characters of the object Python returned, for a result of the given sort: `Glib::ustring` and `char *`
cannot hold zero bytes, `char *` is made from `str` only, `char` from one byte. -/
def stdTake (L : Codec T) (x : PyV T D) : Option Bytes := chars L x
def glibTake (L : Codec T) (x : PyV T D) : Option Bytes := (chars L x).bind (fun b => if 0 ∈ b then none else some b)
def RK.take (L : Codec T) : RK → PyV T D → Option Bytes
  | .void, .none => some []
  | .void, _ => none
  | .char, .bytes [c] => some [c]
  | .char, _ => none
  | .cstr, .str s => (L.enc s).bind (fun b => if 0 ∈ b then none else some b)
  | .cstr, _ => none
  | .std, x => stdTake L x
  | .glib, x => glibTake L x
def PK.take (L : Codec T) (k : PK) (x : PyV T D) : Option Bytes := if k.isGlib then glibTake L x else stdTake L x

/-- The characters taken from the object Python returned, if it is accepted, given the output arguments: one value is
expected, the return value or the only output argument. -/
def acceptedFor (L : Codec T) : List Arg → RK → PyV T D → Option Bytes
  | [], r, x => r.take L x
  | [a], .void, x => a.kind.take L x
  | _, _, _ => none

def accepted (L : Codec T) (args : List Arg) (r : RK) (x : PyV T D) : Option Bytes :=
  acceptedFor L (args.filter (fun a => a.kind.isOut)) r x

/-- The statement that ends a call in which no value came from Python. -/
def giveUp (p : Proxy) : Back :=
  if p.isVoid then .nothing
  else if p.noParent = false then .other ("return ".toList ++ cppCall p.cls p.method p.params)
  else if p.trivialRet then .other p.errorReturn else .other fatalText

/-- A call that came to nothing: no argument is changed; the C++ implementation gets the arguments if the method
returns a value and there is one. -/
def failedCall (p : Proxy) (given : Option (List (PyV T D))) (args : List Arg) : Fin T D :=
  { given, cells := args.map (·.cell), parent := !p.isVoid && !p.noParent, leaked := [], back := giveUp p }

/-- What an argument becomes when the call succeeds with characters `b`. -/
def Arg.result (b : Bytes) (a : Arg) : Cell :=
  { a.cell with bytes := if a.kind.isOut then b else a.cell.bytes, deleted := if a.kind.transfer then 1 else 0 }

/-- What the C++ caller gets: a `char *` is left dangling. -/
def RK.given (b : Bytes) : RK → Back
  | .void => .nothing
  | .cstr => .dangling
  | _ => .value b

/-- A successful call.  Characters taken by a `Glib::ustring` stay allocated. -/
def doneCall (given : List (PyV T D)) (args : List Arg) (r : RK) (b : Bytes) : Fin T D :=
  { given := some given, cells := args.map (Arg.result b), parent := false
    leaked := if r = .glib ∨ args.any (fun a => a.kind.isOut && a.kind.isGlib) = true then [b] else []
    back := r.given b }

/-- A method with the given handlers, called with the given arguments. -/
def start (args : List Arg) (r : RK) : M T D :=
  { params := args.map (fun a => { d := a.kind.desc a.name, cell := a.cell })
    ret := { d := r.desc, cell := { ty := r.ty } } }

/-- Handlers and proxy agree on the return type, whose `get_c_error_return` is not a plain return. -/
structure Fits (p : Proxy) (r : RK) : Prop where
  void : p.isVoid = decide (r = .void)
  error : p.isVoid = true → p.errorReturn = "return;".toList
  error' : p.errorReturn ≠ "return retval;".toList ∧ (p.isVoid = false → p.errorReturn ≠ "return;".toList)

/-! ## Proof -/

/-- A handler when Python is called. -/
def Arg.ready (a : Arg) : HS :=
  let h : HS := { d := a.kind.desc a.name, cell := a.cell }
  match a.kind with
  | .cstr | .char => h
  | k => if k.isIn then (h.set 0 .toArg).set 1 (.size a.cell.bytes.length) else h

theorem befores_ready (a : Arg) (ha : a.Good) :
    HS.befores { d := a.kind.desc a.name, cell := a.cell } (a.kind.desc a.name).before = some a.ready := by
  obtain ⟨name, kind, ⟨ty, bytes, null, ptr, deleted⟩⟩ := a
  obtain ⟨h1, h2, h3⟩ := ha
  simp only at h1 h2 h3
  subst h1 h2 h3
  cases kind with
  | cstr => rfl
  | char => rfl
  | std => simp [PK.desc, refBefore, HS.befores, HS.before, PK.ty, Cell.isStr, Cell.isPtr, tx, Arg.ready, PK.isIn, HS.set]
  | stdRef i o =>
    cases i <;> simp [PK.desc, refBefore, HS.befores, HS.before, PK.ty, Cell.isStr, Cell.isPtr, tx, Arg.ready, PK.isIn, HS.set]
  | stdPtr i o t =>
    cases i <;> simp [PK.desc, ptrBefore, HS.befores, HS.before, PK.ty, Cell.isStr, Cell.isPtr, tx, Arg.ready, PK.isIn, HS.set]
  | glib => simp [PK.desc, refBefore, HS.befores, HS.before, PK.ty, Cell.isStr, Cell.isPtr, tx, Arg.ready, PK.isIn, HS.set]
  | glibRef i o =>
    cases i <;> simp [PK.desc, refBefore, HS.befores, HS.before, PK.ty, Cell.isStr, Cell.isPtr, tx, Arg.ready, PK.isIn, HS.set]
  | glibPtr i o t =>
    cases i <;> simp [PK.desc, ptrBefore, HS.befores, HS.before, PK.ty, Cell.isStr, Cell.isPtr, tx, Arg.ready, PK.isIn, HS.set]

theorem ready_d (a : Arg) : a.ready.d = a.kind.desc a.name := by
  unfold Arg.ready
  cases a.kind <;> simp [HS.set] <;> split <;> rfl

theorem ready_cell (a : Arg) : a.ready.cell = a.cell := by
  unfold Arg.ready
  cases a.kind <;> simp [HS.set] <;> split <;> rfl

theorem mapHS_befores : ∀ args : List Arg, (∀ a ∈ args, a.Good) →
    mapHS (fun h => h.befores h.d.before) (args.map (fun a => { d := a.kind.desc a.name, cell := a.cell })) =
      some (args.map Arg.ready)
  | [], _ => rfl
  | a :: as, h => by
    have ih := mapHS_befores as (fun b hb => h b (List.mem_cons_of_mem _ hb))
    simp only [List.map_cons, mapHS]
    rw [befores_ready a (h a List.mem_cons_self), ih]
    rfl

theorem take_all (b : Bytes) : takeBytes b b.length = some b := by simp [takeBytes]

/-- The value a handler passes is the argument's. -/
theorem pass_ready (L : Codec T) (a : Arg) (ha : a.Good) (g : Heap T D) :
    (a.kind.isIn = false ∧ a.ready.d.pass = none) ∨
    (a.kind.isIn = true ∧ ∃ u, a.ready.d.pass = some u ∧ a.ready.pass L g u = some (a.input L)) := by
  rw [ready_d]
  obtain ⟨name, kind, ⟨ty, bytes, null, ptr, deleted⟩⟩ := a
  obtain ⟨h1, h2, h3⟩ := ha
  simp only at h1 h2 h3
  subst h1 h2 h3
  cases kind with
  | cstr =>
    refine .inr ⟨rfl, _, rfl, ?_⟩
    cases null <;> simp [Arg.ready, HS.pass, PK.desc, PK.ty, Arg.input]
  | char =>
    refine .inr ⟨rfl, _, rfl, ?_⟩
    simp [Arg.ready, HS.pass, PK.desc, PK.ty, Arg.input]
  | std =>
    refine .inr ⟨rfl, _, rfl, ?_⟩
    simp [Arg.ready, HS.pass, PK.desc, PK.ty, Arg.input, PK.isIn, HS.set, sharp, Heap.read, take_all]
  | stdRef i o =>
    cases i
    · exact .inl ⟨rfl, rfl⟩
    · refine .inr ⟨rfl, _, rfl, ?_⟩
      simp [Arg.ready, HS.pass, PK.desc, PK.ty, Arg.input, PK.isIn, HS.set, sharp, Heap.read, take_all]
  | stdPtr i o t =>
    cases i
    · exact .inl ⟨rfl, rfl⟩
    · refine .inr ⟨rfl, _, rfl, ?_⟩
      simp [Arg.ready, HS.pass, PK.desc, PK.ty, Arg.input, PK.isIn, HS.set, sharp, Heap.read, take_all]
  | glib =>
    refine .inr ⟨rfl, _, rfl, ?_⟩
    simp [Arg.ready, HS.pass, PK.desc, PK.ty, Arg.input, PK.isIn, HS.set, sharp, Heap.read, take_all]
  | glibRef i o =>
    cases i
    · exact .inl ⟨rfl, rfl⟩
    · refine .inr ⟨rfl, _, rfl, ?_⟩
      simp [Arg.ready, HS.pass, PK.desc, PK.ty, Arg.input, PK.isIn, HS.set, sharp, Heap.read, take_all]
  | glibPtr i o t =>
    cases i
    · exact .inl ⟨rfl, rfl⟩
    · refine .inr ⟨rfl, _, rfl, ?_⟩
      simp [Arg.ready, HS.pass, PK.desc, PK.ty, Arg.input, PK.isIn, HS.set, sharp, Heap.read, take_all]

theorem passAll_ready (L : Codec T) (g : Heap T D) : ∀ args : List Arg, (∀ a ∈ args, a.Good) →
    passAll L g (args.map Arg.ready) = some (inputs L args)
  | [], _ => rfl
  | a :: as, h => by
    have ih := passAll_ready L g as (fun b hb => h b (List.mem_cons_of_mem _ hb))
    simp only [List.map_cons, passAll, inputs]
    rcases pass_ready L a (h a List.mem_cons_self) g with ⟨h1, h2⟩ | ⟨h1, u, h2, h3⟩
    · rw [h2, h1]; exact ih
    · rw [h2, h1]
      simp only [h3, ih, Option.bind_some, Option.map_some, if_true]

theorem back_iff (a : Arg) : (a.kind.desc a.name).back.isSome = a.kind.isOut := by
  obtain ⟨n, k, c⟩ := a
  cases k with
  | stdRef i o => cases o <;> rfl
  | stdPtr i o t => cases o <;> rfl
  | glibRef i o => cases o <;> rfl
  | glibPtr i o t => cases o <;> rfl
  | _ => rfl

/-- The statements after the call of an argument nothing is stored into. -/
theorem afters_plain (a : Arg) (ha : a.Good) (ho : a.kind.isOut = false) (g : Heap T D) (b : Bytes) :
    ∃ h', a.ready.afters g a.ready.d.after = some h' ∧ h'.cell = a.result b := by
  rw [ready_d]
  obtain ⟨name, kind, ⟨ty, bytes, null, ptr, deleted⟩⟩ := a
  obtain ⟨h1, h2, h3⟩ := ha
  simp only at h1 h2 h3
  subst h1 h2 h3
  cases kind with
  | cstr => exact ⟨_, rfl, rfl⟩
  | char => exact ⟨_, rfl, rfl⟩
  | std => exact ⟨_, rfl, rfl⟩
  | glib => exact ⟨_, rfl, rfl⟩
  | stdRef i o =>
    simp only [PK.isOut] at ho; subst ho
    exact ⟨_, rfl, by cases i <;> rfl⟩
  | glibRef i o =>
    simp only [PK.isOut] at ho; subst ho
    exact ⟨_, rfl, by cases i <;> rfl⟩
  | stdPtr i o t =>
    simp only [PK.isOut] at ho; subst ho
    cases t <;> cases i <;>
      simp [PK.desc, HS.afters, HS.after, Arg.ready, PK.isIn, HS.set, Cell.isPtr, PK.ty, tx, Arg.result, PK.isOut, PK.transfer]
  | glibPtr i o t =>
    simp only [PK.isOut] at ho; subst ho
    cases t <;> cases i <;>
      simp [PK.desc, HS.afters, HS.after, Arg.ready, PK.isIn, HS.set, Cell.isPtr, PK.ty, tx, Arg.result, PK.isOut, PK.transfer]

theorem cut_nz {b : Bytes} (h : (0 : UInt8) ∉ b) : cut b = b := by
  unfold cut
  induction b with
  | nil => rfl
  | cons x l ih =>
    rw [List.mem_cons, not_or] at h
    rw [List.takeWhile_cons, if_pos (by simp; exact fun e => h.1 e.symm), ih h.2]

/-- Parsing into an output argument, and its statements after the call. -/
theorem parse_out (L : Codec T) (a : Arg) (ha : a.Good) (ho : a.kind.isOut = true) (x : PyV T D) (g : Heap T D)
    (hg : g.res = some (x, (chars L x).getD [])) (hh : g.held = true) (hb : g.bufs = []) :
    ∃ u, a.ready.d.back = some u ∧
      (a.kind.take L x = none ∧ a.ready.parse L g x u = some none ∨
       ∃ b h' g', a.kind.take L x = some b ∧ a.ready.parse L g x u = some (some (h', g')) ∧
        h'.d = a.ready.d ∧ g'.bufs = (if a.kind.isGlib then [b] else []) ∧
        ∃ h'', h'.afters g' h'.d.after = some h'' ∧ h''.cell = a.result b) := by
  rw [ready_d]
  obtain ⟨name, kind, ⟨ty, bytes, null, ptr, deleted⟩⟩ := a
  obtain ⟨h1, h2, h3⟩ := ha
  simp only at h1 h2 h3
  subst h1 h2 h3
  cases kind with
  | cstr => cases ho
  | char => cases ho
  | std => cases ho
  | glib => cases ho
  | stdRef i o =>
    simp only [PK.isOut] at ho; subst ho
    refine ⟨stdBack, rfl, ?_⟩
    cases hc : chars L x with
    | none =>
      refine .inl ⟨by simp [PK.take, PK.isGlib, stdTake, hc], ?_⟩
      simp [HS.parse, stdBack, sharp, tx, hc]
    | some b =>
      rw [hc] at hg
      refine .inr ⟨b, _, g, by simp [PK.take, PK.isGlib, stdTake, hc], by simp [HS.parse, stdBack, sharp, tx, hc]; rfl,
        ?_, by simp [PK.isGlib, hb], ?_⟩
      · cases i <;> rfl
      · cases i <;>
        simp [PK.desc, HS.afters, HS.after, HS.store, HS.mkStd, Heap.read, Arg.ready, PK.isIn, HS.set, PK.ty, tx,
          Arg.result, PK.isOut, PK.transfer, hg, hh, take_all]
  | stdPtr i o t =>
    simp only [PK.isOut] at ho; subst ho
    refine ⟨stdBack, rfl, ?_⟩
    cases hc : chars L x with
    | none =>
      refine .inl ⟨by simp [PK.take, PK.isGlib, stdTake, hc], ?_⟩
      simp [HS.parse, stdBack, sharp, tx, hc]
    | some b =>
      rw [hc] at hg
      refine .inr ⟨b, _, g, by simp [PK.take, PK.isGlib, stdTake, hc], by simp [HS.parse, stdBack, sharp, tx, hc]; rfl,
        ?_, by simp [PK.isGlib, hb], ?_⟩
      · cases i <;> rfl
      · cases i <;> cases t <;>
        simp [PK.desc, HS.afters, HS.after, HS.store, HS.mkStd, Heap.read, Arg.ready, PK.isIn, HS.set, PK.ty, tx,
          Arg.result, PK.isOut, PK.transfer, hg, hh, take_all, Cell.isPtr]
  | glibRef i o =>
    simp only [PK.isOut] at ho; subst ho
    refine ⟨glibBack, rfl, ?_⟩
    cases hc : chars L x with
    | none =>
      refine .inl ⟨by simp [PK.take, PK.isGlib, glibTake, hc], ?_⟩
      simp [HS.parse, glibBack, sharp, tx, hc]
    | some b =>
      by_cases hz : (0 : UInt8) ∈ b
      · refine .inl ⟨by simp [PK.take, PK.isGlib, glibTake, hc, hz], ?_⟩
        simp [HS.parse, glibBack, sharp, tx, hc, hz]
      · refine .inr ⟨b, _, _, by simp [PK.take, PK.isGlib, glibTake, hc, hz],
          by simp [HS.parse, glibBack, sharp, tx, hc, hz]; exact ⟨rfl, rfl⟩, ?_, by simp [PK.isGlib, hb], ?_⟩
        · cases i <;> rfl
        · cases i <;>
          simp [PK.desc, HS.afters, HS.after, HS.store, HS.mkU, Heap.read, Arg.ready, PK.isIn, HS.set, PK.ty, tx,
            Arg.result, PK.isOut, PK.transfer, hb, cut_nz hz]
  | glibPtr i o t =>
    simp only [PK.isOut] at ho; subst ho
    refine ⟨glibBack, rfl, ?_⟩
    cases hc : chars L x with
    | none =>
      refine .inl ⟨by simp [PK.take, PK.isGlib, glibTake, hc], ?_⟩
      simp [HS.parse, glibBack, sharp, tx, hc]
    | some b =>
      by_cases hz : (0 : UInt8) ∈ b
      · refine .inl ⟨by simp [PK.take, PK.isGlib, glibTake, hc, hz], ?_⟩
        simp [HS.parse, glibBack, sharp, tx, hc, hz]
      · refine .inr ⟨b, _, _, by simp [PK.take, PK.isGlib, glibTake, hc, hz],
          by simp [HS.parse, glibBack, sharp, tx, hc, hz]; exact ⟨rfl, rfl⟩, ?_, by simp [PK.isGlib, hb], ?_⟩
        · cases i <;> rfl
        · cases i <;> cases t <;>
          simp [PK.desc, HS.afters, HS.after, HS.store, HS.mkU, Heap.read, Arg.ready, PK.isIn, HS.set, PK.ty, tx,
            Arg.result, PK.isOut, PK.transfer, hb, cut_nz hz, Cell.isPtr]

theorem mapHS_plain (g : Heap T D) (b : Bytes) : ∀ args : List Arg, (∀ a ∈ args, a.Good) →
    args.filter (fun a => a.kind.isOut) = [] →
    ∃ hs, mapHS (fun h => h.afters g h.d.after) (args.map Arg.ready) = some hs ∧ hs.map (·.cell) = args.map (Arg.result b)
  | [], _, _ => ⟨[], rfl, rfl⟩
  | a :: as, h, hf => by
    rw [List.filter_cons] at hf
    split at hf
    · cases hf
    · rename_i ho
      obtain ⟨hs, i1, i2⟩ := mapHS_plain g b as (fun c hc => h c (List.mem_cons_of_mem _ hc)) hf
      obtain ⟨h', j1, j2⟩ := afters_plain a (h a List.mem_cons_self) (by simpa using ho) g b
      exact ⟨h' :: hs, by simp only [List.map_cons, mapHS, j1, i1, Option.bind_some, Option.map_some], by simp [i2, j2]⟩

theorem ready_back (a : Arg) : a.ready.d.back.isSome = a.kind.isOut := by rw [ready_d, back_iff]

/-- Parsing into the only output argument. -/
theorem go_ready (L : Codec T) (m : M T D) (x : PyV T D) (hg : m.heap.res = some (x, (chars L x).getD []))
    (hh : m.heap.held = true) (hb : m.heap.bufs = []) : ∀ (args : List Arg) (a : Arg), (∀ a ∈ args, a.Good) →
    args.filter (fun a => a.kind.isOut) = [a] →
    (a.kind.take L x = none ∧ M.parse.go L m x (args.map Arg.ready) = some none) ∨
    ∃ b hs' g', a.kind.take L x = some b ∧ M.parse.go L m x (args.map Arg.ready) = some (some (hs', g')) ∧
      g'.bufs = (if a.kind.isGlib then [b] else []) ∧
      ∃ hs'', mapHS (fun h => h.afters g' h.d.after) hs' = some hs'' ∧ hs''.map (·.cell) = args.map (Arg.result b)
  | [], a, _, hf => nomatch hf
  | c :: cs, a, h, hf => by
    rw [List.filter_cons] at hf
    simp only [List.map_cons, M.parse.go]
    split at hf
    · rename_i ho
      have ho : c.kind.isOut = true := by simpa using ho
      simp only [List.cons.injEq] at hf
      obtain ⟨rfl, hf⟩ := hf
      obtain ⟨u, hu, hr⟩ := parse_out L c (h c List.mem_cons_self) ho x m.heap hg hh hb
      rw [hu]
      dsimp only
      rcases hr with ⟨r1, r2⟩ | ⟨b, h', g', r1, r2, r3, r4, h'', r5, r6⟩
      · exact .inl ⟨r1, by rw [r2]; rfl⟩
      · obtain ⟨hs, i1, i2⟩ := mapHS_plain g' b cs (fun d hd => h d (List.mem_cons_of_mem _ hd)) hf
        refine .inr ⟨b, h' :: cs.map Arg.ready, g', r1, by rw [r2]; rfl, r4, h'' :: hs, ?_, by simp [r6, i2]⟩
        simp only [mapHS, r5, i1, Option.bind_some, Option.map_some]
    · rename_i ho
      have ho : c.kind.isOut = false := by simpa using ho
      have hn : c.ready.d.back = none := by
        have := ready_back c
        rw [ho] at this
        simpa using this
      rw [hn]
      dsimp only
      rcases go_ready L m x hg hh hb cs a (fun d hd => h d (List.mem_cons_of_mem _ hd)) hf with
        ⟨r1, r2⟩ | ⟨b, hs', g', r1, r2, r3, hs'', r4, r5⟩
      · exact .inl ⟨r1, by rw [r2]; rfl⟩
      · obtain ⟨h', j1, j2⟩ := afters_plain c (h c List.mem_cons_self) ho g' b
        refine .inr ⟨b, c.ready :: hs', g', r1, by rw [r2]; rfl, r3, h' :: hs'', ?_, by simp [j2, r5]⟩
        simp only [mapHS, j1, r4, Option.bind_some, Option.map_some]

/-- Parsing the return value, and what is returned then. -/
theorem parse_ret (L : Codec T) (r : RK) (hr : r ≠ .void) (x : PyV T D) (g : Heap T D)
    (hg : g.res = some (x, (chars L x).getD [])) (hh : g.held = true) (hb : g.bufs = []) :
    ∃ u, r.desc.back = some u ∧
      (r.take L x = none ∧ HS.parse L g { d := r.desc, cell := { ty := r.ty } } x u = some none ∨
       ∃ b h' g', r.take L x = some b ∧ HS.parse L g { d := r.desc, cell := { ty := r.ty } } x u = some (some (h', g')) ∧
        g'.bufs = (if r = .glib then [b] else []) ∧ g'.res = g.res ∧
        ∃ h'', h'.afters g' h'.d.after = some h'' ∧ h''.cell.ty = r.ty ∧
          (r ≠ .cstr → h''.cell.bytes = b) ∧ (r = .cstr → h''.cell.ptr = some .toResult)) := by
  cases r with
  | void => exact absurd rfl hr
  | char =>
    refine ⟨_, rfl, ?_⟩
    have hno : (∀ c, x ≠ .bytes [c]) → RK.take L .char x = none ∧
        HS.parse L g { d := RK.desc .char, cell := { ty := .char } } x ("c".toList, [[tx "&", .text retval]]) =
          some none := by
      intro hx
      constructor
      · match x, hx with
        | .bytes [], _ => rfl
        | .bytes [c], hx => exact absurd rfl (hx c)
        | .bytes (_ :: _ :: _), _ => rfl
        | .none, _ | .str _, _ | .bool _, _ | .int _, _ | .float _, _ | .list _, _ | .wrapper _, _ | .other _ _, _ => rfl
      · simp only [HS.parse, RK.desc, tx]
        rw [if_neg (by decide), if_pos trivial, if_pos ⟨trivial, trivial, trivial⟩]
    by_cases hx : ∃ c, x = .bytes [c]
    · obtain ⟨c, rfl⟩ := hx
      exact .inr ⟨[c], _, g, rfl, by simp [HS.parse, RK.desc, tx, RK.ty]; rfl, by simp [hb], rfl, _, rfl, rfl,
        fun _ => rfl, nofun⟩
    · exact .inl (hno (fun c e => hx ⟨c, e⟩))
  | cstr =>
    refine ⟨_, rfl, ?_⟩
    cases x with
    | str s =>
      cases he : L.enc s with
      | none => exact .inl ⟨by simp [RK.take, he], by simp [HS.parse, RK.desc, tx, RK.ty, he]⟩
      | some b =>
        by_cases hz : (0 : UInt8) ∈ b
        · exact .inl ⟨by simp [RK.take, he, hz], by simp [HS.parse, RK.desc, tx, RK.ty, he, hz]⟩
        · exact .inr ⟨b, _, g, by simp [RK.take, he, hz], by simp [HS.parse, RK.desc, tx, RK.ty, he, hz]; rfl,
            by simp [hb], rfl, _, rfl, rfl, fun h => absurd rfl h, fun _ => rfl⟩
    | _ => exact .inl ⟨rfl, by simp [HS.parse, RK.desc, tx, RK.ty]⟩
  | std =>
    refine ⟨_, rfl, ?_⟩
    cases hc : chars L x with
    | none => exact .inl ⟨by simp [RK.take, stdTake, hc], by simp [HS.parse, stdBack, sharp, tx, hc]⟩
    | some b =>
      rw [hc] at hg
      refine .inr ⟨b, _, g, by simp [RK.take, stdTake, hc], by simp [HS.parse, stdBack, sharp, tx, hc]; rfl,
        by simp [hb], rfl, ?_⟩
      simp [RK.desc, HS.afters, HS.after, HS.store, HS.mkStd, Heap.read, HS.set, RK.ty, tx, hg, hh, take_all]
  | glib =>
    refine ⟨_, rfl, ?_⟩
    cases hc : chars L x with
    | none => exact .inl ⟨by simp [RK.take, glibTake, hc], by simp [HS.parse, glibBack, sharp, tx, hc]⟩
    | some b =>
      by_cases hz : (0 : UInt8) ∈ b
      · exact .inl ⟨by simp [RK.take, glibTake, hc, hz], by simp [HS.parse, glibBack, sharp, tx, hc, hz]⟩
      · refine .inr ⟨b, _, { g with bufs := g.bufs ++ [b] }, by simp [RK.take, glibTake, hc, hz],
          by simp [HS.parse, glibBack, sharp, tx, hc, hz]; rfl, by simp [hb], rfl, ?_⟩
        simp [RK.desc, HS.afters, HS.after, HS.store, HS.mkU, Heap.read, HS.set, RK.ty, tx, hb, cut_nz hz]

theorem parent_colon (p : Proxy) : ':' ∈ p.parentCall := by
  rw [parentCall_eq]
  simp [cppCall]

theorem code_other (p : Proxy) (m : M T D) (s : Str) (h : ':' ∉ s) : m.code p s = m := by
  unfold M.code
  rw [if_neg]
  intro e
  exact h (e ▸ parent_colon p)

theorem clean_other (m : M T D) (s : Str) (h : s ≠ decrefText) : m.clean s = m := by
  unfold M.clean
  rw [if_neg h]

theorem decref_split : ∃ t, decrefText = 'P' :: 'y' :: '_' :: 'D' :: t := ⟨_, rfl⟩

theorem release_ne (gil : Str) : releaseText gil ≠ decrefText := by
  obtain ⟨t, ht⟩ := decref_split
  obtain ⟨u, hu⟩ : ∃ u, releaseText gil = 'i' :: u := ⟨_, rfl⟩
  rw [ht, hu]; simp
theorem xdecref_ne (m : Str) : "Py_XDECREF(".toList ++ m ++ ");".toList ≠ decrefText := by
  obtain ⟨t, ht⟩ := decref_split
  obtain ⟨u, hu⟩ : ∃ u, "Py_XDECREF(".toList ++ m ++ ");".toList = 'P' :: 'y' :: '_' :: 'X' :: u := ⟨_, rfl⟩
  rw [ht, hu]; simp
theorem obj_ne (p : Proxy) (o : Str) : objText p ++ " = ".toList ++ o ++ ";".toList ≠ decrefText := by
  obtain ⟨t, ht⟩ := decref_split
  obtain ⟨u, hu⟩ : ∃ u, objText p ++ " = ".toList ++ o ++ ";".toList = 'r' :: u := ⟨_, rfl⟩
  rw [ht, hu]; simp

/-- The end of a failed call. -/
theorem leave_failed (p : Proxy) (r : RK) (hp : Fits p r) (m : M T D) (hm : m.parent = false) (hb : m.heap.bufs = []) :
    m.leave p (p.newError.getD p.errorReturn) =
      { given := m.given, cells := m.params.map (·.cell), parent := !p.isVoid && !p.noParent, leaked := [],
        back := giveUp p } := by
  have hc := parent_colon p
  unfold M.leave giveUp
  rw [hb, hm]
  cases hv : p.isVoid with
  | true =>
    have hn : p.newError = none := by simp [Proxy.newError, hv]
    have he := hp.error hv
    have : ("return;".toList == "return ".toList ++ p.parentCall) = false := by
      rw [beq_eq_false_iff_ne]; intro e
      have : ':' ∈ "return;".toList := by rw [e]; exact List.mem_append_right _ hc
      exact absurd this (by decide)
    rw [hn, Option.getD_none, he, this]
    simp
  | false =>
    cases hq : p.noParent with
    | false =>
      have hn : p.newError = some ("return ".toList ++ p.parentCall) := by simp [Proxy.newError, hv, hq]
      rw [hn, ← parentCall_eq]
      have h1 : "return ".toList ++ p.parentCall ≠ "return;".toList := by
        intro e
        have : ':' ∈ "return;".toList := by rw [← e]; exact List.mem_append_right _ hc
        exact absurd this (by decide)
      have h2 : "return ".toList ++ p.parentCall ≠ "return retval;".toList := by
        intro e
        have : ':' ∈ "return retval;".toList := by rw [← e]; exact List.mem_append_right _ hc
        exact absurd this (by decide)
      simp only [Option.getD_some, if_neg h1, if_neg h2]
      simp
    | true =>
      have e1 := hp.error'.1
      have e2 := hp.error'.2 hv
      cases ht : p.trivialRet with
      | true =>
        have hn : p.newError = none := by simp [Proxy.newError, hv, hq, ht]
        simp only [hn, Option.getD_none, if_neg e1, if_neg e2]
        simp
      | false =>
        have hn : p.newError = some fatalText := by simp [Proxy.newError, hv, hq, ht]
        have h1 : fatalText ≠ "return;".toList := by decide +kernel
        have h2 : fatalText ≠ "return retval;".toList := by decide +kernel
        simp only [hn, Option.getD_some, if_neg h1, if_neg h2]
        simp

theorem isEmpty_append {α : Type} (a b : List α) : (a ++ b).isEmpty = (a.isEmpty && b.isEmpty) := by
  cases a <;> rfl

theorem named_parse_empty {hn : Named} {args : List Arg} {r : RK}
    (h1 : hn.params.map (·.1) = args.map (fun a => a.kind.desc a.name)) (h2 : hn.ret.1 = r.desc) :
    hn.parse.isEmpty = (decide (r = .void) && (args.filter (fun a => a.kind.isOut)).isEmpty) := by
  have hr : (hn.ret.1.items hn.ret.2).isEmpty = decide (r = .void) := by
    rw [h2]; unfold RevD.items; cases r <;> rfl
  have hps : ∀ (l : List (RevD × List Str)) (as : List Arg), l.map (·.1) = as.map (fun a => a.kind.desc a.name) →
      (l.flatMap (fun d => d.1.items d.2)).isEmpty = (as.filter (fun a => a.kind.isOut)).isEmpty := by
    intro l
    induction l with
    | nil =>
      intro as h
      cases as with
      | nil => rfl
      | cons a as => cases h
    | cons x l ih =>
      intro as h
      cases as with
      | nil => cases h
      | cons a as =>
        simp only [List.map_cons, List.cons.injEq] at h
        have hb := back_iff a
        rw [List.flatMap_cons, List.filter_cons]
        have hx : (x.1.items x.2).isEmpty = !a.kind.isOut := by
          rw [← hb, h.1]; unfold RevD.items
          cases (a.kind.desc a.name).back <;> rfl
        cases ho : a.kind.isOut with
        | true =>
          rw [ho] at hx
          simp only [if_true]
          cases hi : x.1.items x.2 with
          | nil => rw [hi] at hx; cases hx
          | cons y ys => rfl
        | false =>
          rw [ho] at hx
          have : x.1.items x.2 = [] := by simpa using hx
          rw [this]
          simpa using ih as h.2
  have hp := hps hn.params args h1
  unfold Named.parse
  dsimp only
  split
  · rw [isEmpty_append, hr, hp]
  · rw [isEmpty_append, hr, hp, Bool.and_comm]

/-- The end of a successful call. -/
theorem leave_done (p : Proxy) (r : RK) (hp : Fits p r) (m : M T D) (hm : m.parent = false) (b : Bytes)
    (hty : m.ret.cell.ty = r.ty) (hb : r ≠ .cstr → r ≠ .void → m.ret.cell.bytes = b)
    (hc : r = .cstr → m.ret.cell.ptr = some .toResult) (hh : m.heap.held = false) :
    m.leave p (if p.isVoid then "return;".toList else "return retval;".toList) =
      { given := m.given, cells := m.params.map (·.cell), parent := false, leaked := m.heap.bufs,
        back := r.given b } := by
  have hcol := parent_colon p
  have hpar : ∀ s : Str, ':' ∉ s → (s == "return ".toList ++ p.parentCall) = false := by
    intro s hs
    rw [beq_eq_false_iff_ne]; intro e
    exact hs (by rw [e]; exact List.mem_append_right _ hcol)
  unfold M.leave
  rw [hm]
  by_cases hv : r = .void
  · subst hv
    have : p.isVoid = true := by rw [hp.void]; rfl
    rw [this, if_pos rfl, hpar _ (by decide)]
    simp [RK.given]
  · have : p.isVoid = false := by rw [hp.void]; simpa using hv
    rw [this, if_neg (by simp), hpar _ (by decide), if_neg (by decide), if_pos rfl, hty]
    cases r with
    | void => exact absurd rfl hv
    | cstr => simp [RK.given, RK.ty, hc rfl, Heap.read, hh]
    | char => simp [RK.given, RK.ty, hb (by simp) (by simp)]
    | std => simp [RK.given, RK.ty, hb (by simp) (by simp)]
    | glib => simp [RK.given, RK.ty, hb (by simp) (by simp)]

theorem filter_ready (args : List Arg) :
    (args.map Arg.ready).filter (fun h => h.d.back.isSome) = (args.filter (fun a => a.kind.isOut)).map Arg.ready := by
  induction args with
  | nil => rfl
  | cons a as ih =>
    rw [List.map_cons, List.filter_cons, List.filter_cons, ready_back, ih]
    cases a.kind.isOut <;> simp

theorem no_glib {args : List Arg} (h : args.filter (fun a => a.kind.isOut) = []) :
    args.any (fun a => a.kind.isOut && a.kind.isGlib) = false := by
  rw [List.any_eq_false]
  intro a ha
  have := List.filter_eq_nil_iff.mp h a ha
  simp only [Bool.and_eq_true]
  exact fun e => this e.1

theorem one_glib {args : List Arg} {a : Arg} (h : args.filter (fun a => a.kind.isOut) = [a]) :
    args.any (fun a => a.kind.isOut && a.kind.isGlib) = a.kind.isGlib := by
  have : args.any (fun a => a.kind.isOut && a.kind.isGlib) =
      (args.filter (fun a => a.kind.isOut)).any (fun a => a.kind.isGlib) := by
    rw [List.any_filter]
  rw [this, h]; simp

/-- **The exact behaviour of a proxy with string arguments and result.** -/
theorem C102_exact (L : Codec T) (p : Proxy) (args : List Arg) (r : RK) (hp : Fits p r) (ha : ∀ a ∈ args, a.Good)
    (gil m o : Str) (hn : Named) (h1 : hn.params.map (·.1) = args.map (fun a => a.kind.desc a.name))
    (h2 : hn.ret.1 = r.desc) (f : List (PyV T D) → Option (PyV T D)) :
    exec L p (some f) (plan p gil m o hn) (start args r) = some
      (match inputs L args with
       | none => failedCall p none args
       | some xs =>
         match f xs with
         | none => failedCall p (some xs) args
         | some x =>
           match accepted L args r x with
           | none => failedCall p (some xs) args
           | some b => doneCall xs args r b) := by
  have hne := named_parse_empty h1 h2
  have k1 : ':' ∉ "PyErr_Print();".toList := by decide
  have k2 : ':' ∉ noneText := by decide +kernel
  have q1 := release_ne gil
  have q2 := xdecref_ne m
  have q3 := obj_ne p o
  unfold plan shape
  rw [hne]
  generalize ensureText gil = z1
  generalize hr1 : releaseText gil = c1 at q1 ⊢
  generalize lookupText m p.pyName = z2
  generalize hr2 : "Py_XDECREF(".toList ++ m ++ ");".toList = c2 at q2 ⊢
  generalize hr3 : objText p ++ " = ".toList ++ o ++ ";".toList = c3 at q3 ⊢
  generalize o ++ " = ".toList ++ objText p ++ ";".toList = z3
  generalize objText p ++ " = ".toList ++ _ ++ ";".toList = z4
  simp only [List.cons_append, List.nil_append, exec, M.test, Option.isNone_some, Bool.false_eq_true, if_false,
    Option.bind_some]
  simp only [start]
  rw [mapHS_befores args ha]
  simp only [Option.bind_some, M.call]
  rw [passAll_ready L _ args ha]
  simp only [Option.bind_some]
  have cl : ∀ (mm : M T D) (s : Str), s ≠ decrefText → mm.clean s = mm := clean_other
  have hcells : (args.map Arg.ready).map (·.cell) = args.map (·.cell) := by
    rw [List.map_map]; exact List.map_congr_left (fun a _ => ready_cell a)
  cases hi : inputs L args with
  | none =>
    simp only [Option.bind_some, Option.isNone_none, if_true, List.map_cons, List.map_nil, List.foldl_cons,
      List.foldl_nil, code_other p _ _ k1, cl _ _ q1, cl _ _ q2, cl _ _ q3]
    rw [leave_failed p r hp _ rfl rfl]
    simp only [failedCall, hcells]
  | some xs =>
    dsimp only
    cases hf : f xs with
    | none =>
      simp only [Option.bind_some, Option.isNone_none, if_true, List.map_cons, List.map_nil, List.foldl_cons,
        List.foldl_nil, code_other p _ _ k1, cl _ _ q1, cl _ _ q2, cl _ _ q3]
      rw [leave_failed p r hp _ rfl rfl]
      simp only [failedCall, hcells]
    | some x =>
      simp only [Option.bind_some, Option.isNone_some, Bool.false_eq_true, if_false]
      have hbf : r.desc.before = [] := by cases r <;> rfl
      rw [hbf]
      simp only [HS.befores, Option.bind_some]
      generalize hout : args.filter (fun a => a.kind.isOut) = outs
      have hacc : accepted L args r x = acceptedFor L outs r x := by unfold accepted; rw [hout]
      by_cases hz : r = .void ∧ outs = []
      · -- nothing is expected
        obtain ⟨rfl, rfl⟩ := hz
        rw [hacc]
        simp only [decide_true, List.isEmpty_nil, Bool.and_self, if_true, List.cons_append, List.nil_append, exec, M.test]
        have hs : ∀ y : PyV T D, (isNone y = true ∧ RK.take L .void y = some []) ∨
            (isNone y = false ∧ RK.take L .void y = none) := by
          intro y
          cases y <;> simp [RK.take, isNone]
        simp only [acceptedFor, Option.map_some, Option.bind_some]
        rcases hs x with ⟨hx, ht⟩ | ⟨hx, ht⟩
        · rw [ht]
          simp only [hx, Bool.not_true, Bool.false_eq_true, if_false]
          obtain ⟨hs', i1, i2⟩ := mapHS_plain
            { res := some (x, (chars L x).getD []), held := true } [] args ha hout
          rw [i1]
          simp only [Option.bind_some]
          rw [show HS.afters _ _ (RK.desc .void).after = some _ from rfl]
          simp only [Option.bind_some, M.clean, if_true, if_neg q1, if_neg q2, if_neg q3]
          rw [leave_done p .void hp _ rfl [] rfl (fun _ h => absurd rfl h) nofun rfl]
          simp only [doneCall, i2, no_glib hout]
          simp
        · rw [ht]
          simp only [hx, Bool.not_false, if_true, List.map_cons, List.map_nil, List.foldl_cons,
            List.foldl_nil, code_other p _ _ k2, M.clean, if_neg q1, if_neg q2, if_neg q3]
          rw [leave_failed p .void hp _ rfl rfl]
          simp only [failedCall, hcells]
      · have hz' : (decide (r = .void) && outs.isEmpty) = false := by
          cases hd : decide (r = .void) with
          | false => rfl
          | true =>
            cases outs with
            | nil => exact absurd ⟨by simpa using hd, rfl⟩ hz
            | cons a l => rfl
        have hfr := filter_ready args
        rw [hout] at hfr
        rw [hacc]
        simp only [hz', Bool.false_eq_true, if_false, List.cons_append, List.nil_append, exec, M.test, M.parse, hfr]
        have hfail : ∀ (mm : M T D), mm.parent = false → mm.heap.bufs = [] → mm.given = some xs →
            mm.params = args.map Arg.ready →
            M.leave p (List.foldl M.clean (List.foldl (M.code p) mm ["PyErr_Print();".toList]) [decrefText, c3, c2, c1])
              (p.newError.getD p.errorReturn) = failedCall p (some xs) args := by
          intro mm e1 e2 e3 e4
          simp only [List.foldl_cons, List.foldl_nil, code_other p _ _ k1, M.clean, if_true, if_neg q1, if_neg q2,
            if_neg q3]
          rw [leave_failed p r hp _ (by exact e1) (by exact e2)]
          simp only [failedCall, e3, e4, hcells]
        simp only [List.map_cons, List.map_nil]
        cases outs with
        | nil =>
          have hrv : r ≠ .void := fun e => hz ⟨e, rfl⟩
          obtain ⟨u, hu, hr⟩ := parse_ret L r hrv x { res := some (x, (chars L x).getD []), held := true, bufs := [] }
            rfl rfl rfl
          simp only [List.map_nil, hu]
          rcases hr with ⟨r1, r2⟩ | ⟨b, h', g', r1, r2, r3, -, h'', r5, r6, r7, r8⟩
          · rw [r2, show acceptedFor L [] r x = none from r1]
            simp only [Option.map_some, Option.map_none, Option.bind_some, if_true]
            rw [hfail _ rfl rfl rfl rfl]
          · rw [r2, show acceptedFor L [] r x = some b from r1]
            simp only [Option.map_some, Option.bind_some, Bool.false_eq_true, if_false]
            obtain ⟨hs', i1, i2⟩ := mapHS_plain g' b args ha hout
            rw [i1]
            simp only [Option.bind_some]
            rw [r5]
            simp only [Option.bind_some, M.clean, if_true, if_neg q1, if_neg q2, if_neg q3]
            rw [leave_done p r hp _ rfl b r6 (fun h _ => r7 h) r8 rfl]
            simp only [doneCall, i2, no_glib hout, r3]
            simp
        | cons a l =>
          cases l with
          | cons a' l =>
            rw [show acceptedFor L (a :: a' :: l) r x = none by cases r <;> rfl]
            simp only [List.map_cons, Option.map_some, Option.bind_some, if_true]
            rw [hfail _ rfl rfl rfl rfl]
          | nil =>
            by_cases hrv : r = .void
            · subst hrv
              have hgo := go_ready L ({ params := args.map Arg.ready, ret := { d := RK.desc .void, cell := { ty := RK.ty .void } }, heap := { res := some (x, (chars L x).getD []), held := true, bufs := [] }, given := some xs } : M T D) x
                rfl rfl rfl args a ha hout
              simp only [List.map_cons, List.map_nil, show (RK.desc .void).back = none from rfl]
              rcases hgo with ⟨r1, r2⟩ | ⟨b, hs', g', r1, r2, r3, hs'', r4, r5⟩
              · rw [r2, show acceptedFor L [a] .void x = none from r1]
                simp only [Option.map_some, Option.map_none, Option.bind_some, if_true]
                rw [hfail _ rfl rfl rfl rfl]
              · rw [r2, show acceptedFor L [a] .void x = some b from r1]
                simp only [Option.map_some, Option.bind_some, Bool.false_eq_true, if_false]
                rw [r4]
                simp only [Option.bind_some]
                rw [show HS.afters _ _ (RK.desc .void).after = some _ from rfl]
                simp only [Option.bind_some, M.clean, if_true, if_neg q1, if_neg q2, if_neg q3]
                rw [leave_done p .void hp _ rfl b rfl (fun _ h => absurd rfl h) nofun rfl]
                simp only [doneCall, r5, one_glib hout, r3]
                simp
            · have hb : ∃ u, r.desc.back = some u := by
                cases r with
                | void => exact absurd rfl hrv
                | _ => exact ⟨_, rfl⟩
              obtain ⟨u, hu⟩ := hb
              rw [show acceptedFor L [a] r x = none by cases r <;> first | rfl | exact absurd rfl hrv]
              simp only [List.map_cons, List.map_nil, hu, Option.map_some, Option.bind_some, if_true]
              rw [hfail _ rfl rfl rfl rfl]

end Verif.Exchange
