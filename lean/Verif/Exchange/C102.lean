import Verif.Exchange.Props

/-!
# C102: the property
-/
namespace Verif.Exchange
open Verif Verif.Flow Verif.Params Verif.DeclScope Verif.Wrap

variable {T D : Type}

/-- A call with no argument handed over and nothing returned by Python: the arguments are as they were, nothing
is allocated. -/
def CameToNothing (p : Proxy) (args : List Arg) (fin : Fin T D) : Prop :=
  fin.cells = args.map (·.cell) ∧ fin.leaked = [] ∧ fin.back = giveUp p ∧ fin.parent = (!p.isVoid && !p.noParent)

/-- **C102.**  For string parameters of every class and number and every string return class other than `char *`, the
body that is generated does the following when the method has a Python override `f`, for all arguments:

* if every input argument can be expressed in Python, `f` is called with exactly these arguments, in order, otherwise
  `f` is not called and the call comes to nothing;
* if `f` raises an exception, or returns something that is not the one value expected, the call comes to nothing;
* otherwise the characters of the object returned are what the C++ caller gets: as return value or in the output
  argument; the other arguments keep their characters, and exactly those handed over are deleted, once. -/
theorem C102_exchange_partial (p : Proxy) (retDecl : Option Str) (ks : List (Str × PK)) (r : RK) (hp : Fits p r)
    (hr : r ≠ .cstr) (w0 w : W) (h0 : w0.ops = [] ∧ w0.build = [] ∧ w0.parse = [])
    (h : reverseGenerate (p.config retDecl (ks.map (fun k => (k.2.desc k.1).convert)) r.desc.convert) w0 = .ok w) :
    ∃ gil m o hn, ((Gen.fresh (fun _ => p.errorReturn)).run w.ops).body 2 = (plan p gil m o hn).flatMap (St.text p m hn) ∧
    ∀ (L : Codec T) (args : List Arg), args.map (fun a => (a.name, a.kind)) = ks → (∀ a ∈ args, a.Good) →
    ∀ f : List (PyV T D) → Option (PyV T D), ∃ fin, exec L p (some f) (plan p gil m o hn) (start args r) = some fin ∧
      fin.given = inputs L args ∧
      (∀ b, (inputs L args).bind (fun xs => (f xs).bind (accepted L args r)) = some b →
        fin.back = (if r = .void then .nothing else .value b) ∧ fin.parent = false ∧
        List.Forall₂ (fun a c => c.bytes = (if a.kind.isOut then b else a.cell.bytes) ∧
          c.deleted = (if a.kind.transfer then 1 else 0)) args fin.cells) ∧
      ((inputs L args).bind (fun xs => (f xs).bind (accepted L args r)) = none → CameToNothing p args fin) := by
  have hfr : ∀ d ∈ ks.map (fun k => k.2.desc k.1), d.front = false := by
    intro d hd
    obtain ⟨k, -, rfl⟩ := List.mem_map.mp hd
    cases k.2 <;> rfl
  have hbk : ∀ d ∈ r.desc :: ks.map (fun k => k.2.desc k.1), ∀ u, d.back = some u → u.1 ≠ [] := by
    intro d hd u hu
    rcases List.mem_cons.mp hd with rfl | hd
    · cases r <;> simp [RK.desc, stdBack, glibBack, sharp] at hu <;> subst hu <;> simp
    · obtain ⟨k, -, rfl⟩ := List.mem_map.mp hd
      cases hk : k.2 <;> rw [hk] at hu <;> simp [PK.desc, stdBack, glibBack, sharp] at hu <;> (try rw [← hu.2]) <;> simp
  rw [show ks.map (fun k => (k.2.desc k.1).convert) = (ks.map (fun k => k.2.desc k.1)).map RevD.convert by
    rw [List.map_map]; rfl] at h
  obtain ⟨gil, m, o, hn, a1, a2, -, hbody⟩ := body_plan hfr hbk h h0.1 h0.2.1 h0.2.2
  refine ⟨gil, m, o, hn, hbody, ?_⟩
  intro L args hk ha f
  have hex := C102_exact L p args r hp ha gil m o hn (by rw [a1, ← hk, List.map_map]; rfl) a2 f
  refine ⟨_, hex, ?_⟩
  cases hi : inputs (D := D) L args with
  | none => exact ⟨rfl, by simp, fun _ => ⟨rfl, rfl, rfl, rfl⟩⟩
  | some xs =>
    dsimp only
    cases hf : f xs with
    | none => exact ⟨rfl, by simp [hf], fun _ => ⟨rfl, rfl, rfl, rfl⟩⟩
    | some x =>
      dsimp only
      cases hc : accepted L args r x with
      | none => exact ⟨rfl, by simp [hf, hc], fun _ => ⟨rfl, rfl, rfl, rfl⟩⟩
      | some b =>
        refine ⟨rfl, ?_, by simp [hf, hc]⟩
        intro b' hb'
        simp only [Option.bind_some, hf, hc, Option.some.injEq] at hb'
        subst hb'
        refine ⟨?_, rfl, ?_⟩
        · show r.given b = _
          cases r <;> first | rfl | exact absurd rfl hr
        · show List.Forall₂ _ args (args.map (Arg.result b))
          clear hc hk ha hex hi
          induction args with
          | nil => exact .nil
          | cons a as ih => exact .cons ⟨rfl, rfl⟩ ih

/-- What `accepted` means for `std::string`: text comes back as its UTF-8 bytes, bytes as they are; in particular a
string passed to Python and returned unchanged is unchanged. -/
theorem C102_text (L : Codec T) (name : Str) (c : Cell) (x : PyV T D)
    (hx : Arg.input L ⟨name, .std, c⟩ = some x) : accepted L [⟨name, .std, c⟩] .std x = some c.bytes := by
  simp only [Arg.input] at hx
  cases hd : L.dec c.bytes with
  | none => rw [hd] at hx; cases hx
  | some s =>
    rw [hd] at hx
    cases hx
    have := (L.law c.bytes s).mp hd
    simp [accepted, acceptedFor, PK.isOut, RK.take, stdTake, chars, this]

/-- Nothing stays allocated unless a `Glib::ustring` came back. -/
theorem C102_memory_partial (L : Codec T) (p : Proxy) (args : List Arg) (r : RK) (hp : Fits p r)
    (ha : ∀ a ∈ args, a.Good) (hr : r ≠ .glib) (hg : ∀ a ∈ args, a.kind.isOut = true → a.kind.isGlib = false)
    (gil m o : Str) (hn : Named) (h1 : hn.params.map (·.1) = args.map (fun a => a.kind.desc a.name))
    (h2 : hn.ret.1 = r.desc) (f : List (PyV T D) → Option (PyV T D)) :
    ∃ fin, exec L p (some f) (plan p gil m o hn) (start args r) = some fin ∧ fin.leaked = [] := by
  refine ⟨_, C102_exact L p args r hp ha gil m o hn h1 h2 f, ?_⟩
  have hz : args.any (fun a => a.kind.isOut && a.kind.isGlib) = false := by
    rw [List.any_eq_false]
    intro a haa
    simp only [Bool.and_eq_true, not_and]
    intro ho
    rw [hg a haa ho]; simp
  split
  · rfl
  · split
    · rfl
    · split
      · rfl
      · simp [doneCall, hr, hz]

/-- False of `Glib::ustring`: the block `PyArg_ParseTuple` allocates for the `et` unit is not freed. -/
theorem C102_leak_counterexample (L : Codec T) (p : Proxy) (args : List Arg) (hp : Fits p .glib)
    (ha : ∀ a ∈ args, a.Good) (gil m o : Str) (hn : Named)
    (h1 : hn.params.map (·.1) = args.map (fun a => a.kind.desc a.name)) (h2 : hn.ret.1 = RK.desc .glib)
    (f : List (PyV T D) → Option (PyV T D)) (xs : List (PyV T D)) (x : PyV T D) (b : Bytes)
    (hi : inputs L args = some xs) (hf : f xs = some x) (hx : accepted L args .glib x = some b) :
    ∃ fin, exec L p (some f) (plan p gil m o hn) (start args .glib) = some fin ∧ fin.leaked = [b] := by
  refine ⟨_, C102_exact L p args .glib hp ha gil m o hn h1 h2 f, ?_⟩
  simp [hi, hf, hx, doneCall]

/-- False of `char *`: every accepted string is returned as a pointer into an object that was already given up. -/
theorem C102_dangling_counterexample (L : Codec T) (p : Proxy) (args : List Arg) (hp : Fits p .cstr)
    (ha : ∀ a ∈ args, a.Good) (gil m o : Str) (hn : Named)
    (h1 : hn.params.map (·.1) = args.map (fun a => a.kind.desc a.name)) (h2 : hn.ret.1 = RK.desc .cstr)
    (f : List (PyV T D) → Option (PyV T D)) (xs : List (PyV T D)) (x : PyV T D) (b : Bytes)
    (hi : inputs L args = some xs) (hf : f xs = some x) (hx : accepted L args .cstr x = some b) :
    ∃ fin, exec L p (some f) (plan p gil m o hn) (start args .cstr) = some fin ∧ fin.back = .dangling := by
  refine ⟨_, C102_exact L p args .cstr hp ha gil m o hn h1 h2 f, ?_⟩
  simp [hi, hf, hx, doneCall, RK.given]

/-- The two ways a call can end. -/
theorem outcome_cases (L : Codec T) (p : Proxy) (args : List Arg) (r : RK) (f : List (PyV T D) → Option (PyV T D))
    (fin : Fin T D) (h : fin = (match inputs L args with
       | none => failedCall p none args
       | some xs =>
         match f xs with
         | none => failedCall p (some xs) args
         | some x =>
           match accepted L args r x with
           | none => failedCall p (some xs) args
           | some b => doneCall xs args r b)) :
    (((inputs L args).bind (fun xs => (f xs).bind (accepted L args r))) = none ∧ ∃ g, fin = failedCall p g args) ∨
    ∃ xs b, fin = doneCall xs args r b := by
  subst h
  cases hi : inputs (D := D) L args with
  | none => exact .inl ⟨rfl, _, rfl⟩
  | some xs =>
    dsimp only
    cases hf : f xs with
    | none => exact .inl ⟨by simp [hf], _, rfl⟩
    | some x =>
      dsimp only
      cases hc : accepted L args r x with
      | none => exact .inl ⟨by simp [hf, hc], _, rfl⟩
      | some b => exact .inr ⟨_, _, rfl⟩

/-- Ownership: every string handed over is either deleted once by the proxy or passed on to the C++ implementation, and
no other string is deleted — if the call succeeds, or the method returns a value and has an implementation in C++. -/
theorem C102_transfer_partial (L : Codec T) (p : Proxy) (args : List Arg) (r : RK) (hp : Fits p r)
    (ha : ∀ a ∈ args, a.Good) (gil m o : Str) (hn : Named)
    (h1 : hn.params.map (·.1) = args.map (fun a => a.kind.desc a.name)) (h2 : hn.ret.1 = r.desc)
    (f : List (PyV T D) → Option (PyV T D))
    (hok : (p.isVoid = false ∧ p.noParent = false) ∨
      ((inputs L args).bind (fun xs => (f xs).bind (accepted L args r))).isSome = true) :
    ∃ fin, exec L p (some f) (plan p gil m o hn) (start args r) = some fin ∧
      List.Forall₂ (fun a c => c.deleted + (if fin.parent = true ∧ a.kind.transfer = true then 1 else 0) =
        (if a.kind.transfer then 1 else 0)) args fin.cells := by
  obtain ⟨fin, hfin, he⟩ : ∃ fin, fin = (match inputs L args with
       | none => failedCall p none args
       | some xs =>
         match f xs with
         | none => failedCall p (some xs) args
         | some x =>
           match accepted L args r x with
           | none => failedCall p (some xs) args
           | some b => doneCall xs args r b) ∧
      exec L p (some f) (plan p gil m o hn) (start args r) = some fin :=
    ⟨_, rfl, C102_exact L p args r hp ha gil m o hn h1 h2 f⟩
  refine ⟨fin, he, ?_⟩
  clear he
  rcases outcome_cases L p args r f fin hfin with ⟨hno, g, rfl⟩ | ⟨xs, b, rfl⟩
  · rw [hno] at hok
    have hv : p.isVoid = false ∧ p.noParent = false := hok.resolve_right (by simp)
    have hpar : (failedCall (T := T) (D := D) p g args).parent = true := by simp [failedCall, hv]
    rw [hpar]
    show List.Forall₂ _ args (args.map (·.cell))
    clear h1 hok hfin hno hpar
    induction args with
    | nil => exact .nil
    | cons a as ih =>
      exact .cons (by rw [(ha a List.mem_cons_self).2.1]; simp) (ih (fun b hb => ha b (List.mem_cons_of_mem _ hb)))
  · show List.Forall₂ (fun a c => c.deleted + (if false = true ∧ a.kind.transfer = true then 1 else 0) =
      (if a.kind.transfer then 1 else 0)) args (args.map (Arg.result b))
    clear ha h1 hok hfin
    induction args with
    | nil => exact .nil
    | cons a as ih => exact .cons (by simp [Arg.result]) ih

/-- False otherwise: the override of a `void` method raises an exception; the string handed over is neither deleted
nor passed on. -/
theorem C102_transfer_counterexample (L : Codec T) (p : Proxy) (name : Str) (b : Bytes) (hp : Fits p .void)
    (gil m o : Str) (hn : Named) (h1 : hn.params.map (·.1) = [PK.desc name (.stdPtr true false true)])
    (h2 : hn.ret.1 = RK.desc .void) :
    ∃ fin, exec L p (some (fun _ : List (PyV T D) => none)) (plan p gil m o hn)
      (start [⟨name, .stdPtr true false true, { ty := .stdPtr, bytes := b }⟩] .void) = some fin ∧
      fin.parent = false ∧ fin.cells.map (·.deleted) = [0] := by
  have hv : p.isVoid = true := by rw [hp.void]; rfl
  refine ⟨_, C102_exact L p [⟨name, .stdPtr true false true, { ty := .stdPtr, bytes := b }⟩] .void hp
    (by intro a ha; rw [List.mem_singleton.mp ha]; exact ⟨rfl, rfl, rfl⟩) gil m o hn h1 h2 _, ?_⟩
  split <;> simp [failedCall, hv]

/-- False when two strings are to come back: nothing Python can return is accepted. -/
theorem C102_several_counterexample (L : Codec T) (args : List Arg) (r : RK)
    (h : 2 ≤ (args.filter (fun a => a.kind.isOut)).length + (if r = .void then 0 else 1)) (x : PyV T D) :
    accepted L args r x = none := by
  unfold accepted
  cases ho : args.filter (fun a => a.kind.isOut) with
  | nil => rw [ho] at h; simp at h; split at h <;> omega
  | cons a l =>
    cases l with
    | cons b l => cases r <;> rfl
    | nil =>
      rw [ho] at h
      cases r <;> first | rfl | (simp at h)

/-! ## Non-vacuity -/

/-- The code point of a small character. -/
theorem toNat_ofNat_small (n : Nat) (h : n < 128) : (Char.ofNat n).toNat = n := by
  have hv : n.isValidChar := Or.inl (by omega)
  rw [Char.ofNat, dif_pos hv]
  rfl

/-- A codec: ASCII. -/
def ascii : Codec (List Char) where
  enc s := if s.all (fun c => c.toNat < 128) then some (s.map (fun c => UInt8.ofNat c.toNat)) else none
  dec b := if b.all (fun x => x.toNat < 128) then some (b.map (fun x => Char.ofNat x.toNat)) else none
  law b s := by
    constructor
    · intro h
      by_cases hb : b.all (fun x => x.toNat < 128) = true
      · rw [if_pos hb] at h
        cases h
        rw [List.all_eq_true] at hb
        rw [if_pos]
        · rw [List.map_map]
          congr 1
          conv_rhs => rw [← List.map_id b]
          refine List.map_congr_left fun x hx => ?_
          have := of_decide_eq_true (hb x hx)
          have hv : (Char.ofNat x.toNat).toNat = x.toNat := by
            exact toNat_ofNat_small _ this
          simp only [Function.comp_apply, id, hv]
          exact UInt8.ofNat_toNat
        · rw [List.all_eq_true]
          intro c hc
          obtain ⟨x, hx, rfl⟩ := List.mem_map.mp hc
          have := of_decide_eq_true (hb x hx)
          rw [toNat_ofNat_small _ this]
          exact decide_eq_true this
      · rw [if_neg hb] at h; cases h
    · intro h
      by_cases hs : s.all (fun c => c.toNat < 128) = true
      · rw [if_pos hs] at h
        cases h
        rw [List.all_eq_true] at hs
        rw [if_pos]
        · rw [List.map_map]
          congr 1
          conv_rhs => rw [← List.map_id s]
          refine List.map_congr_left fun c hc => ?_
          have := of_decide_eq_true (hs c hc)
          have hv : (UInt8.ofNat c.toNat).toNat = c.toNat := by
            rw [UInt8.toNat_ofNat']; omega
          simp only [Function.comp_apply, id, hv]
          exact Char.ofNat_toNat c
        · rw [List.all_eq_true]
          intro x hx
          obtain ⟨c, hc, rfl⟩ := List.mem_map.mp hx
          have := of_decide_eq_true (hs c hc)
          have hv : (UInt8.ofNat c.toNat).toNat = c.toNat := by
            rw [UInt8.toNat_ofNat']; omega
          rw [hv]
          exact decide_eq_true this
      · rw [if_neg hs] at h; cases h

def proxy1 : Proxy :=
  { cls := "A".toList, pystruct := "PyA".toList, method := "f".toList, params := ["a".toList, "b".toList], isVoid := false
    noParent := false, errorReturn := "return std::string();".toList }

example : Fits proxy1 .std := ⟨rfl, nofun, by decide, fun _ => by decide⟩

/-- `std::string f(std::string a, Glib::ustring &b /* in */)`: the wrapper is generated. -/
example : (reverseGenerate (proxy1.config (some "std::string".toList)
    ([("a".toList, PK.std), ("b".toList, .glibRef true false)].map (fun k => (k.2.desc k.1).convert)) (RK.desc .std).convert) {}).isOk =
    true := by decide +kernel

/-- `f("hi", "x")` with an override that returns its first argument. -/
example : ∃ fin, exec ascii proxy1 (some (fun xs : List (PyV (List Char) Unit) => xs.head?))
    (plan proxy1 "g".toList "m".toList "o".toList
      ⟨[(PK.desc "a".toList .std, ["a_ptr".toList, "a_len".toList]),
        (PK.desc "b".toList (.glibRef true false), ["b_ptr".toList, "b_len".toList])],
       (RK.desc .std, ["retval_ptr".toList, "retval_len".toList])⟩)
    (start [⟨"a".toList, .std, { ty := .std, bytes := [104, 105] }⟩, ⟨"b".toList, .glibRef true false, { ty := .glib, bytes := [120] }⟩]
      .std) = some fin ∧ fin.back = .value [104, 105] := by
  refine ⟨_, C102_exact ascii proxy1 _ .std ⟨rfl, nofun, by decide, fun _ => by decide⟩ ?_ _ _ _ _ rfl rfl _, ?_⟩
  · intro a ha
    rcases List.mem_cons.mp ha with rfl | ha
    · exact ⟨rfl, rfl, rfl⟩
    · rw [List.mem_singleton.mp ha]; exact ⟨rfl, rfl, rfl⟩
  · decide +kernel

end Verif.Exchange
