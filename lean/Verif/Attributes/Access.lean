import Verif.Attributes.Props

/-!
# C77, C78, C79: reading, assigning and deleting attributes
-/
namespace Verif.Attr
open Verif Verif.Wrap Verif.Flow Verif.Params Verif.DeclScope Verif.Utils

/-! ## Specification -/

/-- The C++ expression an attribute stands for when it is read. -/
def Meant (c : Cls) (d : Decl) (e : Str) : Prop :=
  match d.access with
  | .member none _ => e = "self->obj->".toList ++ d.name
  | .member (some g) _ => e = "self->obj->".toList ++ g ++ "()".toList
  | .custom g [] _ _ => e = g ++ "(*((".toList ++ c.pystruct ++ " *)self)->obj)".toList
  | .custom g [a] _ _ => e = g ++ "<".toList ++ a ++ ">(*((".toList ++ c.pystruct ++ " *)self)->obj)".toList
  | .custom g (a :: b :: l) _ _ => ∃ more, e = g ++ "<".toList ++ a ++ ", ".toList ++ b ++ " ".toList ++ more ++
      ">(*((".toList ++ c.pystruct ++ " *)self)->obj)".toList ∧
      more = l.flatMap (fun x => ", ".toList ++ x ++ " ".toList)
  | .static => e = c.fullName ++ "::".toList ++ d.name

/-- What a getter returns: its `Py_BuildValue`, given the values of the C++ expressions. -/
def result {Val Py : Type} (L : Lang Val Py) (expr : Str → Val) (w : W) : Option (List Py) :=
  buildAll L (fun e => some (expr e)) w.build

/-! ## Reading -/

theorem meant_getterValue (c : Cls) (d : Decl) : Meant c d (getterValue c d) := by
  unfold Meant getterValue
  cases ha : d.access with
  | static => rfl
  | member g s => cases g <;> rfl
  | custom g ga s sa =>
    match ga with
    | [] => simp [templated, selfObj]
    | [a] => simp [templated, selfObj]
    | a :: b :: l => exact ⟨_, by simp [templated, selfObj], rfl⟩

theorem prefix_name {a b x y : Str} (h : a ++ b ++ x = a ++ b ++ y) : x = y := List.append_cancel_left h

theorem getter_ne_setter (c : Cls) (d e : Decl) : getterName c d ≠ setterName c e := by
  unfold getterName setterName
  simp only [List.append_assoc]
  intro h
  have h := List.append_cancel_left (List.append_cancel_left h)
  simp at h

theorem getterName_inj {c : Cls} {d e : Decl} (h : getterName c d = getterName c e) : d.name = e.name := by
  unfold getterName at h
  exact List.append_cancel_left h

theorem setterName_inj {c : Cls} {d e : Decl} (h : setterName c d = setterName c e) : d.name = e.name := by
  unfold setterName at h
  exact List.append_cancel_left h

theorem nodup_name {l : List Decl} (hn : (l.map Decl.name).Nodup) {a b : Decl} (ha : a ∈ l) (hb : b ∈ l)
    (hab : a.name = b.name) : a = b := by
  induction l with
  | nil => cases ha
  | cons x l ih =>
    rw [List.map_cons, List.nodup_cons] at hn
    rcases List.mem_cons.mp ha with rfl | ha1 <;> rcases List.mem_cons.mp hb with rfl | hb1
    · rfl
    · exact absurd ((List.mem_map (l := l)).mpr ⟨b, hb1, hab.symm⟩) hn.1
    · exact absurd ((List.mem_map (l := l)).mpr ⟨a, ha1, hab⟩) hn.1
    · exact ih hn.2 ha1 hb1

/-- **C77.**  When no two attributes of a class use the same `ReturnValue` object (in particular,
when all types are given as text), every getter written for the class converts the C++ expression its
attribute stands for, with the conversion of the attribute's type, whatever other attributes were
declared, in whatever order, and whether or not some of them could be generated. -/
theorem C77_getter_partial (handler : Handler (Bool × Decl)) (c : Cls) (h0 : Heap) (ds : List Decl)
    (hrv : (ds.map Decl.rv).Nodup) (hname : (ds.map Decl.name).Nodup) (fns : List Fn)
    (t1 t2 : Option (List Row)) (hr : genClass handler c (addAll c { heap := h0 } ds) = .ok (fns, t1, t2))
    (d : Decl) (hd : d ∈ ds) (f : Fn) (hf : f ∈ fns) (hfn : f.name = getterName c d) :
    ∃ e, Meant c d e ∧
      (do generateBody { call := .ok, ret := some ((h0 d.rv).type.toPy e) } (← initState true none {})) =
        .ok f.body := by
  obtain ⟨d', hd', hp, ⟨ht, hv⟩, hcase⟩ := genClass_fns handler c h0 ds hrv fns t1 t2 hr f hf
  rcases hcase with ⟨hn, hb⟩ | ⟨hn, -, -⟩
  · have := nodup_name hname hd hd' (getterName_inj (c := c) (hfn.symm.trans hn))
    subst this
    refine ⟨getterValue c d, meant_getterValue c d, ?_⟩
    unfold getterBody at hb
    rw [ht, hv] at hb
    exact hb
  · exact absurd (hfn.symm.trans hn) (getter_ne_setter c d d')

theorem getter_build {fmt e : Str} {w : W}
    (h : (do generateBody { call := .ok, ret := some (scalarReturn fmt e) } (← initState true none {})) = .ok w) :
    w.build = [⟨fmt, [e], none⟩] := by
  obtain ⟨w0, h0, h⟩ := bind_ok.mp h
  have hb0 : w0.build = [] ∧ w0.parse = [] := by
    have e : (initState true none {}).toOption.map (fun w => (w.build, w.parse)) = some ([], []) := rfl
    rw [h0] at e
    simpa [Except.toOption] using e
  unfold generateBody at h
  obtain ⟨⟨wa, ts⟩, ha, h⟩ := bind_ok.mp h
  have ha := Except.ok.inj ha
  simp only [Prod.mk.injEq] at ha
  obtain ⟨rfl, -⟩ := ha
  dsimp only at h
  obtain ⟨wb, hb, h⟩ := bind_ok.mp h
  have hb := Except.ok.inj hb
  subst hb
  obtain ⟨wc, hc, h⟩ := bind_ok.mp h
  have hc := Except.ok.inj hc
  obtain ⟨wd, hd, h⟩ := bind_ok.mp h
  have hd := Except.ok.inj hd
  obtain ⟨we, he, h⟩ := bind_ok.mp h
  obtain ⟨wf, hf, h⟩ := bind_ok.mp h
  obtain ⟨wg, hg, h⟩ := bind_ok.mp h
  have hg := Except.ok.inj hg
  have h := Except.ok.inj h
  have hbd : wd.build = [] := by
    rw [← hd, ← hc]; exact hb0.1
  have hbe : we.build = [] := by
    unfold parseStep at he
    obtain ⟨ps, -, he⟩ := bind_ok.mp he
    obtain ⟨ks, -, he⟩ := bind_ok.mp he
    split at he
    · split at he
      · rw [← Except.ok.inj he]; exact hbd
      · obtain ⟨⟨wx, v⟩, hx, he⟩ := bind_ok.mp he
        rw [← Except.ok.inj he]
        show wx.build = []
        rw [(declare_spec hx).2]; exact hbd
    · rw [← Except.ok.inj he]; exact hbd
  have hbf : wf.build = [⟨fmt, [e], none⟩] := by
    have hf : guardNI (scalarReturn fmt e we) = .ok wf := hf
    have hf := guardNI_ok.mp hf
    rw [← Except.ok.inj hf]
    simp [W.addBuild, Params.addBuild, hbe]
  have hbg : wg.build = [⟨fmt, [e], none⟩] := by rw [← hg]; exact hbf
  rw [← h]
  have : ∀ w : W, (resultStep w).build = w.build := by
    intro w; unfold resultStep; dsimp only; split <;> rfl
  show (resultStep wg).build = _
  rw [this, hbg]

/-- C77 (values): so for the scalar types, reading returns the value of that expression, converted. -/
theorem C77_value_partial {Val Py : Type} (L : Lang Val Py) (expr : Str → Val)
    (handler : Handler (Bool × Decl)) (c : Cls) (h0 : Heap) (ds : List Decl)
    (hrv : (ds.map Decl.rv).Nodup) (hname : (ds.map Decl.name).Nodup) (fns : List Fn)
    (t1 t2 : Option (List Row)) (hr : genClass handler c (addAll c { heap := h0 } ds) = .ok (fns, t1, t2))
    (d : Decl) (hd : d ∈ ds) (f : Fn) (hf : f ∈ fns) (hfn : f.name = getterName c d) (fmt : Str)
    (hT : (h0 d.rv).type.toPy = scalarReturn fmt) :
    ∃ e, Meant c d e ∧ result L expr f.body = some [L.unconv fmt (expr e)] := by
  obtain ⟨e, he, hb⟩ := C77_getter_partial handler c h0 ds hrv hname fns t1 t2 hr d hd f hf hfn
  refine ⟨e, he, ?_⟩
  rw [hT] at hb
  unfold result
  rw [getter_build hb]
  rfl

/-- The claim is false when two attributes are declared with one `ReturnValue` object: the first
getter reads the second member, and the second getter the first one. -/
theorem C77_shared_counterexample {Val Py : Type} (L : Lang Val Py) (expr : Str → Val) :
    ∃ (h0 : Heap) (fns : List Fn) (t1 t2 : Option (List Row)) (c : Cls) (a b : Decl) (f g : Fn),
      a.name = "a".toList ∧ a.access = .member none none ∧ b.name = "b".toList ∧ b.access = .member none none ∧
      genClass none c (addAll c { heap := h0 } [a, b]) = .ok (fns, t1, t2) ∧ f ∈ fns ∧ g ∈ fns ∧
      f.name = getterName c a ∧ g.name = getterName c b ∧
      result L expr f.body = some [L.unconv "i".toList (expr "self->obj->b".toList)] ∧
      result L expr g.body = some [L.unconv "i".toList (expr "self->obj->a".toList)] := by
  refine ⟨fun _ => { type := inPlace "int".toList "i".toList (scalarReturn "i".toList) }, _, _, _,
    ⟨"PyFoo".toList, "Foo".toList⟩, ⟨"a".toList, 0, .member none none, false, none⟩,
    ⟨"b".toList, 0, .member none none, false, none⟩, _, _, rfl, rfl, rfl, rfl, rfl,
    List.mem_cons_self, List.mem_cons_of_mem _ (List.mem_cons_of_mem _ List.mem_cons_self), rfl, rfl, rfl, rfl⟩

/-! ## Assigning -/

/-- Where the converted value goes. -/
def storeTo (c : Cls) (d : Decl) : Str :=
  match d.access with
  | .member _ none => "self->obj->".toList ++ d.name
  | .custom _ _ none _ => "self->obj->".toList ++ d.name
  | .static => c.fullName ++ "::".toList ++ d.name
  | _ => "tmp_value".toList

/-- The statement then handing it to the setter method or function, if there is one. -/
def handOver (c : Cls) (d : Decl) : List Str :=
  match d.access with
  | .member _ (some s) => ["self->obj->".toList ++ s ++ "(tmp_value);".toList]
  | .custom _ _ (some s) args =>
    [templated s args ++ "(*((".toList ++ c.pystruct ++ " *)self)->obj, tmp_value);".toList]
  | _ => []

/-- Executions of a setter begin by making a tuple of the object assigned, which is due to be
released. -/
def begun : List Ev :=
  [.did (.code "py_retval = Py_BuildValue((char *) \"(O)\", value);".toList),
   .took 0 1 "Py_DECREF(py_retval);".toList]

/-- The parsing of that tuple, with the format and the address given. -/
def parsing (fmt addr : Str) : Str :=
  "!PyArg_ParseTuple(py_retval, (char *) \"".toList ++ fmt ++ "\", ".toList ++ addr ++ ")".toList

/-- The tuple is released and the setter returns. -/
def ended (r : String) : List Ev :=
  [.did (.clean 0 1 "Py_DECREF(py_retval);".toList), .did (.ret r.toList)]

/-- The executions of a function. -/
def Runs (f : Fn) (t : List Ev) : Prop :=
  Path (((Gen.fresh (fun _ => "return -1;".toList)).run f.body.ops).body 2) t

theorem setterStart_ok {w : W} (h : setterStart {} = .ok w) :
    w.ops = [.write 0 "py_retval = Py_BuildValue((char *) \"(O)\", value);".toList,
      .add 0 "Py_DECREF(py_retval);".toList] ∧ w.parse = [] ∧
    ∀ n, w.decls.counts n = if n = "py_retval".toList then 1 else 0 := by
  unfold setterStart at h
  obtain ⟨⟨w1, v⟩, h1, h⟩ := bind_ok.mp h
  have h := Except.ok.inj h
  obtain ⟨h2, h3⟩ := declare_spec h1
  rw [← h, h3]
  refine ⟨rfl, rfl, ?_⟩
  intro n
  rfl

theorem declare_counts {w w' : W} {t n v : Str} {x a : Option Str} (h : w.declare t n x a = .ok (w', v)) :
    (∀ m, w'.decls.counts m = if m = n then w.decls.counts n + 1 else w.decls.counts m) ∧
    v = if w.decls.counts n + 1 = 1 then n else n ++ natStr (w.decls.counts n + 1) := by
  obtain ⟨h1, h2⟩ := declare_spec h
  rw [h2]
  unfold Family.declare at h1 ⊢
  dsimp only [Family.pick] at h1 ⊢
  split at h1
  · cases h1
  · exact ⟨fun m => rfl, (Except.ok.inj h1).symm⟩

theorem setterTarget_ok {c : Cls} {h0 : Heap} {d : Decl} {o o' : Obj} {w w' : W}
    (h : setterTarget d o w = .ok (w', o')) (hh : Holds c h0 d o)
    (hc : ∀ n, w.decls.counts n = if n = "py_retval".toList then 1 else 0) :
    w'.ops = w.ops ∧ w'.parse = w.parse ∧ o'.type = (h0 d.rv).type ∧ o'.value = storeTo c d ∧
    ∀ n, n ≠ "py_retval".toList → n ≠ "tmp_value".toList → w'.decls.counts n = 0 := by
  have hfree : ∀ n, n ≠ "py_retval".toList → n ≠ "tmp_value".toList → w.decls.counts n = 0 := by
    intro n hn _; rw [hc n, if_neg hn]
  have h0t : w.decls.counts "tmp_value".toList = 0 := by rw [hc, if_neg (by decide)]
  -- the case with a setter
  have withSetter : ∀ {w' : W} {o' : Obj},
      (if !o.needsCtor then
        match w.declare o.type.ctype "tmp_value".toList none none with
        | .error e => .error e
        | .ok (w, v) => .ok (w, { o with value := v })
       else .ok (w.reserve "tmp_value".toList, { o with value := (w.decls.reserve "tmp_value".toList).2 }) :
        PyRes (W × Obj)) = .ok (w', o') →
      w'.ops = w.ops ∧ w'.parse = w.parse ∧ o'.type = (h0 d.rv).type ∧ o'.value = "tmp_value".toList ∧
      ∀ n, n ≠ "py_retval".toList → n ≠ "tmp_value".toList → w'.decls.counts n = 0 := by
    intro w' o' h
    split at h
    · cases hd : w.declare o.type.ctype "tmp_value".toList none none with
      | error e => rw [hd] at h; cases h
      | ok p =>
        obtain ⟨w1, v⟩ := p
        rw [hd] at h
        have h := Except.ok.inj h
        simp only [Prod.mk.injEq] at h
        obtain ⟨hw, ho⟩ := h
        subst hw
        subst ho
        obtain ⟨k1, k2⟩ := declare_counts hd
        rw [h0t, if_pos rfl] at k2
        refine ⟨declare_ops hd, by rw [(declare_spec hd).2], hh.1, k2, ?_⟩
        intro n hn1 hn2
        rw [k1 n, if_neg hn2]; exact hfree n hn1 hn2
    · have h := Except.ok.inj h
      simp only [Prod.mk.injEq] at h
      obtain ⟨hw, ho⟩ := h
      subst hw
      subst ho
      refine ⟨rfl, rfl, hh.1, ?_, ?_⟩
      · show (w.decls.pick "tmp_value".toList).2 = _
        dsimp only [Family.pick]
        rw [h0t, if_pos rfl]
      · intro n hn1 hn2
        show (w.decls.pick "tmp_value".toList).1.counts n = 0
        dsimp only [Family.pick]
        rw [if_neg hn2]; exact hfree n hn1 hn2
  have plain : ∀ {w' : W} {o' : Obj},
      (.ok (w, { o with value := "self->obj->".toList ++ d.name, needsCtor := false }) : PyRes (W × Obj)) =
        .ok (w', o') →
      w'.ops = w.ops ∧ w'.parse = w.parse ∧ o'.type = (h0 d.rv).type ∧
      o'.value = "self->obj->".toList ++ d.name ∧
      ∀ n, n ≠ "py_retval".toList → n ≠ "tmp_value".toList → w'.decls.counts n = 0 := by
    intro w' o' h
    have h := Except.ok.inj h
    simp only [Prod.mk.injEq] at h
    obtain ⟨hw, ho⟩ := h
    subst hw
    subst ho
    exact ⟨rfl, rfl, hh.1, rfl, hfree⟩
  unfold setterTarget at h
  unfold storeTo
  cases ha : d.access with
  | static =>
    rw [ha] at h
    have h := Except.ok.inj h
    simp only [Prod.mk.injEq] at h
    obtain ⟨hw, ho⟩ := h
    subst hw
    subst ho
    refine ⟨rfl, rfl, hh.1, ?_, hfree⟩
    rw [hh.2]
    unfold getterValue
    rw [ha]
  | member g s =>
    rw [ha] at h
    cases s with
    | none => exact plain h
    | some s => exact withSetter h
  | custom g ga s sa =>
    rw [ha] at h
    cases s with
    | none => exact plain h
    | some s => exact withSetter h

theorem setterCall_eq (c : Cls) (d : Decl) :
    (setterCall c d (storeTo c d)).toList = handOver c d := by
  unfold setterCall storeTo handOver
  cases d.access with
  | static => rfl
  | member g s => cases s <;> simp
  | custom g ga s sa => cases s <;> simp [selfObj]

theorem getParameters_one {fmt a : Str} :
    getParameters [⟨fmt, [a], none, false⟩] = .ok ["\"".toList ++ fmt ++ "\"".toList, a] := by
  simp [getParameters, templateLoop]

theorem parsing_eq (fmt a : Str) :
    callText "!PyArg_ParseTuple" ("py_retval".toList :: castFirst ["\"".toList ++ fmt ++ "\"".toList, a]) =
      parsing fmt a := by
  have e : "!PyArg_ParseTuple(py_retval, (char *) \"".toList = "!PyArg_ParseTuple".toList ++ ("(".toList ++
    ("py_retval".toList ++ (", ".toList ++ ("(char *) ".toList ++ "\"".toList)))) := by decide
  have e' : "\", ".toList = "\"".toList ++ ", ".toList := by decide
  unfold callText parsing castFirst pyJoin pyJoin pyJoin
  rw [e, e']
  simp only [List.append_assoc]

/-- The setter written for an attribute. -/
theorem setter_fn {handler : Handler (Bool × Decl)} {c : Cls} {h0 : Heap} {ds : List Decl}
    (hrv : (ds.map Decl.rv).Nodup) (hname : (ds.map Decl.name).Nodup) {fns : List Fn}
    {t1 t2 : Option (List Row)} (hr : genClass handler c (addAll c { heap := h0 } ds) = .ok (fns, t1, t2))
    {d : Decl} (hd : d ∈ ds) {f : Fn} (hf : f ∈ fns) (hfn : f.name = setterName c d) :
    ∃ (w1 : W) (o : Obj), o.type = (h0 d.rv).type ∧ o.value = storeTo c d ∧
      w1.ops = [.write 0 "py_retval = Py_BuildValue((char *) \"(O)\", value);".toList,
        .add 0 "Py_DECREF(py_retval);".toList] ∧ w1.parse = [] ∧
      (∀ n, n ≠ "py_retval".toList → n ≠ "tmp_value".toList → w1.decls.counts n = 0) ∧
      setterEnd c d o w1 = .ok f.body := by
  obtain ⟨d', hd', hp, hh, hcase⟩ := genClass_fns handler c h0 ds hrv fns t1 t2 hr f hf
  rcases hcase with ⟨hn, -⟩ | ⟨hn, -, hb⟩
  · exact absurd (hn.symm.trans hfn) (getter_ne_setter c d' d)
  · have := nodup_name hname hd hd' (setterName_inj (c := c) (hfn.symm.trans hn))
    subst this
    unfold setterBody at hb
    cases hs : setterStart {} with
    | error e => rw [hs] at hb; cases hb
    | ok w =>
      rw [hs] at hb
      dsimp only at hb
      obtain ⟨s1, s2, s3⟩ := setterStart_ok hs
      cases ht : setterTarget d (hp d.rv) w with
      | error e => rw [ht] at hb; cases hb
      | ok p =>
        obtain ⟨w1, o⟩ := p
        rw [ht] at hb
        dsimp only at hb
        obtain ⟨k1, k2, k3, k4, k5⟩ := setterTarget_ok ht hh s3
        exact ⟨w1, o, k3, k4, by rw [k1, s1], by rw [k2, s2], k5, hb⟩

/-- **C78**, types parsed in place: a setter has two kinds of execution.  Either the object is
refused, and the setter fails having stored nothing; or it is stored in the member (the static
member, the variable handed to the setter method), the setter method is called once with it if there
is one, and the setter succeeds.  The tuple made for parsing is released once in both. -/
theorem C78_inPlace_partial (handler : Handler (Bool × Decl)) (c : Cls) (h0 : Heap) (ds : List Decl)
    (hrv : (ds.map Decl.rv).Nodup) (hname : (ds.map Decl.name).Nodup) (fns : List Fn)
    (t1 t2 : Option (List Row)) (hr : genClass handler c (addAll c { heap := h0 } ds) = .ok (fns, t1, t2))
    (d : Decl) (hd : d ∈ ds) (f : Fn) (hf : f ∈ fns) (hfn : f.name = setterName c d)
    (ctype fmt : Str) (toPy : Str → Gen1) (hT : (h0 d.rv).type = inPlace ctype fmt toPy) (t : List Ev) :
    Runs f t ↔
      t = begun ++ .left (parsing fmt ('&' :: storeTo c d)) :: ended "return -1;" ∨
      t = begun ++ .passed (parsing fmt ('&' :: storeTo c d)) ::
        (handOver c d).map (fun s => .did (.code s)) ++ ended "return 0;" := by
  obtain ⟨w1, o, e1, e2, e3, e4, -, hb⟩ := setter_fn hrv hname hr hd hf hfn
  unfold setterEnd at hb
  rw [e1, hT, e2] at hb
  obtain ⟨w2, h2, hb⟩ := bind_ok.mp hb
  have h2 := Except.ok.inj h2
  obtain ⟨ps, h3, hb⟩ := bind_ok.mp hb
  have hparse : w2.parse = [⟨fmt, ['&' :: storeTo c d], none, false⟩] := by
    rw [← h2]; simp [W.addParse, addParam, e4]
  rw [hparse, getParameters_one] at h3
  have h3 := Except.ok.inj h3
  subst h3
  rw [parsing_eq] at hb
  have hb := Except.ok.inj hb
  have hops2 : w2.ops = w1.ops := by rw [← h2]; rfl
  have hcall := setterCall_eq c d
  unfold Runs
  cases hsc : setterCall c d (storeTo c d) with
  | none =>
    rw [hsc] at hb hcall
    rw [← hcall]
    have hops : f.body.ops = [.write 0 "py_retval = Py_BuildValue((char *) \"(O)\", value);".toList,
        .add 0 "Py_DECREF(py_retval);".toList, .check 0 (parsing fmt ('&' :: storeTo c d)) none, .cleanup 1,
        .ret 1 "return 0;".toList] := by
      rw [← hb]
      simp [W.op, hops2, e3]
    rw [hops]
    constructor
    · intro h
      cases h with
      | code h => cases h with
        | acq h => cases h with
          | leave => exact Or.inl rfl
          | pass h => cases h with
            | clean h => cases h with
              | ret => exact Or.inr rfl
    · rintro (rfl | rfl)
      · exact .code (.acq .leave)
      · exact .code (.acq (.pass (.clean .ret)))
  | some s =>
    rw [hsc] at hb hcall
    rw [← hcall]
    have hops : f.body.ops = [.write 0 "py_retval = Py_BuildValue((char *) \"(O)\", value);".toList,
        .add 0 "Py_DECREF(py_retval);".toList, .check 0 (parsing fmt ('&' :: storeTo c d)) none, .write 1 s,
        .cleanup 1, .ret 1 "return 0;".toList] := by
      rw [← hb]
      simp [W.op, hops2, e3]
    rw [hops]
    constructor
    · intro h
      cases h with
      | code h => cases h with
        | acq h => cases h with
          | leave => exact Or.inl rfl
          | pass h => cases h with
            | code h => cases h with
              | clean h => cases h with
                | ret => exact Or.inr rfl
    · rintro (rfl | rfl)
      · exact .code (.acq .leave)
      · exact .code (.acq (.pass (.code (.clean .ret))))

/-- The range check of a type, if it has one, with its outcome. -/
def outOfRange (chk : Option Str) : List (List Ev) :=
  match chk with
  | none => []
  | some c => [[.left c, .did (.code "PyErr_SetString(PyExc_ValueError, \"Out of range\");".toList)]]

def inRange (chk : Option Str) : List Ev :=
  match chk with
  | none => []
  | some c => [.passed c]

/-- **C78**, types parsed through a variable: the object is refused, or out of range, and the setter
fails having stored nothing; or the member is assigned the converted value, the setter method is
called once with it if there is one, and the setter succeeds. -/
theorem C78_viaVar_partial (handler : Handler (Bool × Decl)) (c : Cls) (h0 : Heap) (ds : List Decl)
    (hrv : (ds.map Decl.rv).Nodup) (hname : (ds.map Decl.name).Nodup) (fns : List Fn)
    (t1 t2 : Option (List Row)) (hr : genClass handler c (addAll c { heap := h0 } ds) = .ok (fns, t1, t2))
    (d : Decl) (hd : d ∈ ds) (f : Fn) (hf : f ∈ fns) (hfn : f.name = setterName c d)
    (ctype type base fmt : Str) (chk : Option (Str → Str)) (conv : Str → Str) (toPy : Str → Gen1)
    (hT : (h0 d.rv).type = viaVar ctype type base fmt chk conv toPy)
    (hbase : base ≠ "py_retval".toList ∧ base ≠ "tmp_value".toList) (t : List Ev) :
    Runs f t ↔
      t = begun ++ .left (parsing fmt ('&' :: base)) :: ended "return -1;" ∨
      (∃ l ∈ outOfRange (chk.map (· base)), t = begun ++ .passed (parsing fmt ('&' :: base)) :: l ++
        ended "return -1;") ∨
      t = begun ++ .passed (parsing fmt ('&' :: base)) :: inRange (chk.map (· base)) ++
        .did (.code (storeTo c d ++ " = ".toList ++ conv base ++ ";".toList)) ::
        (handOver c d).map (fun s => .did (.code s)) ++ ended "return 0;" := by
  obtain ⟨w1, o, e1, e2, e3, e4, e5, hb⟩ := setter_fn hrv hname hr hd hf hfn
  unfold setterEnd at hb
  rw [e1, hT, e2] at hb
  obtain ⟨w2, h2, hB⟩ := bind_ok.mp hb
  clear hb
  obtain ⟨⟨w3, x⟩, hx, h2⟩ := bind_ok.mp h2
  have hw2 : ((match chk with
      | some f => (w3.addParse ⟨fmt, ['&' :: x], none, false⟩ true).op (.check 1 (f x)
          (some "PyErr_SetString(PyExc_ValueError, \"Out of range\");".toList))
      | none => w3.addParse ⟨fmt, ['&' :: x], none, false⟩ true).op
      (.write 1 (storeTo c d ++ " = ".toList ++ conv x ++ ";".toList))) = w2 := by
    cases chk <;> exact Except.ok.inj h2
  clear h2
  have hxb : x = base := by
    have := (declare_counts hx).2
    rwa [e5 base hbase.1 hbase.2, if_pos rfl] at this
  subst hxb
  have hw3 := (declare_spec hx).2
  obtain ⟨ps, h3, hb'⟩ := bind_ok.mp hB
  have hparse : w2.parse = [⟨fmt, ['&' :: x], none, false⟩] := by
    rw [← hw2, hw3]
    cases chk <;> simp [W.addParse, addParam, W.op, e4]
  rw [hparse, getParameters_one] at h3
  have h3 := Except.ok.inj h3
  subst h3
  rw [parsing_eq] at hb'
  have hb := Except.ok.inj hb'
  have hops2 : w2.ops = w1.ops ++ ((chk.map (fun f => Op.check 1 (f x)
      (some "PyErr_SetString(PyExc_ValueError, \"Out of range\");".toList))).toList ++
      [.write 1 (storeTo c d ++ " = ".toList ++ conv x ++ ";".toList)]) := by
    rw [← hw2, hw3]
    cases chk <;> simp [W.op, W.addParse]
  have hcall := setterCall_eq c d
  have hops : f.body.ops = [.write 0 "py_retval = Py_BuildValue((char *) \"(O)\", value);".toList,
        .add 0 "Py_DECREF(py_retval);".toList] ++ ((chk.map (fun f => Op.check 1 (f x)
          (some "PyErr_SetString(PyExc_ValueError, \"Out of range\");".toList))).toList ++
        (.write 1 (storeTo c d ++ " = ".toList ++ conv x ++ ";".toList) ::
         .check 0 (parsing fmt ('&' :: x)) none ::
         (handOver c d).map (.write 1) ++ [.cleanup 1, .ret 1 "return 0;".toList])) := by
    rw [← hb, ← hcall]
    cases setterCall c d (storeTo c d) <;> simp [W.op, hops2, e3]
  unfold Runs
  rw [hops]
  have hh : ∃ l, handOver c d = l ∧ (l = [] ∨ ∃ s, l = [s]) := by
    rw [← hcall]
    cases setterCall c d (storeTo c d) with
    | none => exact ⟨_, rfl, Or.inl rfl⟩
    | some s => exact ⟨_, rfl, Or.inr ⟨s, rfl⟩⟩
  obtain ⟨l, hl, hl'⟩ := hh
  rw [hl]
  cases chk with
  | none =>
    rcases hl' with rfl | ⟨s, rfl⟩
    · constructor
      · intro h
        cases h with
        | code h => cases h with
          | acq h => cases h with
            | leave => exact Or.inl rfl
            | pass h => cases h with
              | code h => cases h with
                | clean h => cases h with
                  | ret => exact Or.inr (Or.inr rfl)
      · rintro (rfl | ⟨l, hl, rfl⟩ | rfl)
        · exact .code (.acq .leave)
        · cases hl
        · exact .code (.acq (.pass (.code (.clean .ret))))
    · constructor
      · intro h
        cases h with
        | code h => cases h with
          | acq h => cases h with
            | leave => exact Or.inl rfl
            | pass h => cases h with
              | code h => cases h with
                | code h => cases h with
                  | clean h => cases h with
                    | ret => exact Or.inr (Or.inr rfl)
      · rintro (rfl | ⟨l, hl, rfl⟩ | rfl)
        · exact .code (.acq .leave)
        · cases hl
        · exact .code (.acq (.pass (.code (.code (.clean .ret)))))
  | some g =>
    rcases hl' with rfl | ⟨s, rfl⟩
    · constructor
      · intro h
        cases h with
        | code h => cases h with
          | acq h => cases h with
            | leave => exact Or.inl rfl
            | pass h => cases h with
              | leave => exact Or.inr (Or.inl ⟨_, List.mem_singleton.mpr rfl, rfl⟩)
              | pass h => cases h with
                | code h => cases h with
                  | clean h => cases h with
                    | ret => exact Or.inr (Or.inr rfl)
      · rintro (rfl | ⟨l, hl, rfl⟩ | rfl)
        · exact .code (.acq .leave)
        · rw [List.mem_singleton.mp hl]
          exact .code (.acq (.pass .leave))
        · exact .code (.acq (.pass (.pass (.code (.clean .ret)))))
    · constructor
      · intro h
        cases h with
        | code h => cases h with
          | acq h => cases h with
            | leave => exact Or.inl rfl
            | pass h => cases h with
              | leave => exact Or.inr (Or.inl ⟨_, List.mem_singleton.mpr rfl, rfl⟩)
              | pass h => cases h with
                | code h => cases h with
                  | code h => cases h with
                    | clean h => cases h with
                      | ret => exact Or.inr (Or.inr rfl)
      · rintro (rfl | ⟨l, hl, rfl⟩ | rfl)
        · exact .code (.acq .leave)
        · rw [List.mem_singleton.mp hl]
          exact .code (.acq (.pass .leave))
        · exact .code (.acq (.pass (.pass (.code (.code (.clean .ret))))))

/-- The claim is false for static attributes declared with one `ReturnValue` object: assigning to the
first stores into the second. -/
theorem C78_shared_counterexample :
    ∃ (h0 : Heap) (fns : List Fn) (t1 t2 : Option (List Row)) (c : Cls) (a b : Decl) (f : Fn),
      a.name = "a".toList ∧ a.access = .static ∧ b.name = "b".toList ∧ b.access = .static ∧
      c.fullName = "Foo".toList ∧
      genClass none c (addAll c { heap := h0 } [a, b]) = .ok (fns, t1, t2) ∧ f ∈ fns ∧
      f.name = setterName c a ∧
      ∃ t, Runs f t ∧ t = begun ++ .passed (parsing "i".toList "&Foo::b".toList) :: ended "return 0;" := by
  refine ⟨fun _ => { type := inPlace "int".toList "i".toList (scalarReturn "i".toList) }, _, _, _,
    ⟨"PyFoo".toList, "Foo".toList⟩, ⟨"a".toList, 0, .static, false, none⟩,
    ⟨"b".toList, 0, .static, false, none⟩, _, rfl, rfl, rfl, rfl, rfl, rfl,
    List.mem_cons_of_mem _ List.mem_cons_self, rfl, _, ?_, rfl⟩
  exact .code (.acq (.pass (.clean .ret)))

/-! ## Deleting -/

/-- C79 (constants): the row of a constant attribute has no setter, so that Python itself refuses
`del obj.x` with an `AttributeError`. -/
theorem C79_constant_partial (handler : Handler (Bool × Decl)) (c : Cls) (h h' : Heap) (ds : List Decl)
    (fns : List Fn) (tbl : Option (List Row)) (hr : genTable handler c h ds = .ok (h', fns, tbl)) :
    List.Forall₂ (fun d r => d.isConst = true → r.setter = none) ds (tbl.getD []) :=
  (C75_table handler c h h' ds fns tbl hr).2.2.1.imp (fun {d r} hdr hc => C75_constant c d r hdr hc)

/-- For all other attributes the claim is false.  `del obj.x` calls the setter with a null `value`;
`Py_BuildValue` then returns a null pointer, and every execution of the setter goes on to parse it as
a tuple, without having tested it. -/
theorem C79_delete_counterexample (handler : Handler (Bool × Decl)) (c : Cls) (h0 : Heap) (ds : List Decl)
    (hrv : (ds.map Decl.rv).Nodup) (hname : (ds.map Decl.name).Nodup) (fns : List Fn)
    (t1 t2 : Option (List Row)) (hr : genClass handler c (addAll c { heap := h0 } ds) = .ok (fns, t1, t2))
    (d : Decl) (hd : d ∈ ds) (f : Fn) (hf : f ∈ fns) (hfn : f.name = setterName c d)
    (hT : (∃ ctype fmt toPy, (h0 d.rv).type = inPlace ctype fmt toPy) ∨
      ∃ ctype type base fmt chk conv toPy, (h0 d.rv).type = viaVar ctype type base fmt chk conv toPy ∧
        base ≠ "py_retval".toList ∧ base ≠ "tmp_value".toList)
    (t : List Ev) (ht : Runs f t) :
    ∃ fmt addr rest, t = .did (.code "py_retval = Py_BuildValue((char *) \"(O)\", value);".toList) ::
        .took 0 1 "Py_DECREF(py_retval);".toList :: rest ∧
      (rest.head? = some (.left (parsing fmt addr)) ∨ rest.head? = some (.passed (parsing fmt addr))) := by
  rcases hT with ⟨ctype, fmt, toPy, hT⟩ | ⟨ctype, type, base, fmt, chk, conv, toPy, hT, hb⟩
  · rcases (C78_inPlace_partial handler c h0 ds hrv hname fns t1 t2 hr d hd f hf hfn ctype fmt toPy hT t).mp ht
      with rfl | rfl
    · exact ⟨fmt, _, _, rfl, Or.inl rfl⟩
    · exact ⟨fmt, _, _, rfl, Or.inr rfl⟩
  · rcases (C78_viaVar_partial handler c h0 ds hrv hname fns t1 t2 hr d hd f hf hfn ctype type base fmt chk conv
      toPy hT hb t).mp ht with rfl | ⟨l, hl, rfl⟩ | rfl
    · exact ⟨fmt, _, _, rfl, Or.inl rfl⟩
    · exact ⟨fmt, _, _, rfl, Or.inr rfl⟩
    · exact ⟨fmt, _, _, rfl, Or.inr rfl⟩

/-! ## Non-vacuity -/

/-- `class Foo { int a; const int k; uint16_t u (setU); static int s; }`. -/
def uint16Type : VType :=
  viaVar "uint16_t".toList "int".toList "tmp".toList "i".toList (some (fun v => v ++ " > 0xffff".toList)) id
    (scalarReturn "i".toList)

def fooHeap : Heap := fun i =>
  if i = 2 then { type := uint16Type }
  else { type := inPlace "int".toList "i".toList (scalarReturn "i".toList) }

def fooCls : Cls := ⟨"PyFoo".toList, "Foo".toList⟩

def fooDecls : List Decl :=
  [⟨"a".toList, 0, .member none none, false, none⟩,
   ⟨"k".toList, 1, .member none none, true, some "K".toList⟩,
   ⟨"u".toList, 2, .member none (some "setU".toList), false, none⟩,
   ⟨"s".toList, 3, .static, false, none⟩]

example : (genClass none fooCls (addAll fooCls { heap := fooHeap } fooDecls)).toOption.map
    (fun r => (r.1.map Fn.name, r.2.1, r.2.2)) = some
    (["_wrap_PyFoo__get_a".toList, "_wrap_PyFoo__set_a".toList, "_wrap_PyFoo__get_k".toList,
      "_wrap_PyFoo__get_u".toList, "_wrap_PyFoo__set_u".toList, "_wrap_PyFoo__get_s".toList,
      "_wrap_PyFoo__set_s".toList],
     some [⟨"a".toList, some "_wrap_PyFoo__get_a".toList, some "_wrap_PyFoo__set_a".toList⟩,
       ⟨"K".toList, some "_wrap_PyFoo__get_k".toList, none⟩,
       ⟨"u".toList, some "_wrap_PyFoo__get_u".toList, some "_wrap_PyFoo__set_u".toList⟩],
     some [⟨"s".toList, some "_wrap_PyFoo__get_s".toList, some "_wrap_PyFoo__set_s".toList⟩]) := by
  decide +kernel

example : (fooDecls.map Decl.rv).Nodup ∧ (fooDecls.map Decl.name).Nodup := by decide

/-- Assigning to `u` when the value is in range. -/
example : ∃ fns t1 t2, genClass none fooCls (addAll fooCls { heap := fooHeap } fooDecls) = .ok (fns, t1, t2) ∧
    ∃ f ∈ fns, f.name = "_wrap_PyFoo__set_u".toList ∧ Runs f (begun ++
      [.passed (parsing "i".toList "&tmp".toList), .passed "tmp > 0xffff".toList,
       .did (.code "tmp_value = tmp;".toList), .did (.code "self->obj->setU(tmp_value);".toList)] ++
      ended "return 0;") := by
  refine ⟨_, _, _, rfl, _, List.mem_cons_of_mem _ (List.mem_cons_of_mem _ (List.mem_cons_of_mem _
    (List.mem_cons_of_mem _ List.mem_cons_self))), rfl, ?_⟩
  exact .code (.acq (.pass (.pass (.code (.code (.clean .ret))))))

/-- An attribute of a type that can not be converted to Python, beside one that can: with an error
handler that accepts the error, the table has a row without a getter for it. -/
def badHeap : Heap := fun i =>
  if i = 0 then { type := ⟨"X".toList, fun _ _ => .error .codeGenerationError, fun _ _ _ => .error .notSupportedError⟩ }
  else { type := inPlace "int".toList "i".toList (scalarReturn "i".toList) }

example : (genTable (some fun _ _ => true) fooCls badHeap
    [⟨"x".toList, 0, .member none none, true, none⟩, ⟨"y".toList, 1, .member none none, true, none⟩]).toOption.map
      (fun r => r.2.2) =
    some (some [⟨"x".toList, none, none⟩, ⟨"y".toList, some "_wrap_PyFoo__get_y".toList, none⟩]) := by
  decide +kernel

end Verif.Attr
