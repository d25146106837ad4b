import Verif.Parser.PygenLineProps

/-!
# C85: the calls written into a script are read back as the calls they stand for
-/
namespace Verif.Pygen
open Verif

/-! ## Names of the functions called -/

def fnFunc (m : Bool) : Str := if m then "cls.add_method".toList else "module.add_function".toList
def fnAttr (s : Bool) : Str := if s then "cls.add_static_attribute".toList else "cls.add_instance_attribute".toList
def fnType (e : Bool) : Str := if e then "module.add_exception".toList else "module.add_class".toList

def padded (n : Nat) (e : E) : Arg := (pad n, none, e)
def keyed (k : Str) (e : E) : Arg := ([], some k, e)
def boolE (b : Bool) : E := .name (boolText b)

/-- The expression of a line. -/
def Line.expr : Line → E
  | .func m name ret ps kw =>
    .call (fnFunc m) (mk ([pos (.str name), padded (funcPad m) (retE ret), padded (funcPad m) (paramsE ps)] ++
      padArg (funcPad m) ((sortKw kw).map kwArg)))
  | .asMethod c name ret ps custom =>
    .meth rootName c "add_function_as_method".toList
      (mk [pos (.str name), pos (retE ret), pos (paramsE ps), keyed "custom_name".toList (.str custom)])
  | .asCtor c name ret ps =>
    .meth rootName c "add_function_as_constructor".toList (mk [pos (.str name), pos (retE ret), pos (paramsE ps)])
  | .ctor ps kw => .call "cls.add_constructor".toList (mk (pos (paramsE ps) :: padArg 20 ((sortKw kw).map kwArg)))
  | .copyCtor => .call "cls.add_copy_constructor".toList (mk [])
  | .attr st name ret const =>
    .call (fnAttr st) (mk [pos (.str name), pos (retE ret), keyed "is_const".toList (boolE const)])
  | .type exc name kw => .call (fnType exc) (mk (pos (.str name) :: (sortKw kw).map kwArg))
  | .enum name values outer imp =>
    .call "module.add_enum".toList (mk ([pos (.str name), pos (strsE values)] ++
      (match outer with
        | some o => [keyed "outer_class".toList (rootE o)]
        | none => []) ++
      (match imp with
        | some i => [keyed "import_from_module".toList (optE i)]
        | none => [])))
  | .conv c o => .meth rootName c "implicitly_converts_to".toList (mk [pos (rootE o)])
  | .typedef c n => .call "module.add_typedef".toList (mk [pos (rootE c), pos (.str n)])
  | .alias a b => .call "typehandlers.add_type_alias".toList (mk [pos (.str a), pos (.str b)])
  | .container name key elem kw =>
    .call "module.add_container".toList (mk ([pos (.str name), pos (contentE key elem)] ++ (sortKw kw).map kwArg))
  | .binop op ret l r =>
    .call "cls.add_binary_numeric_operator".toList (mk [pos (.str op), pos (rootE ret), pos (rootE l), pos (paramE r)])
  | .inplace op r => .call "cls.add_inplace_numeric_operator".toList (mk [pos (.str op), pos (paramE r)])
  | .unop op => .call "cls.add_unary_numeric_operator".toList (mk [pos (.str op)])
  | .cmp op => .call "cls.add_binary_comparison_operator".toList (mk [pos (.str op)])
  | .stream => .call "cls.add_output_stream_operator".toList (mk [])

/-- Lines that can be written: the keyword arguments of the call and of its types are. -/
def Line.Ok : Line → Prop
  | .func _ _ ret ps kw => ret.Ok ∧ (∀ p ∈ ps, p.Ok) ∧ KwOk kw
  | .asMethod _ _ ret ps _ => ret.Ok ∧ (∀ p ∈ ps, p.Ok)
  | .asCtor _ _ ret ps => ret.Ok ∧ (∀ p ∈ ps, p.Ok)
  | .ctor ps kw => (∀ p ∈ ps, p.Ok) ∧ KwOk kw
  | .attr _ _ ret _ => ret.Ok
  | .type _ _ kw => KwOk kw
  | .container _ key elem kw => (∀ k, key = some k → k.Ok) ∧ elem.Ok ∧ KwOk kw
  | .binop _ _ _ r => r.Ok
  | .inplace _ r => r.Ok
  | _ => True

/-- The same line with keyword arguments in alphabetic order. -/
def Line.norm : Line → Line
  | .func m name ret ps kw => .func m name ret.norm (ps.map Spec.norm) (sortKw kw)
  | .asMethod c name ret ps custom => .asMethod c name ret.norm (ps.map Spec.norm) custom
  | .asCtor c name ret ps => .asCtor c name ret.norm (ps.map Spec.norm)
  | .ctor ps kw => .ctor (ps.map Spec.norm) (sortKw kw)
  | .attr st name ret const => .attr st name ret.norm const
  | .type exc name kw => .type exc name (sortKw kw)
  | .container name key elem kw => .container name (key.map Spec.norm) elem.norm (sortKw kw)
  | .binop op ret l r => .binop op ret l r.norm
  | .inplace op r => .inplace op r.norm
  | l => l

/-! ## Well-formedness -/

theorem padded_ok {n : Nat} {e : E} (h : e.WF) : (padded n e).Ok := ⟨pad_space n, (fun _ hn => nomatch hn), h⟩

theorem keyed_ok {k : Str} {e : E} (hk : Ident k) (h : e.WF) : (keyed k e).Ok :=
  ⟨fun _ hc => absurd hc List.not_mem_nil, (fun _ hn => Option.some.inj hn ▸ hk), h⟩

theorem boolE_wf (b : Bool) : (boolE b).WF := by cases b; exact ident_false; exact ident_true

theorem forall_cons {a : Arg} {l : List Arg} (h : a.Ok) (hl : ∀ b ∈ l, b.Ok) : ∀ b ∈ a :: l, b.Ok := by
  intro b hb
  rcases List.mem_cons.mp hb with rfl | hb
  · exact h
  · exact hl b hb

theorem forall_nil : ∀ b ∈ ([] : List Arg), b.Ok := fun _ hb => nomatch hb

theorem forall_append {l m : List Arg} (h : ∀ b ∈ l, b.Ok) (hm : ∀ b ∈ m, b.Ok) : ∀ b ∈ l ++ m, b.Ok := by
  intro b hb
  rcases List.mem_append.mp hb with hb | hb
  · exact h b hb
  · exact hm b hb

theorem rootE_wf (s : Str) : (rootE s).WF := ident_root

theorem Line.expr_wf {l : Line} (h : l.Ok) : l.expr.WF := by
  cases l with
  | func m name ret ps kw =>
    refine ⟨?_, mk_wf (forall_append (forall_cons (pos_ok trivial) (forall_cons (padded_ok (retE_wf h.1))
      (forall_cons (padded_ok (paramsE_wf h.2.1)) forall_nil))) (padArg_ok (kwArgs_ok h.2.2)))⟩
    unfold Ident; cases m <;> decide
  | asMethod c name ret ps custom =>
    refine ⟨ident_root, by decide, mk_wf (forall_cons (pos_ok trivial) (forall_cons (pos_ok (retE_wf h.1))
      (forall_cons (pos_ok (paramsE_wf h.2)) (forall_cons (keyed_ok ?_ trivial) forall_nil))))⟩
    unfold Ident; decide
  | asCtor c name ret ps =>
    exact ⟨ident_root, by decide, mk_wf (forall_cons (pos_ok trivial) (forall_cons (pos_ok (retE_wf h.1))
      (forall_cons (pos_ok (paramsE_wf h.2)) forall_nil)))⟩
  | ctor ps kw =>
    exact ⟨by unfold Ident; decide, mk_wf (forall_cons (pos_ok (paramsE_wf h.1)) (padArg_ok (kwArgs_ok h.2)))⟩
  | copyCtor => exact ⟨by unfold Ident; decide, mk_wf forall_nil⟩
  | attr st name ret const =>
    refine ⟨?_, mk_wf (forall_cons (pos_ok trivial) (forall_cons (pos_ok (retE_wf h))
      (forall_cons (keyed_ok ?_ (boolE_wf const)) forall_nil)))⟩
    · unfold Ident; cases st <;> decide
    · unfold Ident; decide
  | type exc name kw =>
    refine ⟨?_, mk_wf (forall_cons (pos_ok trivial) (kwArgs_ok h))⟩
    unfold Ident; cases exc <;> decide
  | enum name values outer imp =>
    refine ⟨by unfold Ident; decide, mk_wf (forall_append (forall_append (forall_cons (pos_ok trivial)
      (forall_cons (pos_ok (strsE_wf values)) forall_nil)) ?_) ?_)⟩
    · cases outer with
      | none => exact forall_nil
      | some o => exact forall_cons (keyed_ok (by unfold Ident; decide) (rootE_wf o)) forall_nil
    · cases imp with
      | none => exact forall_nil
      | some o => exact forall_cons (keyed_ok (by unfold Ident; decide) (optE_wf o)) forall_nil
  | conv c o => exact ⟨ident_root, by decide, mk_wf (forall_cons (pos_ok (rootE_wf o)) forall_nil)⟩
  | typedef c n =>
    exact ⟨by unfold Ident; decide, mk_wf (forall_cons (pos_ok (rootE_wf c)) (forall_cons (pos_ok trivial) forall_nil))⟩
  | «alias» a b =>
    exact ⟨by unfold Ident; decide, mk_wf (forall_cons (pos_ok trivial) (forall_cons (pos_ok trivial) forall_nil))⟩
  | container name key elem kw =>
    exact ⟨by unfold Ident; decide, mk_wf (forall_append (forall_cons (pos_ok trivial)
      (forall_cons (pos_ok (contentE_wf h.1 h.2.1)) forall_nil)) (kwArgs_ok h.2.2))⟩
  | binop op ret l r =>
    exact ⟨by unfold Ident; decide, mk_wf (forall_cons (pos_ok trivial) (forall_cons (pos_ok (rootE_wf _))
      (forall_cons (pos_ok (rootE_wf _)) (forall_cons (pos_ok (paramE_wf h)) forall_nil))))⟩
  | inplace op r =>
    exact ⟨by unfold Ident; decide, mk_wf (forall_cons (pos_ok trivial) (forall_cons (pos_ok (paramE_wf h)) forall_nil))⟩
  | unop op => exact ⟨by unfold Ident; decide, mk_wf (forall_cons (pos_ok trivial) forall_nil)⟩
  | cmp op => exact ⟨by unfold Ident; decide, mk_wf (forall_cons (pos_ok trivial) forall_nil)⟩
  | stream => exact ⟨by unfold Ident; decide, mk_wf forall_nil⟩

/-! ## Text -/

theorem call_text (pr : Char → Bool) {f g : Str} (l : List Arg) {args : List Str} (h : l.map (argText pr) = args)
    (hg : g = f ++ ['(']) :
    (E.call f (mk l)).text pr = g ++ pyJoin comma args ++ ")".toList := by
  rw [lit_paren, E.text, mk_text, h, hg]
  simp

theorem meth_text (pr : Char → Bool) {c f g : Str} (l : List Arg) {args : List Str} (h : l.map (argText pr) = args)
    (hg : g = ']' :: '.' :: (f ++ ['('])) :
    (E.meth rootName c f (mk l)).text pr = "root_module[".toList ++ reprStr pr c ++ g ++ pyJoin comma args ++ ")".toList := by
  rw [lit_paren, lit_root]
  generalize rootName = n
  rw [E.text, mk_text, h, hg]
  simp

theorem padded_text (pr : Char → Bool) (n : Nat) (e : E) : argText pr (padded n e) = pad n ++ e.text pr := by
  simp [argText, padded, keyText]

theorem keyed_text (pr : Char → Bool) (k : Str) (e : E) : argText pr (keyed k e) = k ++ '=' :: e.text pr := by
  simp [argText, keyed, keyText]

theorem boolE_text (pr : Char → Bool) (b : Bool) : (boolE b).text pr = boolText b := by rw [boolE, E.text]

theorem pyJoin_two (a b : Str) : pyJoin comma [a, b] = a ++ comma ++ b := by simp [pyJoin]

theorem pyJoin_four (a b c d : Str) : pyJoin comma [a, b, c, d] = a ++ comma ++ b ++ comma ++ c ++ comma ++ d := by
  simp [pyJoin]

theorem attr_text (m a b k c z : Str) :
    m ++ a ++ comma ++ b ++ (comma ++ k ++ ['=']) ++ c ++ z = m ++ pyJoin comma [a, b, k ++ '=' :: c] ++ z := by
  simp [pyJoin]

theorem Line.expr_text (pr : Char → Bool) {l : Line} (h : l.Ok) : l.text pr = l.expr.text pr := by
  cases l with
  | func m name ret ps kw =>
    refine (call_text pr _ ?_ ?_).symm
    · rw [List.map_append, padArg_text, kwArgs_text pr h.2.2]
      simp only [List.map_cons, List.map_nil, pos_text, padded_text, retE_text pr h.1, paramsE_text pr h.2.1]
      rfl
    · cases m <;> decide
  | asMethod c name ret ps custom =>
    have e : Line.text pr (.asMethod c name ret ps custom) = "root_module[".toList ++ reprStr pr c ++
        "].add_function_as_method(".toList ++ pyJoin comma [reprStr pr name, pygenRetval pr ret, pygenParams pr ps,
          "custom_name".toList ++ '=' :: reprStr pr custom] ++ ")".toList := by
      have e1 : ", custom_name=".toList = ", ".toList ++ "custom_name".toList ++ ['='] := by decide
      unfold Line.text
      rw [e1]
      generalize "custom_name".toList = n
      simp only [pyJoin, comma]
      simp
    rw [e]
    refine (meth_text pr _ ?_ (by decide)).symm
    simp only [List.map_cons, List.map_nil, pos_text, keyed_text, retE_text pr h.1, paramsE_text pr h.2]
    rfl
  | asCtor c name ret ps =>
    refine (meth_text pr _ ?_ (by decide)).symm
    simp only [List.map_cons, List.map_nil, pos_text, retE_text pr h.1, paramsE_text pr h.2]
    rfl
  | ctor ps kw =>
    refine (call_text pr _ ?_ (by decide)).symm
    rw [List.map_cons, padArg_text, kwArgs_text pr h.2, pos_text, paramsE_text pr h.1]
  | copyCtor =>
    have e := call_text pr (f := "cls.add_copy_constructor".toList) (g := "cls.add_copy_constructor(".toList) []
      (args := []) rfl (by decide)
    rw [expr, e]
    show "cls.add_copy_constructor()".toList = "cls.add_copy_constructor(".toList ++ [] ++ ")".toList
    decide
  | attr st name ret const =>
    have e : Line.text pr (.attr st name ret const) = (if st then "cls.add_static_attribute(".toList
        else "cls.add_instance_attribute(".toList) ++ pyJoin comma [reprStr pr name, pygenRetval pr ret,
          "is_const".toList ++ '=' :: boolText const] ++ ")".toList := by
      have e1 : ", is_const=".toList = comma ++ "is_const".toList ++ ['='] := by decide
      exact (attr_text _ _ _ _ _ _ ▸ e1 ▸ rfl)
    rw [e]
    refine (call_text pr _ ?_ ?_).symm
    · simp only [List.map_cons, List.map_nil, pos_text, keyed_text, retE_text pr h, boolE_text]
      rfl
    · cases st <;> decide
  | type exc name kw =>
    refine (call_text pr _ ?_ ?_).symm
    · rw [List.map_cons, kwArgs_text pr h, pos_text]
      rfl
    · cases exc <;> decide
  | enum name values outer imp =>
    refine (call_text pr _ ?_ (by decide)).symm
    simp only [List.map_append]
    congr 1
    · congr 1
      · simp only [List.map_cons, List.map_nil, pos_text, strsE_text]
        rfl
      · cases outer with
        | none => rfl
        | some o =>
          simp only [List.map_cons, List.map_nil, keyed_text, rootE_text]
          rw [refText_eq]
          have e1 : "outer_class=root_module[".toList = "outer_class".toList ++ '=' :: (rootName ++ ['[']) := by decide
          rw [e1, lit_close]
          generalize "outer_class".toList = n
          generalize rootName = m
          simp
    · cases imp with
      | none => rfl
      | some o =>
        simp only [List.map_cons, List.map_nil, keyed_text, optE_text]
        have e1 : "import_from_module=".toList = "import_from_module".toList ++ ['='] := by decide
        rw [e1]
        generalize "import_from_module".toList = n
        simp
  | conv c o =>
    have e : Line.text pr (.conv c o) = "root_module[".toList ++ reprStr pr c ++
        "].implicitly_converts_to(".toList ++ pyJoin comma [refText pr o] ++ ")".toList := by
      have e1 : "].implicitly_converts_to(root_module[".toList = "].implicitly_converts_to(".toList ++ rootName ++ ['['] := by
        decide
      have e2 : "])".toList = ']' :: ")".toList := by decide
      unfold Line.text
      rw [e1, e2, pyJoin, refText_eq]
      generalize rootName = n
      generalize "].implicitly_converts_to(".toList = m
      generalize "root_module[".toList = k
      simp
    rw [e]
    refine (meth_text pr _ ?_ (by decide)).symm
    simp only [List.map_cons, List.map_nil, pos_text, rootE_text]
  | typedef c n =>
    have e : Line.text pr (.typedef c n) = "module.add_typedef(".toList ++ pyJoin comma [refText pr c, reprStr pr n] ++
        ")".toList := by
      have e1 : "module.add_typedef(root_module[".toList = "module.add_typedef(".toList ++ rootName ++ ['['] := by decide
      have e2 : "], ".toList = ']' :: comma := by decide
      unfold Line.text
      rw [e1, e2, pyJoin_two, refText_eq]
      generalize rootName = x
      generalize "module.add_typedef(".toList = m
      simp
    rw [e]
    refine (call_text pr _ ?_ (by decide)).symm
    simp only [List.map_cons, List.map_nil, pos_text, rootE_text]
    rfl
  | «alias» a b =>
    have e : Line.text pr (.alias a b) = "typehandlers.add_type_alias(".toList ++ pyJoin comma [reprStr pr a, reprStr pr b] ++
        ")".toList := by
      unfold Line.text
      rw [pyJoin_two, comma]
      simp only [List.append_assoc]
    rw [e]
    refine (call_text pr _ ?_ (by decide)).symm
    simp only [List.map_cons, List.map_nil, pos_text]
    rfl
  | container name key elem kw =>
    refine (call_text pr _ ?_ (by decide)).symm
    rw [List.map_append, kwArgs_text pr h.2.2]
    simp only [List.map_cons, List.map_nil, pos_text, contentE_text pr h.1 h.2.1]
    rfl
  | binop op ret l r =>
    have e : Line.text pr (.binop op ret l r) = "cls.add_binary_numeric_operator(".toList ++
        pyJoin comma [reprStr pr op, refText pr ret, refText pr l, pygenParam pr r] ++ ")".toList := by
      have e0 : "]".toList = [']'] := lit_close
      have e1 : ", root_module[".toList = comma ++ rootName ++ ['['] := by decide
      have e2 : "], root_module[".toList = ']' :: (comma ++ rootName ++ ['[']) := by decide
      have e3 : "], ".toList = ']' :: comma := by decide
      unfold Line.text
      rw [e1, e2, e3, pyJoin_four, refText_eq, refText_eq]
      generalize rootName = x
      generalize "cls.add_binary_numeric_operator(".toList = m
      simp
    rw [e]
    refine (call_text pr _ ?_ (by decide)).symm
    simp only [List.map_cons, List.map_nil, pos_text, rootE_text, paramE_text pr h]
    rfl
  | inplace op r =>
    have e : Line.text pr (.inplace op r) = "cls.add_inplace_numeric_operator(".toList ++
        pyJoin comma [reprStr pr op, pygenParam pr r] ++ ")".toList := by
      unfold Line.text
      rw [pyJoin_two, comma]
      simp only [List.append_assoc]
    rw [e]
    refine (call_text pr _ ?_ (by decide)).symm
    simp only [List.map_cons, List.map_nil, pos_text, paramE_text pr h]
    rfl
  | unop op => 
    refine (call_text pr (args := [reprStr pr op]) _ ?_ (by decide)).symm
    rw [List.map_cons, pos_text]
    rfl
  | cmp op =>
    refine (call_text pr (args := [reprStr pr op]) _ ?_ (by decide)).symm
    rw [List.map_cons, pos_text]
    rfl
  | stream =>
    have e := call_text pr (f := "cls.add_output_stream_operator".toList) (g := "cls.add_output_stream_operator(".toList) []
      (args := []) rfl (by decide)
    rw [expr, e]
    show "cls.add_output_stream_operator()".toList = "cls.add_output_stream_operator(".toList ++ [] ++ ")".toList
    decide

/-! ## What a line means -/

theorem boolE_eval (b : Bool) : evalVal (boolE b) = some (.bool b) := by cases b <;> rfl

theorem func_eval {name : Str} {ret : Spec} {ps : List Spec} {kw : Kw} (h1 : ret.Ok) (h2 : ∀ p ∈ ps, p.Ok)
    {rest : List (Option Str × E)} (h3 : evalKw rest = some kw) :
    evalFunc ((none, .str name) :: (none, retE ret) :: (none, paramsE ps) :: rest) =
      some (name, ret.norm, ps.map Spec.norm, kw) := by
  rw [evalFunc, retE_eval h1, paramsE_eval h2, h3]
  rfl

theorem Line.expr_eval {l : Line} (h : l.Ok) : evalLine l.expr = some l.norm := by
  cases l with
  | func m name ret ps kw =>
    have e : (mk ([pos (.str name), padded (funcPad m) (retE ret), padded (funcPad m) (paramsE ps)] ++
      padArg (funcPad m) ((sortKw kw).map kwArg))).items =
        (none, .str name) :: (none, retE ret) :: (none, paramsE ps) :: ((sortKw kw).map kwArg).map (·.2) := by
      rw [mk_items, List.map_append, padArg_items]
      rfl
    have e2 := func_eval (name := name) h.1 h.2.1 (evalKw_args h.2.2)
    cases m with
    | false => rw [expr, fnFunc, if_neg (by decide), evalLine, if_pos rfl, e, e2]; rfl
    | true => rw [expr, fnFunc, if_pos rfl, evalLine, if_neg (by decide), if_pos rfl, e, e2]; rfl
  | asMethod c name ret ps custom =>
    have e2 := func_eval (name := name) h.1 h.2 (rest := [(some "custom_name".toList, .str custom)])
      (kw := [("custom_name".toList, .str custom)]) rfl
    rw [expr, evalLine, if_pos rfl, if_pos rfl, mk_items]
    show (match evalFunc ((none, .str name) :: (none, retE ret) :: (none, paramsE ps) ::
      [(some "custom_name".toList, .str custom)]) with
        | some (n, r, ps, [(k, .str v)]) => if k = "custom_name".toList then some (Line.asMethod c n r ps v) else none
        | _ => none) = _
    rw [e2]
    exact if_pos rfl
  | asCtor c name ret ps =>
    have e2 := func_eval (name := name) h.1 h.2 (rest := []) (kw := []) rfl
    rw [expr, evalLine, if_pos rfl, if_neg (by decide), if_pos rfl, mk_items]
    show (match evalFunc ((none, .str name) :: (none, retE ret) :: (none, paramsE ps) :: []) with
        | some (n, r, ps, []) => some (Line.asCtor c n r ps)
        | _ => none) = _
    rw [e2]
    rfl
  | ctor ps kw =>
    have e : (mk (pos (paramsE ps) :: padArg 20 ((sortKw kw).map kwArg))).items =
        (none, paramsE ps) :: ((sortKw kw).map kwArg).map (·.2) := by
      rw [mk_items, List.map_cons, padArg_items]
      rfl
    rw [expr, evalLine, if_neg (by decide), if_neg (by decide), if_pos rfl, e]
    show (evalParams (paramsE ps)).bind _ = _
    rw [paramsE_eval h.1, evalKw_args h.2]
    rfl
  | copyCtor => decide
  | attr st name ret const =>
    cases st with
    | false =>
      rw [expr, fnAttr, if_neg (by decide), evalLine, if_neg (by decide), if_neg (by decide), if_neg (by decide),
        if_neg (by decide), if_neg (by decide), if_pos (Or.inr rfl), mk_items]
      show (if "is_const".toList = "is_const".toList then (evalRet (retE ret)).bind _ else _) = _
      rw [if_pos rfl, retE_eval h, boolE_eval]
      show some (Line.attr (decide _) _ _ _) = _
      rw [decide_eq_false (by decide)]
      rfl
    | true =>
      rw [expr, fnAttr, if_pos rfl, evalLine, if_neg (by decide), if_neg (by decide), if_neg (by decide),
        if_neg (by decide), if_neg (by decide), if_pos (Or.inl rfl), mk_items]
      show (if "is_const".toList = "is_const".toList then (evalRet (retE ret)).bind _ else _) = _
      rw [if_pos rfl, retE_eval h, boolE_eval]
      show some (Line.attr (decide _) _ _ _) = _
      rw [decide_eq_true rfl]
      rfl
  | type exc name kw =>
    cases exc with
    | false =>
      rw [expr, fnType, if_neg (by decide), evalLine, if_neg (by decide), if_neg (by decide), if_neg (by decide),
        if_neg (by decide), if_neg (by decide), if_neg (by decide), if_pos (Or.inl rfl), mk_items]
      show (evalKw (((sortKw kw).map kwArg).map (·.2))).map _ = _
      rw [evalKw_args h]
      show some (Line.type (decide _) _ _) = _
      rw [decide_eq_false (by decide)]
      rfl
    | true =>
      rw [expr, fnType, if_pos rfl, evalLine, if_neg (by decide), if_neg (by decide), if_neg (by decide),
        if_neg (by decide), if_neg (by decide), if_neg (by decide), if_pos (Or.inr rfl), mk_items]
      show (evalKw (((sortKw kw).map kwArg).map (·.2))).map _ = _
      rw [evalKw_args h]
      show some (Line.type (decide _) _ _) = _
      rw [decide_eq_true rfl]
      rfl
  | enum name values outer imp =>
    unfold Line.expr
    rw [evalLine, if_neg (by decide), if_neg (by decide), if_neg (by decide), if_neg (by decide), if_neg (by decide),
      if_neg (by decide), if_neg (by decide), if_pos rfl, mk_items]
    cases outer with
    | none =>
      cases imp with
      | none =>
        show (evalStrs (strsE values)).bind _ = _
        rw [strsE_eval]
        rfl
      | some i =>
        show (evalStrs (strsE values)).bind (fun vs => (evalEnum [(some "import_from_module".toList, optE i)]).map
          (fun p => Line.enum name vs p.1 p.2)) = _
        rw [strsE_eval, evalEnum, if_neg (by decide), if_pos rfl, optE_eval]
        rfl
    | some o =>
      cases imp with
      | none =>
        show (evalStrs (strsE values)).bind (fun vs => (evalEnum [(some "outer_class".toList, rootE o)]).map
          (fun p => Line.enum name vs p.1 p.2)) = _
        rw [strsE_eval, evalEnum, if_pos rfl, rootE_eval]
        rfl
      | some i =>
        show (evalStrs (strsE values)).bind (fun vs => (evalEnum [(some "outer_class".toList, rootE o),
          (some "import_from_module".toList, optE i)]).map (fun p => Line.enum name vs p.1 p.2)) = _
        rw [strsE_eval, evalEnum, if_pos ⟨rfl, rfl⟩, rootE_eval, optE_eval]
        rfl
  | conv c o =>
    rw [expr, evalLine, if_pos rfl, if_neg (by decide), if_neg (by decide), if_pos rfl, mk_items]
    show (evalRef (rootE o)).map _ = _
    rw [rootE_eval]
    rfl
  | typedef c n =>
    rw [expr, evalLine, if_neg (by decide), if_neg (by decide), if_neg (by decide), if_neg (by decide), if_neg (by decide),
      if_neg (by decide), if_neg (by decide), if_neg (by decide), if_pos rfl, mk_items]
    show (evalRef (rootE c)).map _ = _
    rw [rootE_eval]
    rfl
  | «alias» a b =>
    rw [expr, evalLine, if_neg (by decide), if_neg (by decide), if_neg (by decide), if_neg (by decide), if_neg (by decide),
      if_neg (by decide), if_neg (by decide), if_neg (by decide), if_neg (by decide), if_pos rfl, mk_items]
    rfl
  | container name key elem kw =>
    rw [expr, evalLine, if_neg (by decide), if_neg (by decide), if_neg (by decide), if_neg (by decide), if_neg (by decide),
      if_neg (by decide), if_neg (by decide), if_neg (by decide), if_neg (by decide), if_neg (by decide), if_pos rfl,
      mk_items]
    show (evalContent (contentE key elem)).bind (fun e => (evalKw (((sortKw kw).map kwArg).map (·.2))).map _) = _
    rw [contentE_eval h.1 h.2.1, evalKw_args h.2.2]
    rfl
  | binop op ret l r =>
    rw [expr, evalLine, if_neg (by decide), if_neg (by decide), if_neg (by decide), if_neg (by decide), if_neg (by decide),
      if_neg (by decide), if_neg (by decide), if_neg (by decide), if_neg (by decide), if_neg (by decide),
      if_neg (by decide), if_pos rfl, mk_items]
    show (evalRef (rootE ret)).bind (fun a => (evalRef (rootE l)).bind (fun b => (evalParam (paramE r)).map _)) = _
    rw [rootE_eval, rootE_eval, paramE_eval h]
    rfl
  | inplace op r =>
    rw [expr, evalLine, if_neg (by decide), if_neg (by decide), if_neg (by decide), if_neg (by decide), if_neg (by decide),
      if_neg (by decide), if_neg (by decide), if_neg (by decide), if_neg (by decide), if_neg (by decide),
      if_neg (by decide), if_neg (by decide), if_pos rfl, mk_items]
    show (evalParam (paramE r)).map _ = _
    rw [paramE_eval h]
    rfl
  | unop op =>
    rw [expr, evalLine, if_neg (by decide), if_neg (by decide), if_neg (by decide), if_neg (by decide), if_neg (by decide),
      if_neg (by decide), if_neg (by decide), if_neg (by decide), if_neg (by decide), if_neg (by decide),
      if_neg (by decide), if_neg (by decide), if_neg (by decide), if_pos rfl, mk_items]
    rfl
  | cmp op =>
    rw [expr, evalLine, if_neg (by decide), if_neg (by decide), if_neg (by decide), if_neg (by decide), if_neg (by decide),
      if_neg (by decide), if_neg (by decide), if_neg (by decide), if_neg (by decide), if_neg (by decide),
      if_neg (by decide), if_neg (by decide), if_neg (by decide), if_neg (by decide), if_pos rfl, mk_items]
    rfl
  | stream => decide

end Verif.Pygen
