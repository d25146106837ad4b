import Verif.Module.Gen

/-!
# C30, C51: order of the generated files
-/
namespace Verif.Module
open Verif

theorem content_write (st : GSt) (s t : Sink) (ls : List Line) :
    (st.write s ls).content t = st.content t ++ (if s = t then ls else []) := by
  unfold GSt.content GSt.write
  simp only [List.filter_append, List.map_append]
  congr 1
  by_cases h : s = t
  · subst h
    rw [if_pos rfl, List.filter_eq_self.2 (by simp)]
    simp [List.map_map, Function.comp_def]
  · rw [if_neg h, List.filter_eq_nil_iff.2 (by simp [h])]
    rfl

/-- Lines a wrapper or a module produces: no include directive and no preamble among them. -/
def Plain : Line → Prop
  | .text _ | .table _ _ | .moduleDef _ | .initFn _ _ => True
  | _ => False

/-- Starting from a state, output only grows, and what is added to each file is plain text, except
that a file may get common-header includes. -/
private structure Grows (mgr : Mgr) (st st' : GSt) : Prop where
  out : ∃ l, st'.out = st.out ++ l ∧ ∀ p ∈ l, Plain p.2 ∨ (p.2 = .commonInclude ∧ ∃ f, mgr = .multi f)

private theorem grows_refl (mgr : Mgr) (st : GSt) : Grows mgr st st := ⟨[], by simp, by simp⟩

private theorem grows_trans {mgr : Mgr} {a b c : GSt} (h1 : Grows mgr a b) (h2 : Grows mgr b c) : Grows mgr a c := by
  obtain ⟨l, e1, p1⟩ := h1.out
  obtain ⟨k, e2, p2⟩ := h2.out
  refine ⟨l ++ k, by rw [e2, e1, List.append_assoc], ?_⟩
  intro p hp
  rcases List.mem_append.1 hp with h | h
  · exact p1 p h
  · exact p2 p h

private theorem grows_write (mgr : Mgr) (st : GSt) (s : Sink) (ls : List Line) (h : ∀ l ∈ ls, Plain l) :
    Grows mgr st (st.write s ls) := by
  refine ⟨ls.map (fun l => (s, l)), rfl, ?_⟩
  intro p hp
  obtain ⟨l, hl, rfl⟩ := List.mem_map.1 hp
  exact .inl (h l hl)

private theorem grows_open (mgr : Mgr) (st : GSt) (sec : Str) : Grows mgr st (openSink mgr st sec).1 := by
  unfold openSink
  cases mgr with
  | mono => exact grows_refl _ _
  | multi fac =>
    simp only
    split
    · exact grows_refl _ _
    · refine ⟨[(fac sec, .commonInclude)], rfl, ?_⟩
      intro p hp
      simp at hp
      subst hp
      exact .inr ⟨rfl, fac, rfl⟩

private theorem plain_text (l : List Str) : ∀ x ∈ l.map Line.text, Plain x := by
  intro x hx; obtain ⟨s, _, rfl⟩ := List.mem_map.1 hx; trivial

private theorem grows_item (mgr : Mgr) (st : GSt) (it : Item) : Grows mgr st (genItem mgr st it) := by
  unfold genItem
  have h1 := grows_open mgr st it.section_
  generalize openSink mgr st it.section_ = r at h1
  obtain ⟨st1, sink⟩ := r
  simp only
  have h2 := grows_write mgr st1 sink (.text [] :: it.own.map .text) (by
    intro l hl; rcases List.mem_cons.1 hl with rfl | hl; trivial; exact plain_text _ l hl)
  have h3 := grows_write mgr (st1.write sink (.text [] :: it.own.map .text)) Sink.main (it.decl.map .text) (plain_text _)
  have h4 := grows_write mgr ((st1.write sink (.text [] :: it.own.map .text)).write .main (it.decl.map .text)) (hdrSink mgr) (it.hdr.map .text) (plain_text _)
  have h := grows_trans h1 (grows_trans h2 (grows_trans h3 h4))
  exact ⟨h.out⟩

private theorem grows_items (mgr : Mgr) (its : List Item) : ∀ st, Grows mgr st (genItems mgr st its) := by
  induction its with
  | nil => intro st; exact grows_refl _ _
  | cons it its ih => intro st; exact grows_trans (grows_item mgr st it) (ih _)

private theorem grows_own (mgr : Mgr) (st : GSt) (pre : Str) (funcs items : List Item) (ps : List Str) :
    Grows mgr st (genOwn mgr st pre funcs items ps) := by
  unfold genOwn
  simp only
  have h1 := grows_items mgr funcs st
  generalize genItems mgr st funcs = s1 at h1
  have h2 := grows_write mgr s1 .main [.table pre (funcs.filterMap (·.row))] (by simp [Plain])
  generalize s1.write .main [.table pre (funcs.filterMap (·.row))] = s2 at h2
  have h3 := grows_items mgr items s2
  generalize genItems mgr s2 items = s3 at h3
  have h4 := grows_write mgr { s3 with headerBuf := [] } .header (s3.headerBuf.map .text) (plain_text _)
  have h4' : Grows mgr s3 ({ s3 with headerBuf := [] }.write .header (s3.headerBuf.map .text)) := ⟨h4.out⟩
  generalize { s3 with headerBuf := [] }.write .header (s3.headerBuf.map .text) = s4 at h4'
  have h5 := grows_write mgr { s4 with bodyBuf := [] } .main (s4.bodyBuf.map .text) (plain_text _)
  have h5' : Grows mgr s4 ({ s4 with bodyBuf := [] }.write .main (s4.bodyBuf.map .text)) := ⟨h5.out⟩
  generalize { s4 with bodyBuf := [] }.write .main (s4.bodyBuf.map .text) = s5 at h5'
  have h6 := grows_write mgr s5 .main [.moduleDef pre, .initFn pre ps] (by simp [Plain])
  exact grows_trans h1 (grows_trans h2 (grows_trans h3 (grows_trans h4' (grows_trans h5' h6))))

mutual
private theorem grows_mod (mgr : Mgr) (st : GSt) : ∀ m : GMod, Grows mgr st (genMod mgr st m)
  | .mk pre funcs items subs => by
    unfold genMod
    exact grows_trans (grows_mods mgr st subs) (grows_own _ _ _ _ _ _)
private theorem grows_mods (mgr : Mgr) (st : GSt) : ∀ ms : List GMod, Grows mgr st (genMods mgr st ms)
  | [] => by unfold genMods; exact grows_refl _ _
  | m :: ms => by
    unfold genMods
    exact grows_trans (grows_mod mgr st m) (grows_mods mgr _ ms)
end

private theorem content_grows {mgr : Mgr} {st st' : GSt} (h : Grows mgr st st') (s : Sink) :
    ∃ l, st'.content s = st.content s ++ l ∧ ∀ x ∈ l, Plain x ∨ (x = .commonInclude ∧ ∃ f, mgr = .multi f) := by
  obtain ⟨l, e, p⟩ := h.out
  refine ⟨(l.filter (fun p => p.1 = s)).map (·.2), ?_, ?_⟩
  · unfold GSt.content; rw [e, List.filter_append, List.map_append]
  · intro x hx
    obtain ⟨q, hq, rfl⟩ := List.mem_map.1 hx
    exact p q (List.mem_of_mem_filter hq)

/-- C30, single file: the output is the preamble, then the include directives asked for, in order,
then the forward declarations, and after that no include directive at all. -/
theorem C30_single_file (includes fwd : List Str) (m : GMod) :
    ∃ rest, monoText (generate .mono includes fwd m) =
        .preamble :: (includes.map .incl ++ fwd.map .forward ++ rest) ∧
      ∀ l ∈ rest, Plain l := by
  have h := grows_mod .mono ((startMgr .mono).write .header (includes.map .incl ++ fwd.map .forward)) m
  obtain ⟨a, ha, pa⟩ := content_grows h .header
  obtain ⟨b, hb, pb⟩ := content_grows h .main
  refine ⟨a ++ b, ?_, ?_⟩
  · unfold monoText generate
    rw [ha, hb, content_write, content_write]
    simp [startMgr, GSt.content]
  · intro l hl
    rcases List.mem_append.1 hl with hl | hl
    · rcases pa l hl with h | ⟨_, f, h⟩
      · exact h
      · cases h
    · rcases pb l hl with h | ⟨_, f, h⟩
      · exact h
      · cases h

/-- C30, several files: the common header starts with the preamble, the includes in order and the
forward declarations; the main file starts with the include of the common header; no file gets any
further include of a user's header. -/
theorem C30_split_files (fac : Str → Sink) (includes fwd : List Str) (m : GMod) :
    (∃ rest, (generate (.multi fac) includes fwd m).content .header =
        .preamble :: (includes.map .incl ++ fwd.map .forward ++ rest) ∧
        ∀ l ∈ rest, Plain l ∨ l = .commonInclude) ∧
    (∃ rest, (generate (.multi fac) includes fwd m).content .main = .commonInclude :: rest ∧
        ∀ l ∈ rest, Plain l ∨ l = .commonInclude) ∧
    (∀ n, ∀ l ∈ (generate (.multi fac) includes fwd m).content (.file n), Plain l ∨ l = .commonInclude) := by
  have h := grows_mod (.multi fac) ((startMgr (.multi fac)).write .header (includes.map .incl ++ fwd.map .forward)) m
  refine ⟨?_, ?_, ?_⟩
  · obtain ⟨a, ha, pa⟩ := content_grows h .header
    refine ⟨a, ?_, fun l hl => (pa l hl).imp id (fun h => h.1)⟩
    unfold generate
    rw [ha, content_write]
    simp [startMgr, GSt.content]
  · obtain ⟨a, ha, pa⟩ := content_grows h .main
    refine ⟨a, ?_, fun l hl => (pa l hl).imp id (fun h => h.1)⟩
    unfold generate
    rw [ha, content_write]
    simp [startMgr, GSt.content]
  · intro n
    obtain ⟨a, ha, pa⟩ := content_grows h (.file n)
    intro l hl
    unfold generate at hl
    rw [ha, content_write] at hl
    simp [startMgr, GSt.content] at hl
    exact (pa l hl).imp id (fun h => h.1)

/-! ### The common header is included once, first, in every section file -/

/-- Invariant of section files: a file is empty exactly while no section mapped to it has been
opened, and afterwards starts with the include of the common header, which does not occur again. -/
private def Opened (fac : Str → Sink) (st : GSt) : Prop :=
  mainSection ∈ st.inited ∧
  ∀ s : Str, s ≠ mainSection →
    (s ∈ st.inited → ∃ rest, st.content (fac s) = .commonInclude :: rest ∧ .commonInclude ∉ rest) ∧
    (s ∉ st.inited → st.content (fac s) = [])

private theorem opened_write {fac : Str → Sink} (hinj : Function.Injective fac)
    (hm : fac mainSection = .main) (hh : ∀ s, fac s ≠ .header) {st : GSt} (ho : Opened fac st)
    (sk : Sink) (hsk : sk = .main ∨ sk = .header ∨ ∃ s, sk = fac s ∧ s ∈ st.inited)
    (ls : List Line) (hl : .commonInclude ∉ ls) : Opened fac (st.write sk ls) := by
  refine ⟨ho.1, fun s hs => ?_⟩
  obtain ⟨h1, h2⟩ := ho.2 s hs
  constructor
  · intro hi
    obtain ⟨rest, e, hr⟩ := h1 hi
    rw [content_write, e]
    split
    · exact ⟨rest ++ ls, rfl, by simp [hr, hl]⟩
    · exact ⟨rest, by simp, hr⟩
  · intro hi
    rw [content_write, h2 hi]
    rw [if_neg]
    · rfl
    · intro he
      rcases hsk with h | h | ⟨t, h, ht⟩
      · exact hs (hinj (by rw [← he, h, hm]))
      · exact hh s (by rw [← he, h])
      · have : s = t := hinj (by rw [← he, h])
        exact hi (this ▸ ht)

private theorem opened_open {fac : Str → Sink} (hinj : Function.Injective fac) (hm : fac mainSection = .main)
    {st : GSt} (ho : Opened fac st) (sec : Str) :
    Opened fac (openSink (.multi fac) st sec).1 ∧ sec ∈ (openSink (.multi fac) st sec).1.inited ∧
    (openSink (.multi fac) st sec).2 = fac sec := by
  unfold openSink
  simp only
  split
  · next h => exact ⟨ho, h, rfl⟩
  · next h =>
    have hsm : sec ≠ mainSection := fun e => h (e ▸ ho.1)
    refine ⟨⟨by simp [GSt.write, ho.1], fun s hs => ?_⟩, by simp [GSt.write], rfl⟩
    have hcontent : (({ st with inited := sec :: st.inited } : GSt).write (fac sec) [.commonInclude]).content (fac s) =
        st.content (fac s) ++ (if fac sec = fac s then [.commonInclude] else []) := by
      rw [content_write]; rfl
    rw [hcontent]
    by_cases he : s = sec
    · subst he
      rw [(ho.2 s hs).2 h]
      refine ⟨fun _ => ⟨[], by simp, by simp⟩, fun hn => absurd (by simp [GSt.write]) hn⟩
    · have : fac sec ≠ fac s := fun e => he (hinj e).symm
      rw [if_neg this, List.append_nil]
      refine ⟨fun hi => (ho.2 s hs).1 ?_, fun hi => (ho.2 s hs).2 ?_⟩
      · simpa [GSt.write, he] using hi
      · simpa [GSt.write, he] using hi

private theorem not_common (l : List Str) : Line.commonInclude ∉ l.map Line.text := by simp

private theorem opened_item {fac : Str → Sink} (hinj : Function.Injective fac)
    (hm : fac mainSection = .main) (hh : ∀ s, fac s ≠ .header) {st : GSt} (ho : Opened fac st) (it : Item) :
    Opened fac (genItem (.multi fac) st it) := by
  unfold genItem
  obtain ⟨h1, h2, h3⟩ := opened_open hinj hm ho it.section_
  generalize openSink (.multi fac) st it.section_ = r at h1 h2 h3
  obtain ⟨st1, sink⟩ := r
  simp only at h1 h2 h3 ⊢
  have h4 := opened_write hinj hm hh h1 sink (.inr (.inr ⟨_, h3, h2⟩)) (.text [] :: it.own.map .text) (by simp)
  have h5 := opened_write hinj hm hh h4 .main (.inl rfl) (it.decl.map .text) (not_common _)
  have h6 := opened_write hinj hm hh h5 (hdrSink (.multi fac)) (.inr (.inl rfl)) (it.hdr.map .text) (not_common _)
  exact h6

private theorem opened_items {fac : Str → Sink} (hinj : Function.Injective fac)
    (hm : fac mainSection = .main) (hh : ∀ s, fac s ≠ .header) (its : List Item) :
    ∀ {st : GSt}, Opened fac st → Opened fac (genItems (.multi fac) st its) := by
  induction its with
  | nil => intro st h; exact h
  | cons it its ih => intro st h; exact ih (opened_item hinj hm hh h it)

private theorem opened_own {fac : Str → Sink} (hinj : Function.Injective fac)
    (hm : fac mainSection = .main) (hh : ∀ s, fac s ≠ .header) {st : GSt} (ho : Opened fac st)
    (pre : Str) (funcs items : List Item) (ps : List Str) :
    Opened fac (genOwn (.multi fac) st pre funcs items ps) := by
  unfold genOwn
  simp only
  have h1 := opened_items hinj hm hh funcs ho
  generalize genItems (.multi fac) st funcs = s1 at h1
  have h2 := opened_write hinj hm hh h1 .main (.inl rfl) [.table pre (funcs.filterMap (·.row))] (by simp)
  generalize s1.write .main [.table pre (funcs.filterMap (·.row))] = s2 at h2
  have h3 := opened_items hinj hm hh items h2
  generalize genItems (.multi fac) s2 items = s3 at h3
  have h3' : Opened fac { s3 with headerBuf := [] } := h3
  have h4 := opened_write hinj hm hh h3' .header (.inr (.inl rfl)) (s3.headerBuf.map .text) (not_common _)
  generalize { s3 with headerBuf := [] }.write .header (s3.headerBuf.map .text) = s4 at h4
  have h4' : Opened fac { s4 with bodyBuf := [] } := h4
  have h5 := opened_write hinj hm hh h4' .main (.inl rfl) (s4.bodyBuf.map .text) (not_common _)
  generalize { s4 with bodyBuf := [] }.write .main (s4.bodyBuf.map .text) = s5 at h5
  exact opened_write hinj hm hh h5 .main (.inl rfl) _ (by simp)

mutual
private theorem opened_mod {fac : Str → Sink} (hinj : Function.Injective fac)
    (hm : fac mainSection = .main) (hh : ∀ s, fac s ≠ .header) {st : GSt} (ho : Opened fac st) :
    ∀ m : GMod, Opened fac (genMod (.multi fac) st m)
  | .mk pre funcs items subs => by
    unfold genMod
    exact opened_own hinj hm hh (opened_mods hinj hm hh ho subs) _ _ _ _
private theorem opened_mods {fac : Str → Sink} (hinj : Function.Injective fac)
    (hm : fac mainSection = .main) (hh : ∀ s, fac s ≠ .header) {st : GSt} (ho : Opened fac st) :
    ∀ ms : List GMod, Opened fac (genMods (.multi fac) st ms)
  | [] => by unfold genMods; exact ho
  | m :: ms => by
    unfold genMods
    exact opened_mods hinj hm hh (opened_mod hinj hm hh ho m) ms
end

/-- C30, several files: with one file per section (and the main file for `"__main__"`), the file of
every section is either empty or starts with the include of the common header, which occurs in it
only once. -/
theorem C30_section_files (fac : Str → Sink) (hinj : Function.Injective fac)
    (hm : fac "__main__".toList = .main) (hh : ∀ s, fac s ≠ .header)
    (includes fwd : List Str) (m : GMod) (s : Str) (hs : s ≠ "__main__".toList) :
    (generate (.multi fac) includes fwd m).content (fac s) = [] ∨
    ∃ rest, (generate (.multi fac) includes fwd m).content (fac s) = .commonInclude :: rest ∧
      .commonInclude ∉ rest := by
  have h0 : Opened fac ((startMgr (.multi fac)).write .header (includes.map .incl ++ fwd.map .forward)) := by
    refine ⟨by simp [startMgr, GSt.write], fun t ht => ⟨fun hi => ?_, fun _ => ?_⟩⟩
    · simp [startMgr, GSt.write] at hi; exact absurd hi ht
    · rw [content_write, if_neg (fun e => hh t e.symm)]
      have h1 : fac t ≠ .main := fun e => ht (hinj (by rw [e]; exact hm.symm))
      have h2 : fac t ≠ .header := hh t
      simp [startMgr, GSt.content, Ne.symm h1, Ne.symm h2]
  have h := opened_mod hinj hm hh h0 m
  obtain ⟨h1, h2⟩ := h.2 s hs
  by_cases hi : s ∈ (genMod (.multi fac) ((startMgr (.multi fac)).write .header (includes.map .incl ++ fwd.map .forward)) m).inited
  · exact .inr (h1 hi)
  · exact .inl (h2 hi)

/-- A factory that hands out a separate file for the section name `"__main__"` — under which
everything added outside a section is filed — gets that file without the common header. -/
theorem C30_main_section_counterexample :
    (generate (.multi (fun s => .file s.length)) [] [] (.mk "m".toList []
      [{ section_ := "__main__".toList, own := ["class".toList], hdr := [], decl := [], headerBuf := [],
         bodyBuf := [], row := none }] [])).content (.file 8) = [.text [], .text "class".toList] := by decide

/-! ## C51: definitions come before their uses in the main file -/

/-- All prefixes of a tree. -/
inductive InTree : GMod → GMod → Prop
  | self (m) : InTree m m
  | sub {m pre f i subs s} : s ∈ subs → InTree m s → InTree m (.mk pre f i subs)

/-- Uses are preceded by definitions in a list of lines. -/
def DefsFirst (ls : List Line) : Prop :=
  ∀ a l b, ls = a ++ l :: b →
    (∀ p, l = .moduleDef p → ∃ rows, .table p rows ∈ a) ∧
    (∀ p calls, l = .initFn p calls → .moduleDef p ∈ a ∧ ∀ c ∈ calls, ∃ cs, .initFn c cs ∈ a)

private theorem defsFirst_append {x y : List Line} (hx : DefsFirst x)
    (hy : ∀ a l b, y = a ++ l :: b →
      (∀ p, l = .moduleDef p → ∃ rows, .table p rows ∈ x ++ a) ∧
      (∀ p calls, l = .initFn p calls → .moduleDef p ∈ x ++ a ∧ ∀ c ∈ calls, ∃ cs, .initFn c cs ∈ x ++ a)) :
    DefsFirst (x ++ y) := by
  intro a l b h
  rw [List.append_eq_append_iff] at h
  rcases h with ⟨a', rfl, h2⟩ | ⟨b', h1, h2⟩
  · exact hy a' l b h2
  · cases b' with
    | nil =>
      simp only [List.nil_append] at h2
      have := hy [] l b h2.symm
      simp only [List.append_nil] at this h1
      subst h1; exact this
    | cons z zs =>
      simp only [List.cons_append, List.cons.injEq] at h2
      obtain ⟨rfl, _⟩ := h2
      exact hx a l zs h1

/-- Lines without uses. -/
private def NoUse : Line → Prop
  | .moduleDef _ | .initFn _ _ => False
  | _ => True

private theorem defsFirst_noUse {x y : List Line} (hx : DefsFirst x) (hy : ∀ l ∈ y, NoUse l) : DefsFirst (x ++ y) := by
  apply defsFirst_append hx
  intro a l b h
  have hl := hy l (by rw [h]; simp)
  refine ⟨fun p hp => ?_, fun p c hp => ?_⟩ <;> (subst hp; exact hl.elim)

private def Good (st : GSt) : Prop := DefsFirst (st.content .main)

private theorem good_write {st : GSt} (h : Good st) (s : Sink) (ls : List Line) (hl : ∀ l ∈ ls, NoUse l) :
    Good (st.write s ls) := by
  unfold Good
  rw [content_write]
  apply defsFirst_noUse h
  split
  · exact hl
  · simp

private theorem noUse_text (l : List Str) : ∀ x ∈ l.map Line.text, NoUse x := by
  intro x hx; obtain ⟨s, _, rfl⟩ := List.mem_map.1 hx; trivial

private theorem good_item (mgr : Mgr) {st : GSt} (h : Good st) (it : Item) : Good (genItem mgr st it) := by
  unfold genItem
  have h1 : Good (openSink mgr st it.section_).1 := by
    unfold openSink
    cases mgr with
    | mono => exact h
    | multi fac =>
      simp only
      split
      · exact h
      · exact good_write (st := { st with inited := it.section_ :: st.inited }) h _ _ (by simp [NoUse])
  generalize openSink mgr st it.section_ = r at h1
  obtain ⟨st1, sink⟩ := r
  simp only at h1 ⊢
  have h2 := good_write h1 sink (.text [] :: it.own.map .text) (by
    intro l hl; rcases List.mem_cons.1 hl with rfl | hl; trivial; exact noUse_text _ l hl)
  have h3 := good_write h2 .main (it.decl.map .text) (noUse_text _)
  exact good_write h3 (hdrSink mgr) (it.hdr.map .text) (noUse_text _)

private theorem good_items (mgr : Mgr) (its : List Item) : ∀ {st : GSt}, Good st → Good (genItems mgr st its) := by
  induction its with
  | nil => intro st h; exact h
  | cons it its ih => intro st h; exact ih (good_item mgr h it)

private theorem mem_grows {mgr : Mgr} {st st' : GSt} (h : Grows mgr st st') (s : Sink) {l : Line}
    (hl : l ∈ st.content s) : l ∈ st'.content s := by
  obtain ⟨k, e, _⟩ := content_grows h s
  rw [e]; simp [hl]

private theorem good_own (mgr : Mgr) {st : GSt} (h : Good st) (pre : Str) (funcs items : List Item)
    (ps : List Str) (hps : ∀ c ∈ ps, ∃ cs, .initFn c cs ∈ st.content .main) :
    Good (genOwn mgr st pre funcs items ps) ∧
      .initFn pre ps ∈ (genOwn mgr st pre funcs items ps).content .main := by
  unfold genOwn
  simp only
  have g1 := grows_items mgr funcs st
  have h1 := good_items mgr funcs h
  generalize genItems mgr st funcs = s1 at h1 g1
  have g2 := grows_write mgr s1 .main [.table pre (funcs.filterMap (·.row))] (by simp [Plain])
  have h2 := good_write h1 .main [.table pre (funcs.filterMap (·.row))] (by simp [NoUse])
  have t2 : Line.table pre (funcs.filterMap (·.row)) ∈ (s1.write .main [.table pre (funcs.filterMap (·.row))]).content .main := by
    rw [content_write]; simp
  generalize s1.write .main [.table pre (funcs.filterMap (·.row))] = s2 at h2 g2 t2
  have g3 := grows_items mgr items s2
  have h3 := good_items mgr items h2
  generalize genItems mgr s2 items = s3 at h3 g3
  have g4 := grows_write mgr { s3 with headerBuf := [] } .header (s3.headerBuf.map .text) (plain_text _)
  have g4' : Grows mgr s3 ({ s3 with headerBuf := [] }.write .header (s3.headerBuf.map .text)) := ⟨g4.out⟩
  have h4 := good_write (st := { s3 with headerBuf := [] }) h3 .header (s3.headerBuf.map .text) (noUse_text _)
  generalize { s3 with headerBuf := [] }.write .header (s3.headerBuf.map .text) = s4 at h4 g4'
  have g5 := grows_write mgr { s4 with bodyBuf := [] } .main (s4.bodyBuf.map .text) (plain_text _)
  have g5' : Grows mgr s4 ({ s4 with bodyBuf := [] }.write .main (s4.bodyBuf.map .text)) := ⟨g5.out⟩
  have h5 := good_write (st := { s4 with bodyBuf := [] }) h4 .main (s4.bodyBuf.map .text) (noUse_text _)
  generalize { s4 with bodyBuf := [] }.write .main (s4.bodyBuf.map .text) = s5 at h5 g5'
  have g := grows_trans g3 (grows_trans g4' g5')
  have g' := grows_trans g1 (grows_trans g2 g)
  have ht := mem_grows g .main t2
  refine ⟨?_, by rw [content_write]; simp⟩
  unfold Good
  rw [content_write, if_pos rfl]
  apply defsFirst_append h5
  intro a l b hab
  cases a with
  | nil =>
    simp only [List.nil_append, List.cons.injEq] at hab
    obtain ⟨rfl, _⟩ := hab
    refine ⟨?_, by simp⟩
    intro p hp; cases hp
    exact ⟨_, by simpa using ht⟩
  | cons x xs =>
    cases xs with
    | nil =>
      simp only [List.cons_append, List.nil_append, List.cons.injEq] at hab
      obtain ⟨rfl, rfl, _⟩ := hab
      refine ⟨by simp, ?_⟩
      intro p calls hp
      cases hp
      refine ⟨by simp, fun c hc => ?_⟩
      obtain ⟨cs, hcs⟩ := hps c hc
      exact ⟨cs, List.mem_append.2 (.inl (mem_grows g' .main hcs))⟩
    | cons y ys =>
      exfalso
      have := congrArg List.length hab
      simp at this

mutual
private theorem good_mod (mgr : Mgr) {st : GSt} (h : Good st) :
    ∀ m : GMod, Good (genMod mgr st m) ∧ ∃ cs, .initFn m.pre cs ∈ (genMod mgr st m).content .main
  | .mk pre funcs items subs => by
    unfold genMod
    obtain ⟨h1, h2⟩ := good_mods mgr h subs
    obtain ⟨h3, h4⟩ := good_own mgr h1 pre funcs items (subs.map GMod.pre) (by
      intro c hc
      obtain ⟨m, hm, rfl⟩ := List.mem_map.1 hc
      exact h2 m hm)
    exact ⟨h3, _, h4⟩
private theorem good_mods (mgr : Mgr) {st : GSt} (h : Good st) :
    ∀ ms : List GMod, Good (genMods mgr st ms) ∧ ∀ m ∈ ms, ∃ cs, .initFn m.pre cs ∈ (genMods mgr st ms).content .main
  | [] => by unfold genMods; exact ⟨h, by simp⟩
  | m :: ms => by
    unfold genMods
    obtain ⟨h1, cs, h2⟩ := good_mod mgr h m
    obtain ⟨h3, h4⟩ := good_mods mgr h1 ms
    refine ⟨h3, ?_⟩
    intro x hx
    rcases List.mem_cons.1 hx with rfl | hx
    · exact ⟨cs, mem_grows (grows_mods mgr _ ms) .main h2⟩
    · exact h4 x hx
end

/-- C51: in the main file, in either mode and for every module tree, a function table precedes the
module definition that names it, a module definition precedes the init function that names it, and
the init functions of submodules precede the init function that calls them. -/
theorem C51_definitions_before_uses (mgr : Mgr) (includes fwd : List Str) (m : GMod) :
    DefsFirst ((generate mgr includes fwd m).content .main) := by
  have h0 : Good ((startMgr mgr).write .header (includes.map .incl ++ fwd.map .forward)) := by
    unfold Good
    rw [content_write]
    cases mgr with
    | mono =>
      simp only [startMgr, GSt.content]
      intro a l b h; simp at h
    | multi fac =>
      intro a l b h
      simp [startMgr, GSt.content] at h
      cases a with
      | nil => simp at h; obtain ⟨rfl, _⟩ := h; simp
      | cons x xs => simp at h
  exact (good_mod mgr h0 m).1

private theorem init_own (mgr : Mgr) (st : GSt) (pre : Str) (funcs items : List Item) (ps : List Str) :
    .initFn pre ps ∈ (genOwn mgr st pre funcs items ps).content .main ∧
    .table pre (funcs.filterMap (·.row)) ∈ (genOwn mgr st pre funcs items ps).content .main := by
  unfold genOwn
  simp only
  refine ⟨by rw [content_write]; simp, ?_⟩
  generalize genItems mgr st funcs = s1
  have t2 : Line.table pre (funcs.filterMap (·.row)) ∈ (s1.write .main [.table pre (funcs.filterMap (·.row))]).content .main := by
    rw [content_write]; simp
  generalize s1.write .main [.table pre (funcs.filterMap (·.row))] = s2 at t2
  have g3 := grows_items mgr items s2
  generalize genItems mgr s2 items = s3 at g3
  have g4 := grows_write mgr { s3 with headerBuf := [] } .header (s3.headerBuf.map .text) (plain_text _)
  have g4' : Grows mgr s3 ({ s3 with headerBuf := [] }.write .header (s3.headerBuf.map .text)) := ⟨g4.out⟩
  generalize { s3 with headerBuf := [] }.write .header (s3.headerBuf.map .text) = s4 at g4'
  have g5 := grows_write mgr { s4 with bodyBuf := [] } .main (s4.bodyBuf.map .text) (plain_text _)
  have g5' : Grows mgr s4 ({ s4 with bodyBuf := [] }.write .main (s4.bodyBuf.map .text)) := ⟨g5.out⟩
  generalize { s4 with bodyBuf := [] }.write .main (s4.bodyBuf.map .text) = s5 at g5'
  rw [content_write]
  exact List.mem_append.2 (.inl (mem_grows (grows_trans g3 (grows_trans g4' g5')) .main t2))

mutual
private theorem in_mod (mgr : Mgr) (xp : Str) (xf xi : List Item) (xs : List GMod) :
    ∀ (m : GMod) (st : GSt), InTree (.mk xp xf xi xs) m →
    .initFn xp (xs.map GMod.pre) ∈ (genMod mgr st m).content .main ∧
        .table xp (xf.filterMap (·.row)) ∈ (genMod mgr st m).content .main
  | .mk pre funcs items subs, st, h => by
    unfold genMod
    cases h with
    | self => exact init_own mgr _ xp xf xi (xs.map GMod.pre)
    | sub hs hx =>
      have := in_mods mgr xp xf xi xs subs st ⟨_, hs, hx⟩
      have g := grows_own mgr (genMods mgr st subs) pre funcs items (subs.map GMod.pre)
      exact ⟨mem_grows g .main this.1, mem_grows g .main this.2⟩
private theorem in_mods (mgr : Mgr) (xp : Str) (xf xi : List Item) (xs : List GMod) :
    ∀ (ms : List GMod) (st : GSt), (∃ m, m ∈ ms ∧ InTree (.mk xp xf xi xs) m) →
    .initFn xp (xs.map GMod.pre) ∈ (genMods mgr st ms).content .main ∧
        .table xp (xf.filterMap (·.row)) ∈ (genMods mgr st ms).content .main
  | [], _, h => by obtain ⟨_, hm, _⟩ := h; cases hm
  | m :: ms, st, h => by
    unfold genMods
    have hc : InTree (.mk xp xf xi xs) m ∨ ∃ y, y ∈ ms ∧ InTree (.mk xp xf xi xs) y := by
      obtain ⟨y, hm, hx⟩ := h
      rcases List.mem_cons.1 hm with e | h
      · exact .inl (e ▸ hx)
      · exact .inr ⟨y, h, hx⟩
    rcases hc with hx | hx
    · have := in_mod mgr xp xf xi xs m st hx
      have g := grows_mods mgr (genMod mgr st m) ms
      exact ⟨mem_grows g .main this.1, mem_grows g .main this.2⟩
    · exact in_mods mgr xp xf xi xs ms (genMod mgr st m) hx
end

/-- C51: every module of the tree gets its function table, with one row per overload set that was
not skipped in order, and an init function that calls the init functions of exactly its submodules
in order. -/
theorem C51_every_module (mgr : Mgr) (includes fwd : List Str) (m : GMod) (pre : Str)
    (funcs items : List Item) (subs : List GMod) (h : InTree (.mk pre funcs items subs) m) :
    .initFn pre (subs.map GMod.pre) ∈ (generate mgr includes fwd m).content .main ∧
    .table pre (funcs.filterMap (·.row)) ∈ (generate mgr includes fwd m).content .main :=
  in_mod mgr pre funcs items subs m _ h

example : (generate .mono ["<a>".toList] [] (.mk "m".toList [] [] [.mk "m_s".toList [] [] []])).content .main =
  [.table "m_s".toList [], .moduleDef "m_s".toList, .initFn "m_s".toList [], .table "m".toList [],
   .moduleDef "m".toList, .initFn "m".toList ["m_s".toList]] := by decide

/-- Lines that define a function table, a module definition or an init function. -/
def Line.isDef : Line → Bool
  | .table .. => true
  | .moduleDef .. => true
  | .initFn .. => true
  | _ => false

mutual
/-- The modules of a tree, submodules first. -/
def postorder : GMod → List GMod
  | .mk pre f i subs => postorders subs ++ [.mk pre f i subs]
def postorders : List GMod → List GMod
  | [] => []
  | m :: ms => postorder m ++ postorders ms
end

/-- The definitions one module contributes. -/
def ownDefs : GMod → List Line
  | .mk pre f _ subs => [.table pre (f.filterMap (·.row)), .moduleDef pre, .initFn pre (subs.map GMod.pre)]

private def defsOut (st : GSt) : List (Sink × Line) := st.out.filter (fun p => p.2.isDef)

private theorem defsOut_write (st : GSt) (s : Sink) (ls : List Line) :
    defsOut (st.write s ls) = defsOut st ++ (ls.filter Line.isDef).map (fun l => (s, l)) := by
  simp only [defsOut, GSt.write, List.filter_append, List.filter_map]
  rfl

private theorem text_noDef (ls : List Str) : (ls.map Line.text).filter Line.isDef = [] := by
  rw [List.filter_eq_nil_iff]
  intro l hl
  obtain ⟨_, -, rfl⟩ := List.mem_map.1 hl
  simp [Line.isDef]

private theorem defsOut_item (mgr : Mgr) (st : GSt) (it : Item) :
    defsOut (genItem mgr st it) = defsOut st := by
  have hopen : defsOut (openSink mgr st it.section_).1 = defsOut st := by
    unfold openSink
    cases mgr with
    | mono => rfl
    | multi fac =>
      simp only
      split
      · rfl
      · rw [defsOut_write]; simp [Line.isDef, defsOut]
  unfold genItem
  simp only
  have e : ∀ (st : GSt) (h b : List Str), defsOut { st with headerBuf := h, bodyBuf := b } = defsOut st :=
    fun _ _ _ => rfl
  rw [e, defsOut_write, defsOut_write, defsOut_write, hopen, text_noDef, text_noDef]
  rw [List.filter_cons]
  simp only [Line.isDef, Bool.false_eq_true, if_false]
  rw [text_noDef]
  simp

private theorem defsOut_items (mgr : Mgr) (its : List Item) (st : GSt) :
    defsOut (genItems mgr st its) = defsOut st := by
  unfold genItems
  induction its generalizing st with
  | nil => rfl
  | cons i is ih => rw [List.foldl_cons, ih, defsOut_item]

private theorem defsOut_own (mgr : Mgr) (st : GSt) (pre : Str) (funcs items : List Item)
    (subs : List Str) :
    defsOut (genOwn mgr st pre funcs items subs) = defsOut st ++
      ([.table pre (funcs.filterMap (·.row)), .moduleDef pre, .initFn pre subs] : List Line).map
        (fun l => (Sink.main, l)) := by
  unfold genOwn
  simp only
  have e1 : ∀ (st : GSt) (b : List Str), defsOut { st with bodyBuf := b } = defsOut st :=
    fun _ _ => rfl
  have e2 : ∀ (st : GSt) (b : List Str), defsOut { st with headerBuf := b } = defsOut st :=
    fun _ _ => rfl
  rw [defsOut_write, defsOut_write, e1, defsOut_write, e2, defsOut_items, defsOut_write,
    defsOut_items, text_noDef, text_noDef]
  simp [Line.isDef, List.filter_cons]

mutual
private theorem defsOut_mod (mgr : Mgr) : ∀ (m : GMod) (st : GSt),
    defsOut (genMod mgr st m) = defsOut st ++
      ((postorder m).flatMap ownDefs).map (fun l => (Sink.main, l))
  | .mk pre f i subs, st => by
    unfold genMod postorder
    rw [defsOut_own, defsOut_mods mgr subs st, List.flatMap_append, List.map_append,
      List.append_assoc]
    simp [ownDefs]
private theorem defsOut_mods (mgr : Mgr) : ∀ (ms : List GMod) (st : GSt),
    defsOut (genMods mgr st ms) = defsOut st ++
      ((postorders ms).flatMap ownDefs).map (fun l => (Sink.main, l))
  | [], st => by simp [genMods, postorders]
  | m :: ms, st => by
    unfold genMods postorders
    rw [defsOut_mods mgr ms, defsOut_mod mgr m, List.flatMap_append, List.map_append,
      List.append_assoc]
end

/-- C51 (exactly once): the table, module definition and init function lines of the main file are
exactly those of the modules of the tree, one each per module, submodules first; no other file has
any. -/
theorem C51_exactly_once (mgr : Mgr) (includes fwd : List Str) (m : GMod) :
    ((generate mgr includes fwd m).content .main).filter Line.isDef =
      (postorder m).flatMap ownDefs ∧
    ∀ s, s ≠ .main → ((generate mgr includes fwd m).content s).filter Line.isDef = [] := by
  have h0 : defsOut ((startMgr mgr).write .header (includes.map .incl ++ fwd.map .forward)) = [] := by
    rw [defsOut_write]
    have : (includes.map Line.incl ++ fwd.map Line.forward).filter Line.isDef = [] := by
      rw [List.filter_eq_nil_iff]
      intro l hl
      rcases List.mem_append.1 hl with hl | hl <;> obtain ⟨_, -, rfl⟩ := List.mem_map.1 hl <;>
        simp [Line.isDef]
    rw [this]
    cases mgr <;> rfl
  have h : defsOut (generate mgr includes fwd m) =
      ((postorder m).flatMap ownDefs).map (fun l => (Sink.main, l)) := by
    unfold generate
    rw [defsOut_mod, h0, List.nil_append]
  have hc : ∀ s, ((generate mgr includes fwd m).content s).filter Line.isDef =
      ((defsOut (generate mgr includes fwd m)).filter (fun p => p.1 = s)).map (·.2) := by
    intro s
    unfold GSt.content defsOut
    rw [List.filter_map, List.filter_filter, List.filter_filter]
    congr 1
    apply List.filter_congr
    intro p _
    simp [Bool.and_comm]
  refine ⟨?_, ?_⟩
  · rw [hc, h]; simp [List.filter_map, Function.comp_def]
  · intro s hs
    rw [hc, h]
    simp [List.filter_map, Function.comp_def, Ne.symm hs]

/-- Every module of the tree is visited: `postorder` lists exactly the modules in the tree. -/
theorem mem_postorder_of_inTree {x m : GMod} (h : InTree x m) : x ∈ postorder m := by
  have hmem : ∀ (ms : List GMod) (s : GMod), s ∈ ms → ∀ y, y ∈ postorder s → y ∈ postorders ms := by
    intro ms
    induction ms with
    | nil => intro s hs; cases hs
    | cons a ms ih =>
      intro s hs y hy
      unfold postorders
      rcases List.mem_cons.1 hs with rfl | hs
      · exact List.mem_append_left _ hy
      · exact List.mem_append_right _ (ih s hs y hy)
  induction h with
  | self => unfold postorder; split; simp
  | sub hs _ ih =>
    unfold postorder
    exact List.mem_append_left _ (hmem _ _ hs _ ih)

example : (postorder (.mk "m".toList [] [] [.mk "m_s".toList [] [] [.mk "m_t".toList [] [] []]])).map GMod.pre =
    ["m_t".toList, "m_s".toList, "m".toList] := by decide

end Verif.Module
