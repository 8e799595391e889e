/-
The paragraphs of descriptions, sheets and sections (for C74).
-/
import Verif.Spec.Shown
import Verif.Lemmas.Synopsis

namespace Verif
open Spec Template

/-- A section has the paragraphs of its content. -/
theorem Pars.section {name body : Str} {ps : List Paragraph} (hn : name.all plainAttr = true) (hb : Pars body ps) : Pars (secOpen name ++ (body ++ secEnd)) ps := by
  obtain ⟨t, e, x⟩ := secOpen_sax hn
  have hname : '\r' ∉ name := by
    intro hm
    have := List.all_eq_true.1 hn _ hm
    exact absurd this (by decide)
  refine ⟨?_, ?_⟩
  · unfold secOpen
    simp only [List.mem_append, not_or]
    exact ⟨⟨⟨by decide, hname⟩, by decide⟩, hb.1, by decide⟩
  · intro acc
    obtain ⟨ks, a1, hr, h1⟩ := hb.2 c!"\n"
    refine ⟨textNode acc ++ [.elem c!"text:section" [(c!"text:style-name", c!"Sect1"), (c!"text:name", name)] (ks ++ textNode a1)], c!"\n", ?_, ?_⟩
    · rw [e]
      unfold Renders at hr ⊢
      have e1 : saxRun (.text acc) ('<' :: t) = (.text c!"\n", saxPend acc ++ [.start c!"text:section" [(c!"text:style-name", c!"Sect1"), (c!"text:name", name)]]) := by
        rw [saxRun_lt, x]
      have e3 : saxRun (.text a1) secEnd = (.text c!"\n", saxPend a1 ++ [.stop c!"text:section"]) := by
        show saxRun _ ('<' :: c!"/text:section>\n") = _
        rw [saxRun_lt]
        have : saxRun .lt c!"/text:section>\n" = (.text c!"\n", [.stop c!"text:section"]) := by decide +kernel
        rw [this]
      rw [saxRun_comp e1 (saxRun_comp hr e3), nodesEvs_append, nodesEvs_single, nodesEvs_textNode, nodeEvs, nodesEvs_append, nodesEvs_textNode]
      simp
    · rw [paragraphsAll_append, (textsIn_textNode acc).2.2, List.nil_append]
      show paragraphs _ ++ [] = _
      unfold paragraphs
      rw [if_neg (by decide), List.append_nil, paragraphsAll_append, (textsIn_textNode a1).2.2, List.append_nil, h1]

theorem Pars.newline : Pars c!"\n" [] := ⟨by decide, fun acc => ⟨[], _, Renders.plain (by decide) acc, rfl⟩⟩

/-- A paragraph of a description. -/
theorem Pars.line {st body text : Str} {ls : List Str} (hs : st = indStyle ∨ st = bodyStyle) (hb : Inl body text ls) :
    Pars (pOpen st ++ (body ++ c!"</text:p>\n")) [⟨st, text, ls⟩] := by
  rcases hs with rfl | rfl
  · exact Pars.elem (start := c!"text:p text:style-name=\"First_20_line_20_indent\">") (stop := c!"/text:p>\n") (a2 := c!"\n") (t := c!"text:p")
      (as := [(c!"text:style-name", c!"First_20_line_20_indent")]) (.inl rfl) (by decide) (by decide) (by decide +kernel) hb (by decide +kernel)
  · exact Pars.elem (start := c!"text:p text:style-name=\"Text_20_body\">") (stop := c!"/text:p>\n") (a2 := c!"\n") (t := c!"text:p")
      (as := [(c!"text:style-name", c!"Text_20_body")]) (.inl rfl) (by decide) (by decide) (by decide +kernel) hb (by decide +kernel)

/-- An empty paragraph. -/
theorem Pars.gap : Pars c!"<text:p text:style-name=\"First_20_line_20_indent\" />\n" [⟨indStyle, [], []⟩] := by
  refine ⟨by decide, fun acc => ?_⟩
  refine ⟨_, c!"\n", Renders.empty (a0 := acc) (tag := c!"text:p text:style-name=\"First_20_line_20_indent\" />\n") (t := c!"text:p") (as := [(c!"text:style-name", indStyle)]) (by decide +kernel), ?_⟩
  rw [paragraphsAll_append, (textsIn_textNode acc).2.2]
  rfl

/-- Something before the first line. -/
def prefixed (x : Str) : List Str → List Str
  | [] => []
  | l :: r => (x ++ l) :: r

theorem prefixed_nil (ls : List Str) : prefixed [] ls = ls := by cases ls <;> rfl

theorem linesOf_nl (t : Str) : Spec.linesOf ('\n' :: t) = [] :: Spec.linesOf t := by
  show Str.split _ _ = _
  rw [split_char_cons, if_pos rfl]
  rfl

theorem linesOf_char {c : Char} (hc : c ≠ '\n') (x t : Str) : prefixed x (Spec.linesOf (c :: t)) = prefixed (x ++ [c]) (Spec.linesOf t) := by
  show prefixed x (Str.split _ _) = prefixed _ (Str.split t c!"\n")
  rw [split_char_cons, if_neg hc]
  cases h : Str.split t c!"\n" with
  | nil => exact absurd h (Str.split_ne_nil _ _)
  | cons l r =>
    show (x ++ (c :: l)) :: r = ((x ++ [c]) ++ l) :: r
    rw [List.append_assoc]
    rfl

theorem linesOf_cons (t : Str) : ∃ l r, Spec.linesOf t = l :: r := by
  cases h : Spec.linesOf t with
  | nil => exact absurd h (Str.split_ne_nil _ _)
  | cons l r => exact ⟨l, r, rfl⟩

theorem linesOf_single {t : Str} {m : Str} {r : List Str} (ht : ∀ s, t ≠ '\n' :: s) : Spec.linesOf t ≠ [] :: m :: r := by
  cases t with
  | nil =>
    intro h
    cases h
  | cons c t =>
    have hc : c ≠ '\n' := fun e => ht t (by rw [e])
    have e := linesOf_char hc [] t
    rw [prefixed_nil] at e
    rw [e]
    obtain ⟨l, r', h⟩ := linesOf_cons t
    rw [h]
    intro h
    cases h

/-- The paragraphs of a text, after something that is already in the first of them. -/
theorem Pars.text {t : Str} (ht : Carriable t) : ∀ {st pre x : Str}, st = indStyle ∨ st = bodyStyle → Inl pre x [] →
    Pars (pOpen st ++ (pre ++ (plainOut t ++ c!"</text:p>\n"))) (blocks st (prefixed x (Spec.linesOf t))) := by
  fun_induction plainOut t with
  | case1 =>
    intro st pre x hs hp
    have : blocks st (prefixed x (Spec.linesOf [])) = [⟨st, x, []⟩] := by
      show [(⟨st, x ++ [], []⟩ : Paragraph)] = _
      rw [List.append_nil]
    rw [this]
    exact Pars.line hs hp
  | case2 r ih =>
    intro st pre x hs hp
    have hr : Carriable r := fun c hc => ht c (by simp [hc])
    have i := ih hr (st := bodyStyle) (pre := []) (x := []) (.inr rfl) ⟨by simp, fun acc => ⟨[], acc, Renders.nil acc, by simp [textsIn], rfl⟩⟩
    rw [prefixed_nil] at i
    rw [linesOf_nl, linesOf_nl]
    obtain ⟨l, r', h⟩ := linesOf_cons r
    rw [h] at i ⊢
    have e : blocks st (prefixed x ([] :: [] :: l :: r')) = [⟨st, x, []⟩] ++ ([⟨indStyle, [], []⟩] ++ blocks bodyStyle (l :: r')) := by
      unfold prefixed
      rw [blocks, List.append_nil]
      rfl
    rw [e]
    have key := (Pars.line hs hp).append (Pars.gap.append i)
    refine (congrArg (fun s => Pars s _) ?_).mp key
    unfold nl2Out pOpen bodyStyle
    simp only [List.append_assoc, List.nil_append]
    rfl
  | case3 r hne ih =>
    intro st pre x hs hp
    have hr : Carriable r := fun c hc => ht c (by simp [hc])
    have i := ih hr (st := indStyle) (pre := []) (x := []) (.inl rfl) ⟨by simp, fun acc => ⟨[], acc, Renders.nil acc, by simp [textsIn], rfl⟩⟩
    rw [prefixed_nil] at i
    rw [linesOf_nl]
    obtain ⟨l, r', h⟩ := linesOf_cons r
    have e : blocks st (prefixed x ([] :: Spec.linesOf r)) = [⟨st, x, []⟩] ++ blocks indStyle (Spec.linesOf r) := by
      rw [h]
      show blocks st ((x ++ []) :: l :: r') = _
      rw [List.append_nil, blocks]
      · rfl
      · intro m r'' e1 e2
        subst e1
        subst e2
        exact linesOf_single (fun s hs => hne s hs) h
    rw [e]
    have key := (Pars.line hs hp).append i
    refine (congrArg (fun s => Pars s _) ?_).mp key
    unfold nlOut pOpen indStyle
    simp only [List.append_assoc, List.nil_append]
    rfl
  | case4 c r hne1 hne ih =>
    intro st pre x hs hp
    have hr : Carriable r := fun c hc => ht c (by simp [hc])
    have hc : Carriable [c] := fun d hd => ht d (by simp at hd; simp [hd])
    have i := ih hr (st := st) (pre := pre ++ escChar c) (x := x ++ [c]) hs (by
      have := hp.append (Inl.esc hc)
      rw [List.flatMap_singleton] at this
      exact this)
    rw [linesOf_char hne]
    refine (congrArg (fun s => Pars s _) ?_).mp i
    simp only [List.append_assoc]

/-- A description. -/
theorem Pars.desc {st : Str} {d : Option Str} (hs : st = indStyle ∨ st = bodyStyle) (hd : CarriableO d) :
    Pars ((pOpen st ++ (odtConvert d false ++ pEnd)) ++ c!"\n") (Spec.description st d) := by
  have h : odtConvert d false = plainOut (d.getD []) ∧ Carriable (d.getD []) := by
    cases d with
    | none => exact ⟨rfl, by intro c hc; cases hc⟩
    | some t => exact ⟨odtConvert_plain (carriable_cr hd), hd⟩
  rw [h.1]
  have := Pars.text h.2 (st := st) (pre := []) (x := []) hs ⟨by simp, fun acc => ⟨[], acc, Renders.nil acc, by simp [textsIn], rfl⟩⟩
  rw [prefixed_nil] at this
  refine (congrArg (fun s => Pars s _) ?_).mp this
  unfold pEnd
  simp only [List.append_assoc, List.nil_append]
  rfl

theorem Pars.h3 {body text : Str} {ls : List Str} (hb : Inl body text ls) : Pars (h3Plain ++ (body ++ hEnd)) [⟨c!"Heading_20_3", text, ls⟩] :=
  Pars.elem (start := c!"text:h text:style-name=\"Heading_20_3\" text:outline-level=\"3\">") (stop := c!"/text:h>\n") (a2 := c!"\n") (t := c!"text:h")
    (as := [(c!"text:style-name", c!"Heading_20_3"), (c!"text:outline-level", c!"3")]) (.inr rfl) (by decide) (by decide) (by decide +kernel) hb (by decide +kernel)

theorem Pars.h3Invisible {body text : Str} {ls : List Str} (hb : Inl body text ls) : Pars (h3Open ++ (body ++ hEnd)) [⟨c!"Invisible_20_Heading_20_3", text, ls⟩] :=
  Pars.elem (start := c!"text:h text:style-name=\"Invisible_20_Heading_20_3\" text:outline-level=\"3\">") (stop := c!"/text:h>\n") (a2 := c!"\n") (t := c!"text:h")
    (as := [(c!"text:style-name", c!"Invisible_20_Heading_20_3"), (c!"text:outline-level", c!"3")]) (.inr rfl) (by decide) (by decide) (by decide +kernel) hb (by decide +kernel)

theorem Pars.stars : Pars starsDivider [⟨c!"Heading_20_4", c!"* * *", []⟩] :=
  Pars.elem (start := c!"text:p text:style-name=\"Heading_20_4\">") (body := c!"* * *") (stop := c!"/text:p>\n") (a2 := c!"\n") (t := c!"text:p")
    (as := [(c!"text:style-name", c!"Heading_20_4")]) (.inl rfl) (by decide) (by decide) (by decide +kernel) (Inl.lit (by decide)) (by decide +kernel)

/-- The paragraphs of a list of things. -/
theorem Pars.flatMap {α : Type} {f : α → Str} {g : α → List Paragraph} (l : List α) (h : ∀ a ∈ l, Pars (f a) (g a)) : Pars (l.flatMap f) (l.flatMap g) := by
  induction l with
  | nil => exact Pars.nil
  | cons a l ih =>
    rw [List.flatMap_cons, List.flatMap_cons]
    exact (h a (by simp)).append (ih (fun b hb => h b (by simp [hb])))

/-! ### Sheets -/

theorem numId_plain {pre id : Str} (hp : pre.all plainAttr = true) (hid : NumId id) : (pre ++ id).all plainAttr = true := by
  rw [List.all_append, Bool.and_eq_true]
  exact ⟨hp, (digits_plain hid.2).1⟩

/-- The sheet of a location or an item. -/
theorem Pars.element {mark id : Str} (hm : mark = c!"LcID" ∨ mark = c!"ItID") {e : WorldElement} (he : ElementFits id e) : Pars (elementText mark id e) (elementShown e) := by
  unfold elementText sheetText elementShown
  have h1 := Inl.append (Inl.esc (odtConvert_title he.title).2) (Inl.lit (akaPart_plain he.aka).1)
  rw [List.append_nil] at h1
  have hs : Pars (secOpen (mark ++ c!":" ++ id) ++ (((pOpen bodyStyle ++ (odtConvert e.desc false ++ pEnd)) ++ c!"\n") ++ secEnd)) (description bodyStyle e.desc) :=
    Pars.section (numId_plain (by rcases hm with rfl | rfl <;> decide) he.number) (Pars.desc (.inr rfl) he.desc)
  rw [List.append_assoc (pOpen bodyStyle ++ _)] at hs
  exact (Pars.h2 h1).append hs

/-- A text of a character. -/
theorem Pars.aspect {heading mark id : Str} (hh : heading.all plainChar = true) (hn : (c!"CrID_" ++ mark ++ c!":" ++ id).all plainAttr = true) {d : Option Str} (hd : CarriableO d) :
    Pars (personSection heading mark id (odtConvert d false)) (aspectShown heading d) := by
  unfold personSection aspectShown
  have hs : Pars (secOpen (c!"CrID_" ++ mark ++ c!":" ++ id) ++ (((pOpen bodyStyle ++ (odtConvert d false ++ pEnd)) ++ c!"\n") ++ secEnd)) (description bodyStyle d) :=
    Pars.section hn (Pars.desc (.inr rfl) hd)
  rw [List.append_assoc (pOpen bodyStyle ++ _)] at hs
  exact (Pars.h3 (Inl.lit hh)).append hs

/-- The sheet of a character. -/
theorem Pars.person {id : Str} {c : Character} (hc : PersonFits id c) : Pars (personLine id c) (personShown c) := by
  unfold personLine personText personShown
  have h1 := Inl.append (Inl.esc (odtConvert_title hc.title).2) (Inl.append (Inl.lit (fullPart_plain hc.fullName).1) (Inl.lit (akaPart_plain hc.aka).1))
  rw [List.append_nil, List.append_nil] at h1
  have p1 := Pars.aspect (heading := c!"Description") (by decide) (personName_plain (s := c!"desc") (by simp) hc.number) hc.desc
  have p2 := Pars.aspect (heading := c!"Bio") (by decide) (personName_plain (s := c!"bio") (by simp) hc.number) hc.bio
  have p3 := Pars.aspect (heading := c!"Goals") (by decide) (personName_plain (s := c!"goals") (by simp) hc.number) hc.goals
  have p4 := Pars.aspect (heading := c!"Notes") (by decide) (personName_plain (s := c!"notes") (by simp) hc.number) hc.notes
  have hs := Pars.section (name := c!"CrID:" ++ id) (numId_plain (by decide) hc.number) (((p1.append p2).append p3).append p4)
  have e : secOpen (c!"CrID:" ++ id) ++ ((((personSection c!"Description" c!"desc" id (odtConvert c.desc false) ++ personSection c!"Bio" c!"bio" id (odtConvert c.bio false)) ++
      personSection c!"Goals" c!"goals" id (odtConvert c.goals false)) ++ personSection c!"Notes" c!"notes" id (odtConvert c.notes false)) ++ secEnd) =
      secOpen (c!"CrID:" ++ id) ++ (personSection c!"Description" c!"desc" id (odtConvert c.desc false) ++ (personSection c!"Bio" c!"bio" id (odtConvert c.bio false) ++
        (personSection c!"Goals" c!"goals" id (odtConvert c.goals false) ++ (personSection c!"Notes" c!"notes" id (odtConvert c.notes false) ++ secEnd)))) := by
    simp only [List.append_assoc]
  rw [e] at hs
  exact (Pars.h2 h1).append hs

/-! ### Headings with links -/

theorem Pars.linked {level name id : Str} (hl : level = c!"1" ∨ level = c!"2") (hn : LinkName name) (hid : NumId id) {t : Str} (ht : Carriable t) :
    Pars (linkText level (name.flatMap escChar) id (t.flatMap escChar)) [⟨c!"Heading_20_" ++ level, t, [chapterLink name id]⟩] := by
  obtain ⟨o, e, x⟩ := hOpen_sax hl
  have v1 : Val (name.flatMap escChar) name := ⟨esc_cr (fun c hc => ⟨(hn c hc).1, (hn c hc).2.2⟩), fun n as a acc => saxRun_valEsc (fun c hc => ⟨(hn c hc).1, (hn c hc).2.1⟩) n as a acc⟩
  have v2 := (((Val.lit (s := c!"../") (by decide)).append v1).append (Val.lit (s := c!"_manuscript.odt#ChID:") (by decide +kernel))).append
    (Val.lit (digits_plain hid.2).1) |>.append (Val.lit (s := c!"%7Cregion") (by decide))
  have h := Inl.link v2 (Inl.esc ht)
  have ho : '\r' ∉ '<' :: o := by
    rw [← e]
    rcases hl with rfl | rfl <;> decide
  have key := Pars.elem (start := o) (stop := c!"/text:h>\n") (a2 := c!"\n") (t := c!"text:h") (.inr rfl) (style := c!"Heading_20_" ++ level) (by simp [Dict.get?])
    (by rw [List.mem_append, not_or]; exact ⟨fun hm => ho (by simp [hm]), by decide⟩) x h (by decide +kernel)
  rw [← e] at key
  refine (congrArg (fun s => Pars s _) ?_).mp key
  unfold linkText linkOpen hEnd
  simp only [List.append_assoc, List.cons_append, List.nil_append]

end Verif
