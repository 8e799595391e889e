/-
C64: the documents carry the title, the author, the description and the language of the project, and their styles are defined.
-/
import Verif.Lemmas.OdfMeta3
import Verif.Lemmas.OdfMeta4
import Verif.Props.C56_Book
import Verif.Props.C31_Export

namespace Verif
open Spec Template XNode

/-! ### Trees -/

theorem sel_none {t : Str} {ks : List XNode} (h : ks.any (isTag t) = false) : sel t ks = [] := by
  unfold sel
  rw [List.filter_eq_nil_iff]
  intro a ha hx
  rw [Bool.eq_false_iff] at h
  exact h (List.any_eq_true.mpr ⟨a, ha, hx⟩)

theorem codeText_value {s : Str} (h : CodeText s) : s.all valueChar = true := by
  rw [List.all_eq_true]
  intro c hc
  obtain ⟨h1, h2, h3, h4, h5, h6⟩ := h c hc
  simp [valueChar, h1, h2, h3, h4, h5, h6]

theorem localeAttrs_get {l1 l2 : List (Str × Str)} (h : (l1.map (·.1)).all (fun k => decide (k ≠ c!"fo:language" ∧ k ≠ c!"fo:country")) = true) (l c : Str) :
    Dict.get? (localeAttrs l1 l2 l c) c!"fo:language" = some l ∧ Dict.get? (localeAttrs l1 l2 l c) c!"fo:country" = some c := by
  have h1 : ∀ k, (k = c!"fo:language" ∨ k = c!"fo:country") → Dict.get? l1 k = none := by
    intro k hk
    clear l2 l c
    induction l1 with
    | nil => rfl
    | cons p l1 ih =>
      obtain ⟨a, b⟩ := p
      simp only [List.map_cons, List.all_cons, Bool.and_eq_true, decide_eq_true_eq] at h
      have : a ≠ k := by rcases hk with rfl | rfl; exact h.1.1; exact h.1.2
      simp only [Dict.get?, this, if_false]
      exact ih h.2
  unfold localeAttrs
  rw [Dict.get?_append_none (h1 _ (Or.inl rfl)), Dict.get?_append_none (h1 _ (Or.inr rfl))]
  exact ⟨rfl, rfl⟩

/-- The locale of a default style. -/
theorem defaultStyle_locale {D B T : Str} (hB : (fragNodes [] B).any (isTag c!"style:text-properties") = false)
    (hT : ((attrsBefore T).map (·.1)).all (fun k => decide (k ≠ c!"fo:language" ∧ k ≠ c!"fo:country")) = true) (l c : Str) :
    (childrenOf c!"style:text-properties" (defaultStyle D B T l c)).map (fun e => (e.attr c!"fo:language", e.attr c!"fo:country")) = [(some l, some c)] := by
  unfold defaultStyle childrenOf
  rw [XNode.kids, sel_append, sel_append, sel_append, sel_none hB, sel_textNode]
  have : sel c!"style:text-properties" [.elem c!"style:text-properties" (localeAttrs (attrsBefore T) (attrsAfter T) l c) []] =
      [.elem c!"style:text-properties" (localeAttrs (attrsBefore T) (attrsAfter T) l c) []] := rfl
  rw [this]
  have h2 : sel c!"style:text-properties" [.text c!"\n  "] = [] := rfl
  rw [h2]
  obtain ⟨g1, g2⟩ := localeAttrs_get (l2 := attrsAfter T) hT l c
  simp only [List.nil_append, List.append_nil, List.map_cons, List.map_nil, XNode.attr, g1, g2]

/-- The children of `office:styles`. -/
theorem stylesTree_styles {root fonts more layout : Str} (defaults : List XNode) (hf : (fragNodes [] fonts).any (isTag c!"office:styles") = false)
    (hl : (fragNodes [] layout).any (isTag c!"office:styles") = false) (t : Str) :
    (childrenOf c!"office:styles" (stylesTree root fonts defaults more layout)).flatMap (childrenOf t) = sel t defaults ++ sel t (fragNodes [] more) := by
  unfold stylesTree childrenOf
  rw [XNode.kids, sel_append, sel_append, sel_append, sel_append, sel_none hf, sel_none hl, sel_textNode, sel_textNode]
  have : ∀ ks, sel c!"office:styles" [.elem c!"office:styles" [] ks] = [.elem c!"office:styles" [] ks] := fun _ => rfl
  rw [this]
  simp only [List.nil_append, List.append_nil, List.flatMap_cons, List.flatMap_nil, XNode.kids, sel_append, sel_textNode]

/-! ### The language of the documents -/

theorem checkLocale_document (n : Novel) (sl sc : Str) :
    (n.checkLocale sl sc).languageCode = some (documentLocale n (sl, sc)).1 ∧ (n.checkLocale sl sc).countryCode = some (documentLocale n (sl, sc)).2 := by
  unfold Novel.checkLocale documentLocale
  cases hl : n.languageCode with
  | none => simp
  | some l =>
    cases l with
    | nil => simp
    | cons x l =>
      cases hc : n.countryCode with
      | none => simp
      | some c =>
        simp only [reduceCtorEq, Option.some.injEq, or_self, if_false, List.length_cons]
        split
        · exact ⟨hl, hc⟩
        · exact ⟨rfl, rfl⟩

theorem stylesText_eq (template sl sc : Str) (n : Novel) :
    stylesText template sl sc n = Template.subst template [(c!"Language", (documentLocale n (sl, sc)).1), (c!"Country", (documentLocale n (sl, sc)).2)] := by
  obtain ⟨h1, h2⟩ := checkLocale_document n sl sc
  unfold stylesText
  simp only [h1, h2, strOrNone, Option.getD_some]

/-- The paragraph styles of text documents. -/
def odtParagraphStyles : List Str :=
  [c!"Standard", c!"Text_20_body", c!"First_20_line_20_indent", c!"Hanging_20_indent", c!"Text_20_body_20_indent", c!"Heading", c!"Heading_20_1", c!"Heading_20_2", c!"Heading_20_3", c!"Heading_20_4", c!"Heading_20_5", c!"Heading_20_6", c!"Heading_20_7", c!"Heading_20_8", c!"Heading_20_9", c!"Heading_20_10", c!"Header", c!"Header_20_left", c!"Header_20_right", c!"Footer", c!"Footer_20_left", c!"Footer_20_right", c!"Title", c!"Subtitle", c!"Quotations", c!"scene_20_mark", c!"scene_20_mark_20_unused", c!"scene_20_mark_20_notes", c!"scene_20_mark_20_todo", c!"Invisible_20_Heading_20_3"]

/-- The character styles of text documents. -/
def odtTextStyles : List Str := [c!"Emphasis", c!"Strong_20_Emphasis"]

set_option maxRecDepth 1000000 in
theorem odtStyles_facts :
    ((fragNodes [] odtStylesFonts).any (isTag c!"office:styles") = false ∧ (fragNodes [] odtStylesLayout).any (isTag c!"office:styles") = false ∧
      (fragNodes [] odtStylesMore).any (isTag c!"style:default-style") = false) ∧
    (((sel c!"style:style" (fragNodes [] odtStylesMore)).filter fun e => decide (e.attr c!"style:family" = some c!"paragraph")).filterMap (attr c!"style:name") = odtParagraphStyles) ∧
    (((sel c!"style:style" (fragNodes [] odtStylesMore)).filter fun e => decide (e.attr c!"style:family" = some c!"text")).filterMap (attr c!"style:name") = odtTextStyles) := by
  decide +kernel

set_option maxRecDepth 1000000 in
theorem odsStyles_facts :
    (fragNodes [] odsStylesFonts).any (isTag c!"office:styles") = false ∧ (fragNodes [] odsStylesLayout).any (isTag c!"office:styles") = false ∧
      (fragNodes [] odsStylesMore).any (isTag c!"style:default-style") = false := by
  decide +kernel

/-- `styles.xml` of a text document is well-formed; the language of its default styles is the one of the project (or of the system, if the project has
none); these are the styles it defines. -/
theorem C64_odt_styles_partial (n : Novel) (sl sc : Str) (hl : CodeText (documentLocale n (sl, sc)).1) (hc : CodeText (documentLocale n (sl, sc)).2) :
    ∃ root, parseDoc (stylesText odtStylesXml sl sc n) = some root ∧
      defaultLocales root = List.replicate 2 (some (documentLocale n (sl, sc)).1, some (documentLocale n (sl, sc)).2) ∧
      definedStyles c!"paragraph" root = odtParagraphStyles ∧ definedStyles c!"text" root = odtTextStyles := by
  rw [stylesText_eq]
  generalize (documentLocale n (sl, sc)).1 = l at *
  generalize (documentLocale n (sl, sc)).2 = c at *
  obtain ⟨⟨f1, f2, f3⟩, f4, f5⟩ := odtStyles_facts
  refine ⟨_, odtStyles_parses (codeText_value hl) (codeText_value hc), ?_, ?_, ?_⟩
  · unfold defaultLocales odtStylesTree
    rw [stylesTree_styles _ f1 f2, sel_none f3, List.append_nil]
    have e : sel c!"style:default-style" (odtStylesDefaults l c) =
        [defaultStyle odtStylesDefault1 odtStylesBefore1 (odtStylesLang1 ++ (odtStylesCtr1 ++ odtStylesRest1)) l c,
         defaultStyle odtStylesDefault2 odtStylesBefore2 (odtStylesLang2 ++ (odtStylesCtr2 ++ odtStylesRest2)) l c] := rfl
    rw [e]
    have d1 := defaultStyle_locale (D := odtStylesDefault1) (B := odtStylesBefore1) (T := odtStylesLang1 ++ (odtStylesCtr1 ++ odtStylesRest1)) (by decide +kernel) (by decide +kernel) l c
    have d2 := defaultStyle_locale (D := odtStylesDefault2) (B := odtStylesBefore2) (T := odtStylesLang2 ++ (odtStylesCtr2 ++ odtStylesRest2)) (by decide +kernel) (by decide +kernel) l c
    rw [List.flatMap_cons, List.flatMap_cons, List.flatMap_nil, List.map_append, List.map_append, d1, d2]
    rfl
  · unfold definedStyles odtStylesTree
    rw [stylesTree_styles _ f1 f2, show sel c!"style:style" (odtStylesDefaults l c) = [] from rfl, List.nil_append]
    exact f4
  · unfold definedStyles odtStylesTree
    rw [stylesTree_styles _ f1 f2, show sel c!"style:style" (odtStylesDefaults l c) = [] from rfl, List.nil_append]
    exact f5

/-- The same for the spreadsheets. -/
theorem C64_ods_styles_partial (n : Novel) (sl sc : Str) (hl : CodeText (documentLocale n (sl, sc)).1) (hc : CodeText (documentLocale n (sl, sc)).2) :
    ∃ root, parseDoc (stylesText odsStylesXml sl sc n) = some root ∧
      defaultLocales root = [(some (documentLocale n (sl, sc)).1, some (documentLocale n (sl, sc)).2)] := by
  rw [stylesText_eq]
  generalize (documentLocale n (sl, sc)).1 = l at *
  generalize (documentLocale n (sl, sc)).2 = c at *
  obtain ⟨f1, f2, f3⟩ := odsStyles_facts
  refine ⟨_, odsStyles_parses (codeText_value hl) (codeText_value hc), ?_⟩
  unfold defaultLocales odsStylesTree
  rw [stylesTree_styles _ f1 f2, sel_none f3, List.append_nil]
  have e : sel c!"style:default-style" (odsStylesDefaults l c) =
      [defaultStyle odsStylesDefault1 odsStylesBefore1 (odsStylesLang1 ++ (odsStylesCtr1 ++ odsStylesRest1)) l c] := rfl
  rw [e]
  have d1 := defaultStyle_locale (D := odsStylesDefault1) (B := odsStylesBefore1) (T := odsStylesLang1 ++ (odsStylesCtr1 ++ odsStylesRest1)) (by decide +kernel) (by decide +kernel) l c
  rw [List.flatMap_cons, List.flatMap_nil, List.append_nil, d1]

/-- The styles of a book are defined. -/
theorem book_styles {n : Novel} {marks : Str → List Piece} (sl sc : Str) (hok : ∀ q ∈ exported n n.srtChapters, ∀ p ∈ marks q.1, p.Ok (n.languages.getD []))
    (hl : CodeText (documentLocale n (sl, sc)).1) (hc : CodeText (documentLocale n (sl, sc)).2) {content : XNode} (h3 : passages content = book n marks)
    (h4 : ∀ l ∈ n.languages.getD [], ∃ a b, l = a ++ c!"-" ++ b ∧ styleLanguage (languageStyleName (position (n.languages.getD []) l)) content = some (a, b)) :
    ∃ styles, parseDoc (stylesText odtStylesXml sl sc n) = some styles ∧
      ∀ p ∈ passages content, p.style ∈ definedStyles c!"paragraph" styles ∧
        ∀ c S, Shown.ch c S ∈ p.shown → ∀ s ∈ S, s ∈ definedStyles c!"text" styles ∨ (styleLanguage s content).isSome = true := by
  obtain ⟨styles, g1, _, g3, g4⟩ := C64_odt_styles_partial n sl sc hl hc
  refine ⟨styles, g1, ?_⟩
  intro p hp
  rw [h3] at hp
  obtain ⟨k1, k2⟩ := book_known hok p hp
  rw [g3, g4]
  refine ⟨?_, ?_⟩
  · have : ∀ s ∈ bookStyles, s ∈ odtParagraphStyles := by decide
    exact this _ k1
  · intro c S hS s hs
    rcases k2 c S hS s hs with rfl | rfl | ⟨l, hl, rfl⟩
    · exact Or.inl (by decide)
    · exact Or.inl (by decide)
    · obtain ⟨a, b, _, e⟩ := h4 l hl
      exact Or.inr (by rw [e]; rfl)

/-- Every style an exported book uses is defined: the paragraph styles and the character styles in `styles.xml`, the styles of the languages in the
document itself. -/
theorem C64_styles_defined_partial (name path sl sc : Str) (n : Novel) (marks : Str → List Piece) (hn : Exportable n) (hi : Inherits n) (hw : BookFits n marks)
    (hl : CodeText (documentLocale n (sl, sc)).1) (hc : CodeText (documentLocale n (sl, sc)).2) :
    ∃ text content styles, exportText (formattedEnv name path) n = .ok text ∧ parseDoc text = some content ∧ parseDoc (stylesText odtStylesXml sl sc n) = some styles ∧
      ∀ p ∈ passages content, p.style ∈ definedStyles c!"paragraph" styles ∧
        ∀ c S, Shown.ch c S ∈ p.shown → ∀ s ∈ S, s ∈ definedStyles c!"text" styles ∨ (styleLanguage s content).isSome = true := by
  obtain ⟨text, content, h1, h2, h3, h4⟩ := C56_book_partial name path n marks hn hi hw
  obtain ⟨styles, g1, g2⟩ := book_styles sl sc (fun q hq => (hw.scenes q hq).flowing.ok) hl hc h3 h4
  exact ⟨text, content, styles, h1, h2, g1, g2⟩

/-- The same for texts that have to be mended. -/
theorem C64_styles_mended_partial (name path sl sc : Str) (n : Novel) (marks : Str → List Piece) (hn : Exportable n) (hi : Inherits n) (hw : ExportWritable n marks)
    (hl : CodeText (documentLocale n (sl, sc)).1) (hc : CodeText (documentLocale n (sl, sc)).2) :
    ∃ text content styles, exportText (formattedEnv name path) n = .ok text ∧ parseDoc text = some content ∧ parseDoc (stylesText odtStylesXml sl sc n) = some styles ∧
      ∀ p ∈ passages content, p.style ∈ definedStyles c!"paragraph" styles ∧
        ∀ c S, Shown.ch c S ∈ p.shown → ∀ s ∈ S, s ∈ definedStyles c!"text" styles ∨ (styleLanguage s content).isSome = true := by
  obtain ⟨marks', text, content, h0, h1, h2, h3, h4⟩ := document_mended name path n marks hn hi hw
  obtain ⟨styles, g1, g2⟩ := book_styles sl sc (fun q hq => (h0 q hq).2) hl hc h3 h4
  exact ⟨text, content, styles, h1, h2, g1, g2⟩

/-- The conditions are met by an example whose texts have to be mended. -/
theorem looseNovel_styles : ∃ text content styles, exportText (formattedEnv c!"prj" c!"/p") exLoose = .ok text ∧ parseDoc text = some content ∧
    parseDoc (stylesText odtStylesXml c!"en" c!"US" exLoose) = some styles ∧
      ∀ p ∈ passages content, p.style ∈ definedStyles c!"paragraph" styles ∧
        ∀ c S, Shown.ch c S ∈ p.shown → ∀ s ∈ S, s ∈ definedStyles c!"text" styles ∨ (styleLanguage s content).isSome = true :=
  C64_styles_mended_partial c!"prj" c!"/p" c!"en" c!"US" exLoose exLooseMarks exLoose_exportable exLoose_inherits exLoose_writable
    (by unfold CodeText; decide) (by unfold CodeText; decide)

/-! ### The metadata -/

/-- The text of an element of the metadata. -/
theorem metaElem_text (t s : Str) : (sel t (metaElem t s)).map plainText = [s] := by
  unfold metaElem
  have : sel t [XNode.text c!"\n    ", .elem t [] (textNode s.reverse)] = [.elem t [] (textNode s.reverse)] := by
    simp [sel, isTag]
  rw [this]
  unfold textNode
  split
  · rename_i h
    have : s = [] := by simpa using h
    rw [this]; rfl
  · simp [plainText]

theorem metaElem_sel (t t' s : Str) : (sel t (metaElem t' s)).map plainText = if t' = t then [s] else [] := by
  split
  · rename_i h; rw [h]; exact metaElem_text t s
  · rename_i h; simp [sel, isTag, metaElem, h]

theorem metaTree_metadata (t d a now : Str) :
    metadata c!"dc:title" (metaTree t d a now) = [t] ∧ metadata c!"dc:description" (metaTree t d a now) = [d] ∧
      metadata c!"meta:initial-creator" (metaTree t d a now) = [a] ∧ metadata c!"meta:creation-date" (metaTree t d a now) = [now ++ ['Z']] := by
  have hk : ∀ x, metadata x (metaTree t d a now) = (sel x (metaElem c!"meta:generator" c!"PyWriter" ++ metaElem c!"dc:title" t ++ metaElem c!"dc:description" d ++ metaElem c!"dc:subject" [] ++
      metaElem c!"meta:keyword" [] ++ metaElem c!"meta:initial-creator" a ++ metaElem c!"dc:creator" [] ++ metaElem c!"meta:creation-date" (now ++ ['Z']) ++ metaElem c!"dc:date" [] ++
      [.text c!"\n  "])).map plainText := by
    intro x
    unfold metadata childrenOf metaTree
    show (sel x _ ++ []).map plainText = _
    rw [List.append_nil]
    rfl
  have hw : ∀ x, sel x [XNode.text c!"\n  "] = [] := fun _ => rfl
  refine ⟨?_, ?_, ?_, ?_⟩ <;> rw [hk] <;> simp only [sel_append, hw, List.map_append, metaElem_sel] <;> rfl

/-- `meta.xml` is well-formed and carries the title, the author, the description and the date. A missing one is written as the word `None`. -/
theorem C64_metadata_partial (now : Str) (n : Novel) (hn : Insertable now) (ht : Insertable (n.title.getD c!"None")) (ha : Insertable (n.authorName.getD c!"None"))
    (hd : SectionText (n.desc.getD c!"None")) :
    ∃ root, parseWithCdata (metaText now n) = some root ∧ metadata c!"dc:title" root = [n.title.getD c!"None"] ∧
      metadata c!"meta:initial-creator" root = [n.authorName.getD c!"None"] ∧ metadata c!"dc:description" root = [n.desc.getD c!"None"] ∧
      metadata c!"meta:creation-date" root = [now ++ ['Z']] := by
  unfold metaText
  rw [metaXml_subst]
  obtain ⟨h1, h2, h3, h4⟩ := metaTree_metadata (n.title.getD c!"None") (n.desc.getD c!"None") (n.authorName.getD c!"None") now
  exact ⟨_, metaText_parses ht hd ha hn, h1, h3, h2, h4⟩

/-! ### Examples, and what goes wrong -/

/-- A project. -/
def metaNovel : Novel := { title := some c!"Don \"Q\"", authorName := some c!"M. de C.", desc := some c!"<In> a village & [so] on]]", languageCode := some c!"es", countryCode := some c!"ES" }

theorem metaNovel_fits : Insertable c!"2024-01-01T10:00:00" ∧ Insertable (metaNovel.title.getD c!"None") ∧ Insertable (metaNovel.authorName.getD c!"None") ∧
    SectionText (metaNovel.desc.getD c!"None") ∧ documentLocale metaNovel (c!"en", c!"US") = (c!"es", c!"ES") ∧ CodeText c!"es" ∧ CodeText c!"ES" := by
  refine ⟨?_, ?_, ?_, ⟨?_, ?_⟩, by decide, ?_, ?_⟩
  · unfold Insertable; decide
  · unfold Insertable; decide
  · unfold Insertable; decide
  · decide
  · decide
  · unfold CodeText; decide
  · unfold CodeText; decide

/-- The metadata of the example. -/
theorem metaNovel_metadata : ∃ root, parseWithCdata (metaText c!"2024-01-01T10:00:00" metaNovel) = some root ∧ metadata c!"dc:title" root = [c!"Don \"Q\""] ∧
    metadata c!"meta:initial-creator" root = [c!"M. de C."] ∧ metadata c!"dc:description" root = [c!"<In> a village & [so] on]]"] ∧
    metadata c!"meta:creation-date" root = [c!"2024-01-01T10:00:00Z"] :=
  C64_metadata_partial _ metaNovel metaNovel_fits.1 metaNovel_fits.2.1 metaNovel_fits.2.2.1 metaNovel_fits.2.2.2.1

set_option maxRecDepth 1000000 in
/-- The full statement is false: with an ampersand in the title or the author's name, or with the end of a CDATA section in the description, `meta.xml` is
not well-formed; with a quotation mark as a part of the language code, `styles.xml` is not. -/
theorem C64_markup_breaks :
    (parseWithCdata (metaText c!"2024-01-01T10:00:00" { metaNovel with title := some c!"A & B" })).isNone = true ∧
    (parseWithCdata (metaText c!"2024-01-01T10:00:00" { metaNovel with authorName := some c!"A & B" })).isNone = true ∧
    (parseWithCdata (metaText c!"2024-01-01T10:00:00" { metaNovel with desc := some c!"a]]>b" })).isNone = true ∧
    (parseDoc (stylesText odtStylesXml c!"en" c!"US" { metaNovel with languageCode := some c!"e\"" })).isNone = true := by
  refine ⟨?_, ?_, ?_, ?_⟩ <;> decide +kernel

/-- The notes of a book have styles that are not defined. -/
theorem C64_note_styles : c!"Footnote" ∉ odtParagraphStyles ∧ c!"Endnote" ∉ odtParagraphStyles := by decide

/-- A book whose styles are all defined. -/
theorem bookNovel_styles : ∃ text content styles, exportText (formattedEnv c!"p" c!"/p") bookNovel = .ok text ∧ parseDoc text = some content ∧
    parseDoc (stylesText odtStylesXml c!"en" c!"US" bookNovel) = some styles ∧
      ∀ p ∈ passages content, p.style ∈ definedStyles c!"paragraph" styles ∧
        ∀ c S, Shown.ch c S ∈ p.shown → ∀ s ∈ S, s ∈ definedStyles c!"text" styles ∨ (styleLanguage s content).isSome = true :=
  C64_styles_defined_partial c!"p" c!"/p" c!"en" c!"US" _ _ (bookExample_exportable _ _ _) (bookExample_inherits _ _ _) bookNovel_fits
    (by unfold CodeText; decide) (by unfold CodeText; decide)

end Verif
