/-
The two `styles.xml` of PyWriter.
-/
import Verif.Lemmas.OdfMeta2

namespace Verif
open Spec Template XNode

/-! ### odtStyles -/

set_option maxRecDepth 1000000 in
theorem odtStyles_subst (l c : Str) : Template.subst odtStylesXml [(c!"Language", l), (c!"Country", c)] =
    odtStylesProlog ++ (odtStylesRoot ++ (odtStylesFonts ++ (odtStylesOpen ++ (odtStylesDefault1 ++ (odtStylesBefore1 ++ (odtStylesLang1 ++ (l ++ (odtStylesCtr1 ++ (c ++ (odtStylesRest1 ++ (odtStylesEnd1 ++ (odtStylesDefault2 ++ (odtStylesBefore2 ++ (odtStylesLang2 ++ (l ++ (odtStylesCtr2 ++ (c ++ (odtStylesRest2 ++ (odtStylesEnd2 ++ (odtStylesMore ++ (odtStylesClose ++ (odtStylesLayout ++ (odtStylesStop))))))))))))))))))))))) := by
  have e : segs odtStylesXml = odtStylesProlog.map Seg.lit ++ (odtStylesRoot.map Seg.lit ++ (odtStylesFonts.map Seg.lit ++ (odtStylesOpen.map Seg.lit ++ (odtStylesDefault1.map Seg.lit ++ (odtStylesBefore1.map Seg.lit ++ (odtStylesLang1.map Seg.lit ++ (Seg.var c!"Language" c!"$Language" :: (odtStylesCtr1.map Seg.lit ++ (Seg.var c!"Country" c!"$Country" :: (odtStylesRest1.map Seg.lit ++ (odtStylesEnd1.map Seg.lit ++ (odtStylesDefault2.map Seg.lit ++ (odtStylesBefore2.map Seg.lit ++ (odtStylesLang2.map Seg.lit ++ (Seg.var c!"Language" c!"$Language" :: (odtStylesCtr2.map Seg.lit ++ (Seg.var c!"Country" c!"$Country" :: (odtStylesRest2.map Seg.lit ++ (odtStylesEnd2.map Seg.lit ++ (odtStylesMore.map Seg.lit ++ (odtStylesClose.map Seg.lit ++ (odtStylesLayout.map Seg.lit ++ (odtStylesStop.map Seg.lit))))))))))))))))))))))) := by
    decide +kernel
  unfold subst
  rw [e]
  have g1 : Dict.get? [(c!"Language", l), (c!"Country", c)] c!"Language" = some l := rfl
  have g2 : Dict.get? [(c!"Language", l), (c!"Country", c)] c!"Country" = some c := rfl
  simp only [List.flatMap_append, List.flatMap_cons, render_lits, render, g1, g2, Option.getD_some]

theorem odtStyles_cr : '\r' ∉ odtStylesProlog ∧ '\r' ∉ odtStylesRoot ∧ '\r' ∉ odtStylesFonts ∧ '\r' ∉ odtStylesOpen ∧ '\r' ∉ odtStylesDefault1 ∧ '\r' ∉ odtStylesBefore1 ∧ '\r' ∉ odtStylesLang1 ∧ '\r' ∉ odtStylesCtr1 ∧ '\r' ∉ odtStylesRest1 ∧ '\r' ∉ odtStylesEnd1 ∧ '\r' ∉ odtStylesDefault2 ∧ '\r' ∉ odtStylesBefore2 ∧ '\r' ∉ odtStylesLang2 ∧ '\r' ∉ odtStylesCtr2 ∧ '\r' ∉ odtStylesRest2 ∧ '\r' ∉ odtStylesEnd2 ∧ '\r' ∉ odtStylesMore ∧ '\r' ∉ odtStylesClose ∧ '\r' ∉ odtStylesLayout ∧ '\r' ∉ odtStylesStop := by decide +kernel

set_option maxRecDepth 1000000 in
theorem odtStyles_parts : StylesParts odtStylesProlog odtStylesRoot odtStylesFonts odtStylesOpen odtStylesMore odtStylesClose odtStylesLayout odtStylesStop := by decide +kernel

theorem odtStyles_parts1 : StyleParts odtStylesDefault1 odtStylesBefore1 odtStylesLang1 odtStylesCtr1 odtStylesRest1 odtStylesEnd1 := by decide +kernel

theorem odtStyles_parts2 : StyleParts odtStylesDefault2 odtStylesBefore2 odtStylesLang2 odtStylesCtr2 odtStylesRest2 odtStylesEnd2 := by decide +kernel

/-- The default styles. -/
def odtStylesDefaults (l c : Str) : List XNode :=
  [.text c!"\n  ", defaultStyle odtStylesDefault1 odtStylesBefore1 (odtStylesLang1 ++ (odtStylesCtr1 ++ odtStylesRest1)) l c] ++ [.text c!"\n  ", defaultStyle odtStylesDefault2 odtStylesBefore2 (odtStylesLang2 ++ (odtStylesCtr2 ++ odtStylesRest2)) l c]

/-- The tree. -/
def odtStylesTree (l c : Str) : XNode := stylesTree odtStylesRoot odtStylesFonts (odtStylesDefaults l c) odtStylesMore odtStylesLayout

theorem odtStyles_parses {l c : Str} (hl : l.all valueChar = true) (hc : c.all valueChar = true) :
    parseDoc (Template.subst odtStylesXml [(c!"Language", l), (c!"Country", c)]) = some (odtStylesTree l c) := by
  rw [odtStyles_subst]
  have crl : ∀ {s : Str}, s.all valueChar = true → '\r' ∉ s := by
    intro s h hm
    have := List.all_eq_true.mp h _ hm
    exact absurd this (by decide)
  have d1 := defaultStyle_renders odtStyles_parts1 hl hc
  have d2 := defaultStyle_renders odtStyles_parts2 hl hc
  have := styles_parses odtStyles_parts (d1.append d2) (by
    obtain ⟨c0, c1, c2, c3, c4, c5, c6, c7, c8, c9, c10, c11, c12, c13, c14, c15, c16, c17, c18, c19⟩ := odtStyles_cr
    have cl := crl hl
    have cc := crl hc
    simp only [List.mem_append, not_or]
    simp only [*, not_false_eq_true, and_self])
  unfold odtStylesTree odtStylesDefaults
  rw [← this]
  simp only [List.append_assoc]

/-! ### odsStyles -/

set_option maxRecDepth 1000000 in
theorem odsStyles_subst (l c : Str) : Template.subst odsStylesXml [(c!"Language", l), (c!"Country", c)] =
    odsStylesProlog ++ (odsStylesRoot ++ (odsStylesFonts ++ (odsStylesOpen ++ (odsStylesDefault1 ++ (odsStylesBefore1 ++ (odsStylesLang1 ++ (l ++ (odsStylesCtr1 ++ (c ++ (odsStylesRest1 ++ (odsStylesEnd1 ++ (odsStylesMore ++ (odsStylesClose ++ (odsStylesLayout ++ (odsStylesStop))))))))))))))) := by
  have e : segs odsStylesXml = odsStylesProlog.map Seg.lit ++ (odsStylesRoot.map Seg.lit ++ (odsStylesFonts.map Seg.lit ++ (odsStylesOpen.map Seg.lit ++ (odsStylesDefault1.map Seg.lit ++ (odsStylesBefore1.map Seg.lit ++ (odsStylesLang1.map Seg.lit ++ (Seg.var c!"Language" c!"$Language" :: (odsStylesCtr1.map Seg.lit ++ (Seg.var c!"Country" c!"$Country" :: (odsStylesRest1.map Seg.lit ++ (odsStylesEnd1.map Seg.lit ++ (odsStylesMore.map Seg.lit ++ (odsStylesClose.map Seg.lit ++ (odsStylesLayout.map Seg.lit ++ (odsStylesStop.map Seg.lit))))))))))))))) := by
    decide +kernel
  unfold subst
  rw [e]
  have g1 : Dict.get? [(c!"Language", l), (c!"Country", c)] c!"Language" = some l := rfl
  have g2 : Dict.get? [(c!"Language", l), (c!"Country", c)] c!"Country" = some c := rfl
  simp only [List.flatMap_append, List.flatMap_cons, render_lits, render, g1, g2, Option.getD_some]

theorem odsStyles_cr : '\r' ∉ odsStylesProlog ∧ '\r' ∉ odsStylesRoot ∧ '\r' ∉ odsStylesFonts ∧ '\r' ∉ odsStylesOpen ∧ '\r' ∉ odsStylesDefault1 ∧ '\r' ∉ odsStylesBefore1 ∧ '\r' ∉ odsStylesLang1 ∧ '\r' ∉ odsStylesCtr1 ∧ '\r' ∉ odsStylesRest1 ∧ '\r' ∉ odsStylesEnd1 ∧ '\r' ∉ odsStylesMore ∧ '\r' ∉ odsStylesClose ∧ '\r' ∉ odsStylesLayout ∧ '\r' ∉ odsStylesStop := by decide +kernel

set_option maxRecDepth 1000000 in
theorem odsStyles_parts : StylesParts odsStylesProlog odsStylesRoot odsStylesFonts odsStylesOpen odsStylesMore odsStylesClose odsStylesLayout odsStylesStop := by decide +kernel

theorem odsStyles_parts1 : StyleParts odsStylesDefault1 odsStylesBefore1 odsStylesLang1 odsStylesCtr1 odsStylesRest1 odsStylesEnd1 := by decide +kernel

/-- The default styles. -/
def odsStylesDefaults (l c : Str) : List XNode :=
  [.text c!"\n  ", defaultStyle odsStylesDefault1 odsStylesBefore1 (odsStylesLang1 ++ (odsStylesCtr1 ++ odsStylesRest1)) l c]

/-- The tree. -/
def odsStylesTree (l c : Str) : XNode := stylesTree odsStylesRoot odsStylesFonts (odsStylesDefaults l c) odsStylesMore odsStylesLayout

theorem odsStyles_parses {l c : Str} (hl : l.all valueChar = true) (hc : c.all valueChar = true) :
    parseDoc (Template.subst odsStylesXml [(c!"Language", l), (c!"Country", c)]) = some (odsStylesTree l c) := by
  rw [odsStyles_subst]
  have crl : ∀ {s : Str}, s.all valueChar = true → '\r' ∉ s := by
    intro s h hm
    have := List.all_eq_true.mp h _ hm
    exact absurd this (by decide)
  have d1 := defaultStyle_renders odsStyles_parts1 hl hc
  have := styles_parses odsStyles_parts d1 (by
    obtain ⟨c0, c1, c2, c3, c4, c5, c6, c7, c8, c9, c10, c11, c12, c13⟩ := odsStyles_cr
    have cl := crl hl
    have cc := crl hc
    simp only [List.mem_append, not_or]
    simp only [*, not_false_eq_true, and_self])
  unfold odsStylesTree odsStylesDefaults
  rw [← this]
  simp only [List.append_assoc]

end Verif
