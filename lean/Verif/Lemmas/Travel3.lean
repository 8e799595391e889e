/-
Reading back the documents of the program.
-/
import Verif.Model.Program
import Verif.Lemmas.Travel1
import Verif.Lemmas.Travel2
import Verif.Props.C64_OdfMeta
import Verif.Spec.Roundtrip

namespace Verif
open Spec XNode

/-- The root of the styles of a text document. -/
theorem odtStylesTree_find (l c : Str) : XNode.find c!"office:styles" (odtStylesTree l c).kids =
    some (.elem c!"office:styles" [] (odtStylesDefaults l c ++ fragNodes [] odtStylesMore ++ textNode (fragRest [] odtStylesMore))) := by
  obtain ⟨⟨f1, f2, f3⟩, f4, f5⟩ := odtStyles_facts
  have : sel c!"office:styles" (odtStylesTree l c).kids =
      [.elem c!"office:styles" [] (odtStylesDefaults l c ++ fragNodes [] odtStylesMore ++ textNode (fragRest [] odtStylesMore))] := by
    unfold odtStylesTree stylesTree
    rw [XNode.kids, sel_append, sel_append, sel_append, sel_append, sel_none f1, sel_none f2, sel_textNode, sel_textNode]
    rfl
  unfold XNode.find
  rw [← List.head?_filter]
  show (sel c!"office:styles" (odtStylesTree l c).kids).head? = _
  rw [this]
  rfl

theorem odtStylesTree_defaults (l c : Str) :
    sel c!"style:default-style" (odtStylesDefaults l c ++ fragNodes [] odtStylesMore ++ textNode (fragRest [] odtStylesMore)) =
      [defaultStyle odtStylesDefault1 odtStylesBefore1 (odtStylesLang1 ++ (odtStylesCtr1 ++ odtStylesRest1)) l c,
       defaultStyle odtStylesDefault2 odtStylesBefore2 (odtStylesLang2 ++ (odtStylesCtr2 ++ odtStylesRest2)) l c] := by
  obtain ⟨⟨f1, f2, f3⟩, f4, f5⟩ := odtStyles_facts
  rw [sel_append, sel_append, sel_none f3, sel_textNode]
  rfl

theorem default_families (l c : Str) :
    (defaultStyle odtStylesDefault1 odtStylesBefore1 (odtStylesLang1 ++ (odtStylesCtr1 ++ odtStylesRest1)) l c).attr c!"style:family" ≠ some c!"paragraph" ∧
    (defaultStyle odtStylesDefault2 odtStylesBefore2 (odtStylesLang2 ++ (odtStylesCtr2 ++ odtStylesRest2)) l c).attr c!"style:family" = some c!"paragraph" := by
  constructor
  · show Dict.get? (fragAttrs [] odtStylesDefault1) c!"style:family" ≠ some c!"paragraph"
    decide +kernel
  · show Dict.get? (fragAttrs [] odtStylesDefault2) c!"style:family" = some c!"paragraph"
    decide +kernel

/-- The language of the document. -/
theorem odtStylesTree_locale (l c : Str) : paragraphLocales (odtStylesTree l c) = [(some l, some c)] := by
  unfold paragraphLocales
  have h1 := odtStylesTree_find l c
  unfold XNode.find at h1
  rw [h1]
  obtain ⟨g1, g2⟩ := default_families l c
  simp only [Option.toList, List.flatMap_cons, List.flatMap_nil, List.append_nil, XNode.kids]
  rw [odtStylesTree_defaults, List.filter_cons, if_neg (by simpa using g1), List.filter_cons, if_pos (by simpa using g2), List.filter_nil]
  have d2 := defaultStyle_locale (D := odtStylesDefault2) (B := odtStylesBefore2) (T := odtStylesLang2 ++ (odtStylesCtr2 ++ odtStylesRest2)) (by decide +kernel) (by decide +kernel) l c
  rw [List.flatMap_cons, List.flatMap_nil, List.append_nil]
  exact d2

theorem odtStylesTree_calls (l c : Str) : ∃ a, stylesCalls (odtStylesTree l c) = .ok a := by
  unfold stylesCalls
  rw [odtStylesTree_find]
  simp only [XNode.kids]
  rw [odtStylesTree_defaults, styleCalls, if_neg (default_families l c).1, styleCalls, if_pos (default_families l c).2]
  have d2 := defaultStyle_locale (D := odtStylesDefault2) (B := odtStylesBefore2) (T := odtStylesLang2 ++ (odtStylesCtr2 ++ odtStylesRest2)) (by decide +kernel) (by decide +kernel) l c
  cases hf : XNode.find c!"style:text-properties" (defaultStyle odtStylesDefault2 odtStylesBefore2 (odtStylesLang2 ++ (odtStylesCtr2 ++ odtStylesRest2)) l c).kids with
  | some t => exact ⟨_, rfl⟩
  | none =>
    unfold XNode.find at hf
    rw [← List.head?_filter, List.head?_eq_none_iff] at hf
    unfold childrenOf at d2
    have : sel c!"style:text-properties" (defaultStyle odtStylesDefault2 odtStylesBefore2 (odtStylesLang2 ++ (odtStylesCtr2 ++ odtStylesRest2)) l c).kids = [] := hf
    rw [this] at d2
    cases d2

theorem metaTree_calls (t d a now : Str) : ∃ b, infoCalls (some (metaTree t d a now)) = .ok b := by
  unfold infoCalls metaCalls
  have : XNode.find c!"office:meta" (metaTree t d a now).kids ≠ none := by
    intro h
    unfold XNode.find at h
    rw [List.find?_eq_none] at h
    exact h _ (List.mem_cons_of_mem _ (List.mem_cons_self ..)) rfl
  dsimp only
  cases hf : XNode.find c!"office:meta" (metaTree t d a now).kids with
  | none => exact absurd hf this
  | some m => exact ⟨_, rfl⟩

namespace Machine

variable (w : Machine)

theorem complete : ∀ c n, OdfComplete (w.program.odfFiles c n) (w.program.comps c) := by
  intro c n
  show OdfComplete (.ok (w.otherFiles c n.2)) (if c.ext = c!".odt" then odtComponents else odsComponents)
  unfold otherFiles
  by_cases h : c.ext = c!".odt"
  · rw [if_pos h, if_pos h]; exact (odf_complete ..).1
  · rw [if_neg h, if_neg h]; exact (odf_complete _ _ _ _ _ []).2

theorem comps_nodup (c : DocClass) : (w.program.comps c).Nodup := by
  show (if c.ext = c!".odt" then odtComponents else odsComponents).Nodup
  split <;> decide

theorem files_nodup (c : DocClass) (n : Option Elem × Novel) (t : Str) : ((w.otherFiles c n.2 ++ [(c!"content.xml", t)]).map (·.1)).Nodup := by
  obtain ⟨h1, h2, _⟩ := w.complete c n _ rfl
  rw [List.map_append, List.nodup_append]
  refine ⟨h1, by simp, ?_⟩
  intro a ha b hb
  simp only [List.map_cons, List.map_nil, List.mem_singleton] at hb
  subst hb
  intro e
  subst e
  exact h2 ha

/-- The tree of the metadata. -/
def info (n : Novel) : XNode := metaTree (strOrNone n.title) (strOrNone n.desc) (strOrNone n.authorName) w.now

theorem info_parses {n : Novel} (h : MetadataFit w.now (w.sysLng, w.sysCtr) n) : parseWithCdata (metaText w.now n) = some (w.info n) := by
  unfold metaText
  rw [metaXml_subst]
  exact metaText_parses h.title h.desc h.author h.time

/-- The styles. -/
def styles (n : Novel) : XNode := odtStylesTree (documentLocale n (w.sysLng, w.sysCtr)).1 (documentLocale n (w.sysLng, w.sysCtr)).2

theorem styles_parses {n : Novel} (h : MetadataFit w.now (w.sysLng, w.sysCtr) n) : parseDoc (stylesText odtStylesXml w.sysLng w.sysCtr n) = some (w.styles n) := by
  rw [stylesText_eq]
  exact odtStyles_parses (codeText_value h.language) (codeText_value h.country)

/-- The text document is read. -/
theorem odtFile_ok (hz : ArchivesWork w.zip w.unzip) (c : DocClass) (hc : c.ext = c!".odt") {n : Novel} (h : MetadataFit w.now (w.sysLng, w.sysCtr) n) {t : Str} {evs : List Ev}
    (ht : saxEvents t = some evs) {a : Str} (ha : Archive w.zip.entry (w.otherFiles c n ++ [(c!"content.xml", t)]) (w.program.comps c) a) :
    w.odtFile (a ++ w.zip.directory (w.program.comps c)) = .ok ⟨w.styles n, some (w.info n), evs⟩ := by
  have hcm : w.program.comps c = odtComponents := if_pos hc
  have hof : w.otherFiles c n = odtFiles odtMimetype odtSettingsXml odtManifestXml (stylesText odtStylesXml w.sysLng w.sysCtr n) (metaText w.now n) odtManifestRdf := if_pos hc
  have get : ∀ {name t'}, name ∈ odtComponents → (name, t') ∈ w.otherFiles c n ++ [(c!"content.xml", t)] → w.unzip (a ++ w.zip.directory (w.program.comps c)) name = some t' :=
    fun h1 h2 => unzip_archive hz ha (w.files_nodup c (none, n) t) (w.comps_nodup c) (by rw [hcm]; exact h1) h2
  unfold odtFile
  have e1 : w.unzip (a ++ w.zip.directory (w.program.comps c)) c!"content.xml" = some t := get (by decide) (by simp)
  have e2 : w.unzip (a ++ w.zip.directory (w.program.comps c)) c!"styles.xml" = some (stylesText odtStylesXml w.sysLng w.sysCtr n) :=
    get (by decide) (by rw [hof]; simp [odtFiles, odsFiles])
  have e3 : w.unzip (a ++ w.zip.directory (w.program.comps c)) c!"meta.xml" = some (metaText w.now n) := get (by decide) (by rw [hof]; simp [odtFiles, odsFiles])
  have e4 : metaText w.now n ≠ [] := by
    intro h'
    have := w.info_parses h
    rw [h'] at this
    cases this
  rw [e1, e2, e3]
  simp only [need, Bind.bind, Except.bind, w.styles_parses h, w.info_parses h, ht, if_neg e4, Except.map]

/-- The spreadsheet is read. -/
theorem sheet_ok (hz : ArchivesWork w.zip w.unzip) (c : DocClass) {n : Novel} {t : Str}
    {a : Str} (ha : Archive w.zip.entry (w.otherFiles c n ++ [(c!"content.xml", t)]) (w.program.comps c) a) :
    w.unzip (a ++ w.zip.directory (w.program.comps c)) c!"content.xml" = some t := by
  refine unzip_archive hz ha (w.files_nodup c (none, n) t) (w.comps_nodup c) ?_ (by simp)
  show c!"content.xml" ∈ if c.ext = c!".odt" then odtComponents else odsComponents
  split <;> decide

theorem parse_yw7 {s : Str} {x : Elem} {n : Novel} (h : loadFile w.lib s = some (x, n)) (m : Option Elem × Novel) : w.program.parse yw7Class s m = .ok ((some x, n), false) := by
  show w.parse yw7Class s m = _
  unfold parse
  rw [if_pos rfl]
  unfold readYw7
  unfold loadFile at h
  cases hx : parseXml (parserInput s) with
  | none => rw [hx] at h; cases h
  | some x' =>
    rw [hx] at h
    dsimp only at h
    cases hn : readTree w.lib x' with
    | error e => rw [hn] at h; cases h
    | ok n' =>
      rw [hn] at h
      cases h
      simp only [need, Bind.bind, Except.bind, hn]

end Machine
end Verif
