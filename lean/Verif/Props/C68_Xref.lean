/-
C68: the links of the cross reference document.
-/
import Verif.Props.C68_Links
import Verif.Lemmas.Links4
import Verif.Props.C55_XrefDoc
import Verif.Model.Program

namespace Verif
open Spec

/-! ### The links of the document -/

/-- A link to a place (`mark` and `id`) in the document of the class with the ending `e`. -/
def linkTo (name e mark id : Str) : Str := c!"../" ++ name ++ e ++ c!"#" ++ mark ++ id ++ c!"%7Cregion"

theorem occurrences_sub {owners : List Str} {refs : Str → List Str} {k x : Str} (h : x ∈ occurrences owners refs k) : x ∈ owners := by
  unfold occurrences at h
  obtain ⟨o, ho, h⟩ := List.mem_flatMap.1 h
  rw [List.mem_replicate] at h
  rw [h.2]
  exact ho

theorem sections_links {heading : Str → Str} {keys owners : List Str} {refs : Str → List Str} {line : Str → Paragraph} {P : Str → Prop}
    (h : ∀ id ∈ owners, ∀ l ∈ (line id).links, P l) : ∀ p ∈ sections heading keys (occurrences owners refs) line, ∀ l ∈ p.links, P l := by
  intro p hp l hl
  unfold sections at hp
  obtain ⟨k, hk, hp⟩ := List.mem_flatMap.1 hp
  split at hp
  · cases hp
  · rcases List.mem_cons.1 hp with rfl | hp
    · cases hl
    · obtain ⟨id, hid, rfl⟩ := List.mem_map.1 hp
      exact h id (occurrences_sub hid) l hl

/-- What a link of the cross reference is. -/
inductive XrefLink (name : Str) (n : Novel) : Str → Prop
  | scene (id : Str) (s : Scene) (h : id ∈ narrative n) (hs : n.scenes.get? id = some s) (ha : setAside s.scType = false) : XrefLink name n (linkTo name c!"_manuscript.odt" c!"ScID:" id)
  | character (id : Str) (h : id ∈ n.srtCharacters) : XrefLink name n (linkTo name c!"_characters.odt" c!"CrID:" id)
  | location (id : Str) (h : id ∈ n.srtLocations) : XrefLink name n (linkTo name c!"_locations.odt" c!"LcID:" id)
  | item (id : Str) (h : id ∈ n.srtItems) : XrefLink name n (linkTo name c!"_items.odt" c!"ItID:" id)

theorem of_link {P : Str → Prop} {l m : Str} (h : P l) (e : l = m) : P m := e ▸ h

theorem xref_links (name : Str) (n : Novel) (hn : Exportable n) : ∀ p ∈ crossReference name n, ∀ l ∈ p.links, XrefLink name n l := by
  have hscene : ∀ id ∈ narrative n, ∀ l ∈ (sceneEntry name n id).links, XrefLink name n l := by
    intro id hid l hl
    obtain ⟨s, hs, _⟩ := hn.scenes id hid
    unfold sceneEntry at hl
    rw [hs] at hl
    simp only [Option.getD_some] at hl
    split at hl
    · cases hl
    · split at hl
      · cases hl
      · split at hl
        · cases hl
        · rename_i h1 h2 h3
          cases List.mem_singleton.1 hl
          refine of_link (P := XrefLink name n) (XrefLink.scene id s hid hs (by simp [setAside, h1, h2, h3])) ?_
          unfold linkTo
          simp only [List.append_assoc]
          rfl
  intro p hp l hl
  unfold crossReference at hp
  simp only [List.mem_append] at hp
  rcases hp with ((((((hp | hp) | hp) | hp) | hp) | hp) | hp) | hp
  · simp only [List.mem_cons, List.not_mem_nil, or_false] at hp
    rcases hp with rfl | rfl <;> cases hl
  · exact sections_links hscene p hp l hl
  · exact sections_links hscene p hp l hl
  · exact sections_links hscene p hp l hl
  · exact sections_links hscene p hp l hl
  · refine sections_links (P := XrefLink name n) ?_ p hp l hl
    intro id hid l hl
    cases List.mem_singleton.1 hl
    refine of_link (P := XrefLink name n) (XrefLink.character id hid) ?_
    unfold linkTo
    simp only [List.append_assoc]
    rfl
  · refine sections_links (P := XrefLink name n) ?_ p hp l hl
    intro id hid l hl
    cases List.mem_singleton.1 hl
    refine of_link (P := XrefLink name n) (XrefLink.location id hid) ?_
    unfold linkTo
    simp only [List.append_assoc]
    rfl
  · refine sections_links (P := XrefLink name n) ?_ p hp l hl
    intro id hid l hl
    cases List.mem_singleton.1 hl
    refine of_link (P := XrefLink name n) (XrefLink.item id hid) ?_
    unfold linkTo
    simp only [List.append_assoc]
    rfl

theorem withLanguages_eq (n : Novel) : ∃ x, n.withLanguages = { n with languages := x } := by
  unfold Novel.withLanguages
  split
  · exact ⟨_, rfl⟩
  · exact ⟨n.languages, rfl⟩

/-- The scenes of the manuscript have regions. -/
theorem scene_region {n : Novel} (hn : Exportable n) (hi : Inherits n) (hw : ManuscriptWritable n.withLanguages) {id : Str} {s : Scene} (hid : id ∈ narrative n)
    (hs : n.scenes.get? id = some s) (ha : setAside s.scType = false) (hx : s.doNotExport ≠ some true) (hr : rawCode s = false) (w : Machine) :
    ∃ doc, w.content (odt c!"_manuscript") n = .ok doc ∧ HasRegion doc (c!"ScID:" ++ id) := by
  obtain ⟨x, e⟩ := withLanguages_eq n
  have hn' : Exportable n.withLanguages := by rw [e]; exact ⟨hn.chapters, hn.scenes⟩
  have hi' : Inherits n.withLanguages := by rw [e]; exact hi
  obtain ⟨text, h1, h2⟩ := manuscript_regions w.name w.path hn' hi' hw
  refine ⟨text, h1, h2 _ ?_⟩
  unfold narrative at hid
  obtain ⟨chId, hc, hm⟩ := List.mem_flatMap.1 hid
  unfold scenesOf at hm
  cases hch : n.chapters.get? chId with
  | none => rw [hch] at hm; cases hm
  | some ch =>
    rw [hch] at hm
    have hm : id ∈ ch.srtScenes := hm
    rw [e]
    refine List.mem_flatMap.2 ⟨chId, hc, ?_⟩
    unfold chapterSections
    show _ ∈ (match n.chapters.get? chId with | none => _ | some ch => _)
    rw [hch]
    simp only
    have hca : setAside ch.chType = false := by
      cases hb : setAside ch.chType with
      | false => rfl
      | true => have := hi chId ch id s hc hch hb hm hs; rw [ha] at this; cases this
    have hd : (s.doNotExport == some true) = false := by
      cases hb : s.doNotExport == some true with
      | false => rfl
      | true => exact absurd (by simpa using hb) hx
    rw [if_pos]
    · refine List.mem_cons_of_mem _ (List.mem_map.2 ⟨(id, s), ?_, rfl⟩)
      unfold exportedIn
      rw [List.mem_filter]
      refine ⟨List.mem_filterMap.2 ⟨id, hm, ?_⟩, ?_⟩
      · show (n.scenes.get? id).map _ = _
        rw [hs]
        rfl
      · unfold forExport
        simp [hca, ha, hr, bne, hd]
    · unfold chapterShown
      rw [hca]
      simp only [Bool.not_false, Bool.true_and, Bool.not_eq_true']
      rw [Bool.and_eq_false_iff]
      right
      rw [List.all_eq_false]
      refine ⟨id, hm, ?_⟩
      show ¬ (n.scenes.get? id).any _ = true
      rw [hs, Option.any_some, hd]
      simp

/-- **The links of the cross reference work**: the document is written and well-formed, and every link in it leads to a file that the program writes when
the same project is exported to the class the file belongs to (with any machine), and to a section that this file has. -/
theorem C68_cross_reference_partial (w : Machine) (real : Str → Option Str) (base : Str) (hb : '\\' ∉ base) (hn : HasName base)
    (hr : fileName ((real (base ++ c!"_xref.odt")).getD (base ++ c!"_xref.odt")) = fileName (base ++ c!"_xref.odt")) (hs : ¬ c!"_xref.odt" <:+: fileName base)
    (hp : projectNames real (odt c!"_xref") (base ++ c!"_xref.odt") = some (w.path, w.name))
    (n : Novel) (hx : XrefReady n) (he : Exportable n) (hi : Inherits n) (hall : AllThere n) (hf : XrefFits w.name n) (ht : TitleFits n)
    (hm : ManuscriptWritable n.withLanguages) (hc : PersonsFit n.srtCharacters n.characters) (hl : ElementsFit n.srtLocations n.locations)
    (hit : ElementsFit n.srtItems n.items)
    (hnum : ∀ id ∈ narrative n, NumId id)
    (hshown : ∀ id ∈ narrative n, ∀ s, n.scenes.get? id = some s → setAside s.scType = false → s.doNotExport ≠ some true ∧ rawCode s = false) :
    ∃ text root, w.content (odt c!"_xref") n = .ok text ∧ parseDoc text = some root ∧ ∀ p ∈ paragraphs root, ∀ l ∈ p.links,
      ∃ d ∈ exportTargets, ∃ file region, linkedPlace (base ++ c!"_xref.odt") l = some (file, region ++ c!"|region") ∧
        exportTarget exportTargets (base ++ c!".yw7") d.suffix = some ⟨d, some file⟩ ∧
        ∀ w' : Machine, ∃ doc, w'.content d n = .ok doc ∧ HasRegion doc region := by
  obtain ⟨text, root, h1, h2, h3⟩ := C55_document_partial w.name w.path n hx he hf
  refine ⟨text, root, h1, h2, ?_⟩
  rw [h3]
  intro p hpp l hll
  have link : ∀ d ∈ exportTargets, ∀ mark ∈ [c!"ScID:", c!"ChID:", c!"CrID:", c!"LcID:", c!"ItID:"], ∀ id, NumId id →
      (∀ w' : Machine, ∃ doc, w'.content d n = .ok doc ∧ HasRegion doc (mark ++ id)) →
      ∃ d' ∈ exportTargets, ∃ file region, linkedPlace (base ++ c!"_xref.odt") (linkTo w.name d.ending mark id) = some (file, region ++ c!"|region") ∧
        exportTarget exportTargets (base ++ c!".yw7") d'.suffix = some ⟨d', some file⟩ ∧
        ∀ w' : Machine, ∃ doc, w'.content d' n = .ok doc ∧ HasRegion doc region := by
    intro d hd mark hmark id hid hreg
    obtain ⟨g1, g2⟩ := C68_link_partial real (odt c!"_xref") (by decide) d hd base hn hb hr hs w.path w.name hp mark hmark id hid
    exact ⟨d, hd, base ++ d.ending, mark ++ id, g2, g1, hreg⟩
  cases xref_links w.name n he p hpp l hll with
  | scene id s hid hsc ha =>
    refine link (odt c!"_manuscript") (by decide) c!"ScID:" (by decide) id (hnum id hid) ?_
    intro w'
    obtain ⟨g1, g2⟩ := hshown id hid s hsc ha
    exact scene_region he hi hm hid hsc ha g1 g2 w'
  | character id hid =>
    obtain ⟨x, _, hx2⟩ := hc id hid
    refine link (odt c!"_characters") (by decide) c!"CrID:" (by decide) id hx2.number ?_
    intro w'
    obtain ⟨doc, hdoc⟩ := (C49_written (plainEnv w'.name w'.path) n he hall).1
    exact ⟨doc, hdoc, characters_regions hdoc ht hc id hid⟩
  | location id hid =>
    obtain ⟨x, _, hx2⟩ := hl id hid
    refine link (odt c!"_locations") (by decide) c!"LcID:" (by decide) id hx2.number ?_
    intro w'
    obtain ⟨doc, hdoc⟩ := (C49_written (plainEnv w'.name w'.path) n he hall).2.1
    exact ⟨doc, hdoc, locations_regions hdoc ht hl id hid⟩
  | item id hid =>
    obtain ⟨x, _, hx2⟩ := hit id hid
    refine link (odt c!"_items") (by decide) c!"ItID:" (by decide) id hx2.number ?_
    intro w'
    obtain ⟨doc, hdoc⟩ := (C49_written (plainEnv w'.name w'.path) n he hall).2.2
    exact ⟨doc, hdoc, items_regions hdoc ht hit id hid⟩

end Verif
