/-
C71: the brief synopsis shows exactly the title, the author, the headings of the shown chapters and the titles of their exported scenes, in the order
of the story.
-/
import Verif.Lemmas.Synopsis
import Verif.Props.C50_Descriptions

namespace Verif
open Spec Template

/-- **C71**: the brief synopsis of a project can be written; it is a well-formed document, and its paragraphs are the title, the author, and for every chapter that is shown its
heading and one line with the title of each exported scene, in the order of the story; there is nothing else in it, in particular nothing of notes, todo and unused material and of
scenes that are not for export. -/
theorem C71_synopsis_partial (name path : Str) (n : Novel) (hn : Exportable n) (ha : AllThere n) (hi : Inherits n) (hf : SynopsisFits n) :
    ∃ text root, getText (odtSynopsis (plainEnv name path)) n = .ok text ∧ parseDoc text = some root ∧ paragraphs root = synopsis n := by
  have hx : TotalMappings (odtSynopsis (plainEnv name path)) n := sheet_mappings (e := plainEnv name path) hn rfl rfl rfl
  obtain ⟨text, hw⟩ := getText_total hn hx (fun id hid => character_total _ (ha.characters id hid)) (fun id hid => location_total _ (ha.locations id hid))
    (fun id hid => item_total _ (ha.items id hid)) (fun id hid => note_total _ (ha.notes id hid))
  have hw' := hw
  unfold getText at hw
  obtain ⟨header, h1, hw⟩ := bind_ok hw
  obtain ⟨chapters, h2, hw⟩ := bind_ok hw
  obtain ⟨chars, h3, hw⟩ := bind_ok hw
  obtain ⟨locs, h4, hw⟩ := bind_ok hw
  obtain ⟨items, h5, hw⟩ := bind_ok hw
  obtain ⟨notes, h6, hw⟩ := bind_ok hw
  injection hw with hw
  have e1 := sheet_header name path n rfl rfl ⟨hf.title, hf.author⟩ h1
  have e2 := C29_C30_lines _ (C29_writers (plainEnv name path)).2.2.2.2.2 n hi chapters h2
  have p2 := synopsis_manuscript name path hn hf n.srtChapters [] (fun _ h => h)
  rw [← e2] at p2
  have e3 : chars.flatten = [] := elementLines_empty h3
  have e4 : locs.flatten = [] := elementLines_empty h4
  have e5 : items.flatten = [] := elementLines_empty h5
  have e6 : notes.flatten = [] := elementLines_empty h6
  have pt := Pars.p (style := c!"Title") (by simp) (Inl.esc (odtConvert_title hf.title).2)
  have pa := Pars.p (style := c!"Subtitle") (by simp) (Inl.esc (odtConvert_title hf.author).2)
  have eT : c!"<text:p text:style-name=\"" ++ c!"Title" ++ c!"\">" = c!"<text:p text:style-name=\"Title\">" := by decide
  have eA : c!"<text:p text:style-name=\"" ++ c!"Subtitle" ++ c!"\">" = c!"<text:p text:style-name=\"Subtitle\">" := by decide
  rw [eT] at pt
  rw [eA] at pa
  obtain ⟨root, hroot, hpar⟩ := document_paragraphs ((pt.append pa).append p2)
  refine ⟨text, root, hw', ?_, ?_⟩
  · refine (congrArg parseDoc ?_).trans hroot
    have g : text = (header ++ chapters ++ ([] ++ chars) ++ ([] ++ locs) ++ ([] ++ items) ++ notes ++ [contentFooter]).flatten := by
      rw [← hw]
      rfl
    rw [g]
    simp only [List.nil_append, List.flatten_append, e1, e3, e4, e5, e6, List.append_nil, List.flatten_singleton, List.append_assoc]
  · rw [hpar]
    rfl

theorem exportedIn_unshown {n : Novel} {ch : Chapter} (h : ¬ chapterShown n ch = true) : exportedIn n ch = [] := exportedIn_hidden (by simpa using h)

/-- **C71, scenes**: the lines of text in the synopsis are the titles of all exported scenes of the novel, in narrative order, each exactly once. -/
theorem C71_scenes_partial (name path : Str) (n : Novel) (hn : Exportable n) (ha : AllThere n) (hi : Inherits n) (hf : SynopsisFits n) :
    ∃ text root, getText (odtSynopsis (plainEnv name path)) n = .ok text ∧ parseDoc text = some root ∧
      (((paragraphs root).filter (fun p => p.style = c!"Text_20_body")).map (·.text)) = (exported n n.srtChapters).map (fun p => p.2.title.getD []) := by
  obtain ⟨text, root, h1, h2, h3⟩ := C71_synopsis_partial name path n hn ha hi hf
  refine ⟨text, root, h1, h2, ?_⟩
  rw [h3]
  unfold synopsis exported
  rw [List.filter_cons_of_neg (by simp), List.filter_cons_of_neg (by simp), List.filter_flatMap, List.map_flatMap, List.map_flatMap]
  congr 1
  funext id
  cases n.chapters.get? id with
  | none => rfl
  | some ch =>
    dsimp only
    unfold synopsisChapter
    by_cases hs : chapterShown n ch = true
    · rw [if_pos hs, List.filter_cons_of_neg (by unfold synopsisHeading; split <;> simp), List.filter_eq_self.2, List.map_map]
      · rfl
      · intro p hp
        obtain ⟨q, -, rfl⟩ := List.mem_map.1 hp
        rfl
    · rw [if_neg hs, exportedIn_unshown hs]
      rfl

/-- **C71, headings**: the headings in the synopsis are the titles of the shown chapters in their order - also of those whose title is not to be shown in the manuscript. -/
theorem C71_headings_partial (name path : Str) (n : Novel) (hn : Exportable n) (ha : AllThere n) (hi : Inherits n) (hf : SynopsisFits n) :
    ∃ text root, getText (odtSynopsis (plainEnv name path)) n = .ok text ∧ parseDoc text = some root ∧
      (((paragraphs root).filter (fun p => p.style = c!"Heading_20_1" || p.style = c!"Heading_20_2")).map (·.text)) =
        ((n.srtChapters.filterMap n.chapters.get?).filter (fun ch => chapterShown n ch)).map (fun ch => ch.title.getD []) := by
  obtain ⟨text, root, h1, h2, h3⟩ := C71_synopsis_partial name path n hn ha hi hf
  refine ⟨text, root, h1, h2, ?_⟩
  rw [h3]
  unfold synopsis
  rw [List.filter_cons_of_neg (by simp), List.filter_cons_of_neg (by simp)]
  induction n.srtChapters with
  | nil => rfl
  | cons id ids ih =>
    rw [List.flatMap_cons, List.filter_append, List.map_append, ih, List.filterMap_cons]
    cases n.chapters.get? id with
    | none => rfl
    | some ch =>
      dsimp only
      unfold synopsisChapter
      by_cases hs : chapterShown n ch = true
      · rw [if_pos hs, List.filter_cons_of_pos (by unfold synopsisHeading; split <;> simp), List.filter_cons_of_pos hs]
        have : ((exportedIn n ch).map (fun p => synopsisLine p.2)).filter (fun p => p.style = c!"Heading_20_1" || p.style = c!"Heading_20_2") = [] := by
          rw [List.filter_eq_nil_iff]
          intro p hp
          obtain ⟨q, -, rfl⟩ := List.mem_map.1 hp
          simp [synopsisLine]
        rw [this]
        rfl
      · rw [if_neg hs, List.filter_cons_of_neg hs]
        rfl

/-! ### An example -/

/-- A novel with a part, two chapters (the title of one of them is suppressed), unused material, a scene that is not for export. -/
def synopsisExample (t : Str) : Novel :=
  { title := some t, authorName := some c!"N. N.",
    chapters := [(c!"1", { title := some c!"Part <1>", chLevel := some 1, srtScenes := [] }), (c!"2", { title := some c!"One", srtScenes := [c!"5", c!"6"], suppressChapterTitle := some true }),
      (c!"3", { title := some c!"Old", chType := some 3, srtScenes := [c!"8"] }), (c!"4", { title := some c!"Two", srtScenes := [c!"7", c!"9"] })],
    srtChapters := [c!"1", c!"2", c!"3", c!"4"],
    scenes := [(c!"5", { title := some c!"Begin", status := some 1 }), (c!"6", { title := some c!"A & B", status := some 5, appendToPrev := some true }),
      (c!"7", { title := some c!"Draft", status := some 2, doNotExport := some true }), (c!"8", { title := some c!"Gone", status := some 2, scType := some 3 }),
      (c!"9", { title := none, status := some 2 })] }

theorem synopsisExample_narrative (t : Str) : narrative (synopsisExample t) = [c!"5", c!"6", c!"8", c!"7", c!"9"] := rfl

theorem synopsisExample_exportable (t : Str) : Exportable (synopsisExample t) where
  chapters id hid := by
    simp only [synopsisExample, List.mem_cons, List.not_mem_nil, or_false] at hid
    rcases hid with rfl | rfl | rfl | rfl <;> exact ⟨_, rfl⟩
  scenes id hid := by
    rw [synopsisExample_narrative] at hid
    simp only [List.mem_cons, List.not_mem_nil, or_false] at hid
    rcases hid with rfl | rfl | rfl | rfl | rfl
    · exact ⟨_, rfl, ⟨1, by decide, rfl⟩, (by intro l h; cases h), (by intro l h; cases h)⟩
    · exact ⟨_, rfl, ⟨5, by decide, rfl⟩, (by intro l h; cases h), (by intro l h; cases h)⟩
    · exact ⟨_, rfl, ⟨2, by decide, rfl⟩, (by intro l h; cases h), (by intro l h; cases h)⟩
    · exact ⟨_, rfl, ⟨2, by decide, rfl⟩, (by intro l h; cases h), (by intro l h; cases h)⟩
    · exact ⟨_, rfl, ⟨2, by decide, rfl⟩, (by intro l h; cases h), (by intro l h; cases h)⟩

theorem synopsisExample_there (t : Str) : AllThere (synopsisExample t) :=
  ⟨(by intro _ h; cases h), (by intro _ h; cases h), (by intro _ h; cases h), (by intro _ h; cases h)⟩

theorem synopsisExample_inherits (t : Str) : Inherits (synopsisExample t) := by
  intro chId ch scId s h1 h2 h3 h4 h5
  simp only [synopsisExample, List.mem_cons, List.not_mem_nil, or_false] at h1
  rcases h1 with rfl | rfl | rfl | rfl <;> cases Option.some.inj h2
  · cases h4
  · cases h3
  · simp only [List.mem_cons, List.not_mem_nil, or_false] at h4
    subst h4
    cases Option.some.inj h5
    rfl
  · cases h3

theorem synopsisExample_fits : SynopsisFits (synopsisExample c!"My \"book\"") where
  title := by show Carriable _; unfold Carriable; decide
  author := by show Carriable _; unfold Carriable; decide
  chapters id hid ch hc _ := by
    simp only [synopsisExample, List.mem_cons, List.not_mem_nil, or_false] at hid
    rcases hid with rfl | rfl | rfl | rfl <;> cases Option.some.inj hc
    · refine ⟨(by show Carriable _; unfold Carriable; decide), ?_⟩
      intro p hp
      cases hp
    · refine ⟨(by show Carriable _; unfold Carriable; decide), ?_⟩
      intro p hp
      have hp := exportedIn_mem hp
      have : ∀ q ∈ (synopsisExample c!"My \"book\"").scenes, CarriableO q.2.title := by
        intro q hq
        simp only [synopsisExample, List.mem_cons, List.not_mem_nil, or_false] at hq
        rcases hq with rfl | rfl | rfl | rfl | rfl <;> first | (show Carriable _; unfold Carriable; decide) | trivial
      exact this (p.1, p.2) (mem_of_get? hp)
    · refine ⟨(by show Carriable _; unfold Carriable; decide), ?_⟩
      intro p hp
      cases hp
    · refine ⟨(by show Carriable _; unfold Carriable; decide), ?_⟩
      intro p hp
      have hp := exportedIn_mem hp
      have : ∀ q ∈ (synopsisExample c!"My \"book\"").scenes, CarriableO q.2.title := by
        intro q hq
        simp only [synopsisExample, List.mem_cons, List.not_mem_nil, or_false] at hq
        rcases hq with rfl | rfl | rfl | rfl | rfl <;> first | (show Carriable _; unfold Carriable; decide) | trivial
      exact this (p.1, p.2) (mem_of_get? hp)

/-- The synopsis of the example. The title of the second chapter, which is suppressed in the manuscript, is there. -/
theorem synopsisExample_shown : ∃ text root, getText (odtSynopsis (plainEnv c!"p" c!"/p")) (synopsisExample c!"My \"book\"") = .ok text ∧ parseDoc text = some root ∧
    paragraphs root = [⟨c!"Title", c!"My \"book\"", []⟩, ⟨c!"Subtitle", c!"N. N.", []⟩, ⟨c!"Heading_20_1", c!"Part <1>", []⟩, ⟨c!"Heading_20_2", c!"One", []⟩,
      ⟨c!"Text_20_body", c!"Begin", []⟩, ⟨c!"Text_20_body", c!"A & B", []⟩, ⟨c!"Heading_20_2", c!"Two", []⟩, ⟨c!"Text_20_body", c!"", []⟩] := by
  obtain ⟨text, root, h1, h2, h3⟩ := C71_synopsis_partial c!"p" c!"/p" _ (synopsisExample_exportable _) (synopsisExample_there _) (synopsisExample_inherits _) synopsisExample_fits
  refine ⟨text, root, h1, h2, ?_⟩
  rw [h3]
  decide +kernel

/-- The synopsis that is written, if it is well-formed. -/
def synopsisParsed (n : Novel) : Option XNode :=
  match getText (odtSynopsis (plainEnv c!"p" c!"/p")) n with
  | .ok text => parseDoc text
  | .error _ => none

set_option maxRecDepth 100000 in
/-- False without the condition on the titles: a title with a control character is written as it is, the document is not well-formed. -/
theorem C71_control_breaks : (synopsisParsed (synopsisExample c!"x")).isSome = true ∧ (synopsisParsed (synopsisExample [Char.ofNat 1])).isSome = false := by
  refine ⟨?_, ?_⟩ <;> decide +kernel

end Verif
