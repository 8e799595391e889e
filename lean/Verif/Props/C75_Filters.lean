/-
C75: an export with filters shows the project without what the filters reject.
-/
import Verif.Lemmas.Filters
import Verif.Props.C73_States

namespace Verif
open Spec

/-- **C75, no filters**: the stub filter of the base class accepts everything, and then the text is that of the export without filters. -/
theorem C75_default (x : Exporter) (n : Novel) : filteredText {} x n = getText x n := by
  have hf : ∀ l : List Str, l.filter (fun _ => true) = l := fun l => List.filter_eq_self.2 (fun _ _ => rfl)
  have hc : ∀ (l : List Str) (k : Nat) (c : Counters), chaptersFiltered {} x n k c l = chaptersLoop x n k c l := by
    intro l
    induction l with
    | nil => intro k c; rfl
    | cons id r ih =>
      intro k c
      rw [chaptersFiltered, chaptersLoop, if_neg (show ¬ (true = false) by decide)]
      simp only [ih, scenesFiltered_eq, hf]
  unfold filteredText getText getChapters
  simp only [hc, elementsFiltered_eq, hf]

/-- **C75, the text**: an export with filters makes exactly the text that the export without filters makes of the project from whose lists all rejected scenes, chapters, characters, locations and items
are taken: no line, no divider and no number is left of them. This holds for every exporter whose placeholders stand for data of the element at hand, if the rejection of scenes does not change the
question whether all the scenes of a chapter are marked "do not export". -/
theorem C75_remaining_partial (f : Filters) (x : Exporter) (hx : OwnData x) (n : Novel) (h : MarksRemain f n) : filteredText f x n = getText x (remaining f n) := by
  have hc := chaptersFiltered_remaining hx (n := n) (f := f) n.srtChapters 0 {} (fun id hid ha ch hg => ⟨h.scenes id hid ha ch hg, h.marks id hid ha ch hg⟩)
  have hm := sameFrame_remaining f n
  unfold filteredText getText getChapters
  rw [hc, header_congr hx hm, elementsFiltered_eq, elementsFiltered_eq, elementsFiltered_eq,
    elementLines_congr (fun id => hx.character n _ id hm), elementLines_congr (fun id => hx.location n _ id hm), elementLines_congr (fun id => hx.item n _ id hm),
    elementLines_congr (fun id => hx.note n _ id hm)]
  rfl

/-- The filters reject no scene. -/
theorem noSceneFilter_marks {f : Filters} {n : Novel} (hf : ∀ id, f.scene id = true)
    (hs : ∀ id ∈ n.srtChapters, ∀ ch, n.chapters.get? id = some ch → ∀ s ∈ ch.srtScenes, s ∈ n.scenes.keys) : MarksRemain f n where
  scenes id hid _ ch hc := hs id hid ch hc
  marks id _ _ ch _ := by rw [List.filter_eq_self.2 (fun s _ => hf s)]

/-- **C75, projects from files**: whatever a project file contains, if it can be opened, then every export with filters for chapters, characters, locations and items - not for scenes - makes the text of the
project without what is rejected. -/
theorem C75_opened (lib : PyLib) (s : Str) (root : Elem) (n : Novel) (h : loadFile lib s = some (root, n)) (f : Filters) (hf : ∀ id, f.scene id = true) (x : Exporter) (hx : OwnData x) :
    filteredText f x n = getText x (remaining f n) := by
  obtain ⟨-, h2⟩ := loadFile_ok.1 h
  refine C75_remaining_partial f x hx n (noSceneFilter_marks hf ?_)
  intro id hid ch hc s hs
  obtain ⟨sc, hsc, -⟩ := (readTree_allListed h2).scenes s (mem_narrative hid hc hs)
  exact (Dict.mem_keys_iff _ _).2 ⟨sc, hsc⟩

/-- **C75, what is rejected does not matter**: two projects that differ only in what the filters reject - in the data of rejected chapters and their scenes, and in the data of rejected scenes apart from the mark
"do not export" - are exported to the same text (or fail the same way). -/
theorem C75_rejected (f : Filters) (x : Exporter) (hx : OwnData x) (n m : Novel) (h : DiffersRejected f n m) : filteredText f x m = filteredText f x n := by
  obtain ⟨cs, d, e⟩ := h.frame
  have hm : SameFrame n m := ⟨cs, d, _, _, _, _, e⟩
  have e1 : m.srtChapters = n.srtChapters ∧ m.srtCharacters = n.srtCharacters ∧ m.srtLocations = n.srtLocations ∧ m.srtItems = n.srtItems ∧ m.srtPrjNotes = n.srtPrjNotes := by
    rw [e]; exact ⟨rfl, rfl, rfl, rfl, rfl⟩
  obtain ⟨a1, a2, a3, a4, a5⟩ := e1
  unfold filteredText
  rw [a1, a2, a3, a4, a5, header_congr hx hm,
    chaptersFiltered_congr hx hm n.srtChapters 0 {} (fun id hid ha => ⟨h.chapters id hid ha, fun ch hc s hs => ⟨h.scenes id hid ha ch hc s hs, h.marks id hid ha ch hc s hs⟩⟩),
    elementsFiltered_eq, elementsFiltered_eq, elementsFiltered_eq, elementsFiltered_eq, elementsFiltered_eq, elementsFiltered_eq,
    elementLines_congr (fun id => hx.character n _ id hm), elementLines_congr (fun id => hx.location n _ id hm), elementLines_congr (fun id => hx.item n _ id hm),
    elementLines_congr (fun id => hx.note n _ id hm)]

/-- **C75, which exporters**: the placeholders stand for data of the element at hand in every exporter that a user of the library derives from the base class with templates of his own, in the text
documents and in the spreadsheets. -/
theorem C75_exporters (e : DocEnv) (name path : Str) (t : Templates) : OwnData (templateExport name path t) ∧ OwnData (exporterOf e e.plainBase t) ∧ OwnData (withSummary e e.formattedBase t) ∧
    OwnData (odtExport e) ∧ OwnData (odsWriter e t) ∧ OwnData (odsSceneList e) := by
  refine ⟨template_own name path t, exporterOf_own e (plain_conv e) t, withSummary_own e (formatted_conv e) t, ?_, odsWriter_own e t, odsSceneList_own e⟩
  have h := exporterOf_own e (export_conv e) exportTemplates
  exact ⟨h.header, fun n m id k => suppressed_own (export_conv e) n m id k, h.scene, h.character, h.location, h.item, h.note⟩

/-! ### Examples -/

/-- A project with two chapters and three scenes; the second scene is marked "do not export". -/
def filterNovel : Novel :=
  { title := some c!"N", srtChapters := [c!"1", c!"2"],
    chapters := [(c!"1", { title := some c!"One", chType := some 0, chLevel := some 0, srtScenes := [c!"1", c!"2"] }), (c!"2", { title := some c!"Two", chType := some 0, chLevel := some 0, srtScenes := [c!"3"] })],
    scenes := [(c!"1", { title := some c!"A", scType := some 0, status := some 1, sceneContent := some c!"x y", characters := some [c!"7"] }),
      (c!"2", { title := some c!"B", scType := some 0, status := some 1, doNotExport := some true }), (c!"3", { title := some c!"C", scType := some 0, status := some 1 })],
    characters := [(c!"7", { title := some c!"Ann" }), (c!"8", { title := some c!"Bob" })], srtCharacters := [c!"7", c!"8"] }

/-- Templates of a user. -/
def filterTemplates : Templates :=
  { fileHeader := c!"$Title:", chapter := c!" [$ChapterNumber $Title]", scene := c!" $SceneNumber $Title ($Characters)", sceneDivider := c!" *", character := c!" <$Title>", notExportedChapter := c!" (hidden $Title)" }

/-- The text of the example with filters. -/
def filterExample (f : Filters) : Option Str := (filteredText f (templateExport c!"p" c!"/p" filterTemplates) filterNovel).toOption

/-- Everything, without the first chapter, without a character. -/
example : filterExample {} = some c!"N: [1 One] 1 A (Ann) [2 Two] 2 C () <Ann> <Bob>" ∧
    filterExample { chapter := fun id => id = c!"2" } = some c!"N: [1 Two] 1 C () <Ann> <Bob>" ∧
    filterExample { character := fun id => id = c!"8" } = some c!"N: [1 One] 1 A (Ann) [2 Two] 2 C () <Bob>" := by
  refine ⟨?_, ?_, ?_⟩ <;> decide +kernel

theorem allMarked_iff (n : Novel) (ids : List Str) : AllMarked n ids ↔ (!ids.isEmpty && ids.all (fun id => (n.scenes.get? id).any (fun s => s.doNotExport == some true))) = true := by
  unfold AllMarked
  cases ids with
  | nil => exact ⟨fun h => absurd rfl h.1, fun h => by cases h⟩
  | cons a r =>
    simp only [List.isEmpty_cons, Bool.not_false, Bool.true_and, List.all_eq_true]
    constructor
    · rintro ⟨-, h⟩ id hid
      obtain ⟨s, hs, hd⟩ := h id hid
      rw [hs, Option.any_some, beq_iff_eq]
      exact hd
    · intro h
      refine ⟨List.cons_ne_nil _ _, fun id hid => ?_⟩
      have := h id hid
      cases e : n.scenes.get? id with
      | none => rw [e] at this; cases this
      | some s =>
        rw [e, Option.any_some, beq_iff_eq] at this
        exact ⟨s, rfl, this⟩

/-- A filter that rejects the marked scene and the scene of the second chapter. -/
def sceneFilter : Filters := { scene := fun id => id = c!"1" }

/-- It meets the condition. -/
theorem filterNovel_marks : MarksRemain sceneFilter filterNovel where
  scenes id hid _ ch hc := by
    rcases List.mem_cons.1 hid with rfl | hid
    · cases hc; decide
    · rcases List.mem_cons.1 hid with rfl | hid
      · cases hc; decide
      · cases hid
  marks id hid _ ch hc := by
    rw [allMarked_iff, allMarked_iff]
    rcases List.mem_cons.1 hid with rfl | hid
    · cases hc; decide
    · rcases List.mem_cons.1 hid with rfl | hid
      · cases hc; decide
      · cases hid

example : filteredText sceneFilter (templateExport c!"p" c!"/p" filterTemplates) filterNovel = getText (templateExport c!"p" c!"/p" filterTemplates) (remaining sceneFilter filterNovel) :=
  C75_remaining_partial _ _ (template_own _ _ _) _ filterNovel_marks

example : filterExample sceneFilter = some c!"N: [1 One] 1 A (Ann) [2 Two] <Ann> <Bob>" := by decide +kernel

/-- **C75, finding**: false without the condition. If the only scenes of a chapter that are not marked "do not export" are rejected, the chapter is still shown, with a number, although nothing of it is exported;
in the remaining project it is a chapter that is not exported. -/
theorem C75_marks_matter : filterExample { scene := fun id => id ≠ c!"1" } = some c!"N: [1 One] [2 Two] 1 C () <Ann> <Bob>" ∧
    (getText (templateExport c!"p" c!"/p" filterTemplates) (remaining { scene := fun id => id ≠ c!"1" } filterNovel)).toOption = some c!"N: (hidden One) [1 Two] 1 C () <Ann> <Bob>" := by
  refine ⟨?_, ?_⟩ <;> decide +kernel

/-- **C75, finding**: a rejected character has no entry of its own, but is still named with the scenes. -/
theorem C75_named_with_scenes : filterExample { character := fun id => id ≠ c!"7" } = some c!"N: [1 One] 1 A (Ann) [2 Two] 2 C () <Bob>" := by decide +kernel

/-- Two projects that differ in the title, the text and the state of a rejected scene; the state is not even valid. -/
example : DiffersRejected { scene := fun id => id ≠ c!"3" } filterNovel { filterNovel with scenes := filterNovel.scenes.set c!"3" { title := some c!"Secret", scType := some 0, status := some 99, sceneContent := some c!"..." } } where
  frame := ⟨_, _, rfl⟩
  chapters _ _ _ := rfl
  scenes id _ _ ch _ s _ hs := by
    have : s ≠ c!"3" := by simpa using hs
    exact Dict.get?_set_ne _ _ (Ne.symm this)
  marks id hid _ ch hc s hs := by
    rcases List.mem_cons.1 hid with rfl | hid
    · cases hc
      rcases List.mem_cons.1 hs with rfl | hs
      · decide
      · rcases List.mem_cons.1 hs with rfl | hs
        · decide
        · cases hs
    · rcases List.mem_cons.1 hid with rfl | hid
      · cases hc
        rcases List.mem_cons.1 hs with rfl | hs
        · decide
        · cases hs
      · cases hid

end Verif
