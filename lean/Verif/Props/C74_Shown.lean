/-
C74: the description documents and the sheets are well-formed and show exactly the texts of the project.
-/
import Verif.Lemmas.Shown2
import Verif.Props.C55_XrefDoc
import Verif.Props.C73_States

namespace Verif
open Spec Template

/-- Every line of a description is shown, in its order, as one paragraph. -/
theorem C74_lines (st : Str) (d : Option Str) : (description st d).map (·.text) = Spec.linesOf (d.getD []) := by
  have key : ∀ (l : List Str) (st : Str), (blocks st l).map (·.text) = l := by
    intro l st
    fun_induction blocks st l with
    | case1 => rfl
    | case2 => rfl
    | case3 st l m r ih => rw [List.map_cons, List.map_cons, ih]
    | case4 st l m r _ ih => rw [List.map_cons, ih]
  exact key _ _

/-- **C74, sheets**: the location sheets, the item sheets and the character sheets of a project are well-formed documents, and their paragraphs are the title, the author and for every
listed location, item or character, in the order of the list, the heading with its names and all its texts, each line of a text as one paragraph. -/
theorem C74_locations_partial (name path : Str) (n : Novel) (hn : Exportable n) (ha : AllThere n) (ht : TitleFits n) (hx : ElementsFit n.srtLocations n.locations) :
    ∃ text root, getText (odtLocations (plainEnv name path)) n = .ok text ∧ parseDoc text = some root ∧ paragraphs root = locationSheets n := by
  obtain ⟨text, hw⟩ := (C49_written (plainEnv name path) n hn ha).2.1
  have hp : Pars (n.srtLocations.flatMap (fun id => elementText locationKind.mark id ((n.locations.get? id).getD {}))) (n.srtLocations.flatMap (fun id => elementShown ((n.locations.get? id).getD {}))) := by
    refine Pars.flatMap _ ?_
    intro id hid
    obtain ⟨e, he, hfit⟩ := hx id hid
    rw [he]
    exact Pars.element (.inl rfl) hfit
  obtain ⟨root, h1, h2⟩ := document_shown ht hp (locations_text name path hw ht hx)
  exact ⟨text, root, hw, h1, h2⟩

/-- See `C74_locations_partial`. -/
theorem C74_items_partial (name path : Str) (n : Novel) (hn : Exportable n) (ha : AllThere n) (ht : TitleFits n) (hx : ElementsFit n.srtItems n.items) :
    ∃ text root, getText (odtItems (plainEnv name path)) n = .ok text ∧ parseDoc text = some root ∧ paragraphs root = itemSheets n := by
  obtain ⟨text, hw⟩ := (C49_written (plainEnv name path) n hn ha).2.2
  have hp : Pars (n.srtItems.flatMap (fun id => elementText itemKind.mark id ((n.items.get? id).getD {}))) (n.srtItems.flatMap (fun id => elementShown ((n.items.get? id).getD {}))) := by
    refine Pars.flatMap _ ?_
    intro id hid
    obtain ⟨e, he, hfit⟩ := hx id hid
    rw [he]
    exact Pars.element (.inr rfl) hfit
  obtain ⟨root, h1, h2⟩ := document_shown ht hp (items_text name path hw ht hx)
  exact ⟨text, root, hw, h1, h2⟩

/-- See `C74_locations_partial`. -/
theorem C74_characters_partial (name path : Str) (n : Novel) (hn : Exportable n) (ha : AllThere n) (ht : TitleFits n) (hx : PersonsFit n.srtCharacters n.characters) :
    ∃ text root, getText (odtCharacters (plainEnv name path)) n = .ok text ∧ parseDoc text = some root ∧ paragraphs root = characterSheets n := by
  obtain ⟨text, hw⟩ := (C49_written (plainEnv name path) n hn ha).1
  have hp : Pars (n.srtCharacters.flatMap (fun id => personLine id ((n.characters.get? id).getD {}))) (n.srtCharacters.flatMap (fun id => personShown ((n.characters.get? id).getD {}))) := by
    refine Pars.flatMap _ ?_
    intro id hid
    obtain ⟨e, he, hfit⟩ := hx id hid
    rw [he]
    exact Pars.person hfit
  obtain ⟨root, h1, h2⟩ := document_shown ht hp (characters_text name path hw ht hx)
  exact ⟨text, root, hw, h1, h2⟩

/-- **C74, chapters and parts**: the part descriptions and the chapter descriptions of a project are well-formed documents that show, for the chapters that are shown, the headings - linked to the
manuscript - and the descriptions, each line as one paragraph. -/
theorem C74_chapters_partial (parts : Bool) (name path : Str) (n : Novel) (hname : LinkName name) (hn : Exportable n) (ha : AllThere n) (hi : Inherits n) (ht : TitleFits n) (hf : ChaptersFit n) :
    ∃ text root, getText (if parts then odtPartDesc (plainEnv name path) else odtChapterDesc (plainEnv name path)) n = .ok text ∧ parseDoc text = some root ∧
      paragraphs root = if parts then partDescriptions name n else chapterDescriptions name n := by
  obtain ⟨text, evs, hw, -⟩ := read_descs parts name path hname hn ha hi ht hf
  have hp : Pars (n.srtChapters.flatMap (Verif.descPart parts name n)) _ := Pars.flatMap n.srtChapters (fun id hid => Pars.descPart parts hname (hf id hid))
  obtain ⟨root, h1, h2⟩ := document_shown ht hp (descs_text parts name path hw hname hi ht hf)
  refine ⟨text, root, ?_, h1, ?_⟩
  · cases parts <;> exact hw
  · rw [h2]
    cases parts <;> rfl

/-- **C74, scenes**: the scene descriptions of a project are a well-formed document that shows the headings of the chapters that are shown and, for each exported scene in the order of the story, its
title and its description, each line as one paragraph. -/
theorem C74_scenes_partial (name path : Str) (n : Novel) (hname : LinkName name) (hn : Exportable n) (ha : AllThere n) (hi : Inherits n) (ht : TitleFits n) (hf : ScenesShow n) :
    ∃ text root, getText (odtSceneDesc (plainEnv name path)) n = .ok text ∧ parseDoc text = some root ∧ paragraphs root = sceneDescriptions name n := by
  obtain ⟨text, hw, -⟩ := read_sceneDescs name path hname hn ha hi ht
  have hp : Pars (n.srtChapters.flatMap (Verif.sdChapter name n)) _ := Pars.flatMap n.srtChapters (fun id hid => Pars.sdChapter hname hf hid)
  obtain ⟨root, h1, h2⟩ := document_shown ht hp
    (sceneDescs_text name path hw hname hn hi ht (fun k hk ch hc hs => ⟨(hf.chapters k hk ch hc hs).2, fun p hp => (hf.scenes k hk ch hc p hp).2.1⟩))
  exact ⟨text, root, hw, h1, h2⟩

/-! ### Projects from files -/

theorem clean_title {n : Novel} (h : CleanNovel n) : TitleFits n := ⟨h.texts _ (by simp), h.texts _ (by simp)⟩

theorem clean_elements {ids : List Str} {d : Dict WorldElement} (ha : ∀ id ∈ ids, id ∈ d.keys) (hc : ∀ id w, d.get? id = some w → Carriable id ∧ CleanElement w)
    (ho : ∀ id ∈ ids, NumId id ∧ ∀ e, d.get? id = some e → ∀ t, e.aka = some t → Plain t) : ElementsFit ids d := by
  intro id hid
  obtain ⟨e, he⟩ := (Dict.mem_keys_iff _ _).1 (ha id hid)
  exact ⟨e, he, (ho id hid).1, (hc id e he).2.texts _ (by simp), (ho id hid).2 e he, (hc id e he).2.texts _ (by simp)⟩

theorem clean_persons {ids : List Str} {d : Dict Character} (ha : ∀ id ∈ ids, id ∈ d.keys) (hc : ∀ id w, d.get? id = some w → Carriable id ∧ CleanCharacter w)
    (ho : ∀ id ∈ ids, NumId id ∧ ∀ c, d.get? id = some c → (∀ t, c.aka = some t → Plain t) ∧ ∀ t, c.fullName = some t → Plain t) : PersonsFit ids d := by
  intro id hid
  obtain ⟨e, he⟩ := (Dict.mem_keys_iff _ _).1 (ha id hid)
  have hcl := (hc id e he).2.texts
  exact ⟨e, he, (ho id hid).1, hcl _ (by simp), ((ho id hid).2 e he).1, ((ho id hid).2 e he).2, hcl _ (by simp), hcl _ (by simp), hcl _ (by simp), hcl _ (by simp)⟩

theorem clean_chapters {n : Novel} (h : CleanNovel n) (ho : Ordinary n) : ChaptersFit n := by
  intro id hid ch hc _
  exact ⟨ho.chapters id hid, (h.chapters id ch hc).2 _ (by simp), (h.chapters id ch hc).2 _ (by simp)⟩

theorem clean_scenes {n : Novel} (h : CleanNovel n) (ho : Ordinary n) : ScenesShow n where
  chapters k hk ch hc _ := ⟨ho.chapters k hk, (h.chapters k ch hc).2 _ (by simp)⟩
  scenes k hk ch hc p hp := ⟨ho.scenes _ (exportedIn_narrative hk hc hp), (h.scenes p.1 p.2 (exportedIn_mem hp)).2.texts _ (by simp), (h.scenes p.1 p.2 (exportedIn_mem hp)).2.texts _ (by simp)⟩

/-- **C74, projects from files**: whatever a project file contains, if it can be opened, its scenes have states with names, its IDs are numbers and its alternate and full names are without XML special
characters, then all the six documents can be made, are well-formed and show exactly the texts of the project. -/
theorem C74_opened_partial (lib : PyLib) (s : Str) (x : Elem) (n : Novel) (h : loadFile lib s = some (x, n)) (hk : KnownStatus n) (ho : Ordinary n) (name path : Str) (hname : LinkName name) :
    (∃ text root, getText (odtSceneDesc (plainEnv name path)) n = .ok text ∧ parseDoc text = some root ∧ paragraphs root = sceneDescriptions name n) ∧
    (∃ text root, getText (odtChapterDesc (plainEnv name path)) n = .ok text ∧ parseDoc text = some root ∧ paragraphs root = chapterDescriptions name n) ∧
    (∃ text root, getText (odtPartDesc (plainEnv name path)) n = .ok text ∧ parseDoc text = some root ∧ paragraphs root = partDescriptions name n) ∧
    (∃ text root, getText (odtCharacters (plainEnv name path)) n = .ok text ∧ parseDoc text = some root ∧ paragraphs root = characterSheets n) ∧
    (∃ text root, getText (odtLocations (plainEnv name path)) n = .ok text ∧ parseDoc text = some root ∧ paragraphs root = locationSheets n) ∧
    (∃ text root, getText (odtItems (plainEnv name path)) n = .ok text ∧ parseDoc text = some root ∧ paragraphs root = itemSheets n) := by
  have hc := C72_texts lib s x n h
  obtain ⟨-, h2⟩ := loadFile_ok.1 h
  have hf := readTree_from h2
  have hn := readTree_exportable h2 hk
  refine ⟨C74_scenes_partial name path n hname hn hf.there hf.inherits (clean_title hc) (clean_scenes hc ho),
    C74_chapters_partial false name path n hname hn hf.there hf.inherits (clean_title hc) (clean_chapters hc ho),
    C74_chapters_partial true name path n hname hn hf.there hf.inherits (clean_title hc) (clean_chapters hc ho),
    C74_characters_partial name path n hn hf.there (clean_title hc) (clean_persons hf.there.characters hc.characters ho.characters),
    C74_locations_partial name path n hn hf.there (clean_title hc) (clean_elements hf.there.locations hc.locations ho.locations),
    C74_items_partial name path n hn hf.there (clean_title hc) (clean_elements hf.there.items hc.items ho.items)⟩

/-- An ID that is a number can be in a link. -/
theorem numId_plainId {id : Str} (h : NumId id) : PlainId id := by
  intro c hc
  have h := digit_mem (c := c) (by
    have := h.2 c hc
    unfold Digit at this
    unfold Char.isDigit
    simp only [Bool.and_eq_true, decide_eq_true_eq]
    exact ⟨this.1, this.2⟩)
  have : ∀ c ∈ ("0123456789".toList : List Char), xmlLegal c = true ∧ c ≠ '<' ∧ c ≠ '&' ∧ c ≠ '"' ∧ xmlBlank c = false ∧ c ≠ '\r' := by decide
  exact this c h

/-- **C55, projects from files**: the same for the cross reference, if the tags are without XML special characters, too. -/
theorem C55_opened_partial (lib : PyLib) (s : Str) (x : Elem) (n : Novel) (h : loadFile lib s = some (x, n)) (hk : KnownStatus n) (ho : Ordinary n)
    (hs : ∀ id ∈ narrative n, ∀ sc, n.scenes.get? id = some sc → ∀ t ∈ sc.tags.getD [], Plain t)
    (hcr : ∀ id ∈ n.srtCharacters, ∀ c, n.characters.get? id = some c → ∀ t ∈ c.tags.getD [], Plain t)
    (hlc : ∀ id ∈ n.srtLocations, ∀ w, n.locations.get? id = some w → ∀ t ∈ w.tags.getD [], Plain t)
    (hit : ∀ id ∈ n.srtItems, ∀ w, n.items.get? id = some w → ∀ t ∈ w.tags.getD [], Plain t)
    (name path : Str) (hname : ∀ c ∈ name, xmlLegal c = true ∧ c ≠ '\r' ∧ c ≠ '\n' ∧ c ≠ '\t') :
    ∃ text root, xrefText (plainEnv name path) n = .ok text ∧ parseDoc text = some root ∧ paragraphs root = crossReference name n := by
  have hc := C72_texts lib s x n h
  obtain ⟨-, h2⟩ := loadFile_ok.1 h
  refine C55_document_partial name path n (readTree_xrefReady h2) (readTree_exportable h2 hk) ⟨hname, hc.texts _ (by simp), hc.texts _ (by simp), ?_, ?_, ?_, ?_⟩
  · intro id hid sc hsc
    exact ⟨numId_plainId (ho.scenes id hid), (hc.scenes id sc hsc).2.texts _ (by simp), hs id hid sc hsc⟩
  · intro id hid sc hsc
    exact ⟨numId_plainId (ho.characters id hid).1, (hc.characters id sc hsc).2.texts _ (by simp), (hc.characters id sc hsc).2.texts _ (by simp), hcr id hid sc hsc⟩
  · intro id hid sc hsc
    exact ⟨numId_plainId (ho.locations id hid).1, (hc.locations id sc hsc).2.texts _ (by simp), hlc id hid sc hsc⟩
  · intro id hid sc hsc
    exact ⟨numId_plainId (ho.items id hid).1, (hc.items id sc hsc).2.texts _ (by simp), hit id hid sc hsc⟩

/-! ### Examples -/

/-- The location sheets of the example. -/
example : ∃ text root, getText (odtLocations (plainEnv c!"prj" c!"/p")) sheetExample = .ok text ∧ parseDoc text = some root ∧
    paragraphs root = [⟨c!"Title", c!"A & B", []⟩, ⟨c!"Subtitle", c!"N. N.", []⟩, ⟨c!"Heading_20_2", c!"Wood", []⟩, ⟨c!"Text_20_body", c!"", []⟩,
      ⟨c!"Heading_20_2", c!"Inn <1> (\"Tavern\")", []⟩, ⟨c!"Text_20_body", c!"Old & dark.", []⟩, ⟨c!"First_20_line_20_indent", c!"", []⟩, ⟨c!"Text_20_body", c!"By the road.", []⟩] := by
  obtain ⟨text, root, h1, h2, h3⟩ := C74_locations_partial c!"prj" c!"/p" sheetExample sheetExample_exportable sheetExample_there sheetExample_title sheetExample_locations
  exact ⟨text, root, h1, h2, by rw [h3]; decide +kernel⟩

/-- The character sheets of the example. -/
example : ∃ text root, getText (odtCharacters (plainEnv c!"prj" c!"/p")) sheetExample = .ok text ∧ parseDoc text = some root ∧
    paragraphs root = [⟨c!"Title", c!"A & B", []⟩, ⟨c!"Subtitle", c!"N. N.", []⟩, ⟨c!"Heading_20_2", c!"Ann/Ann Other (\"A\")", []⟩,
      ⟨c!"Heading_20_3", c!"Description", []⟩, ⟨c!"Text_20_body", c!"Tall.", []⟩, ⟨c!"Heading_20_3", c!"Bio", []⟩, ⟨c!"Text_20_body", c!"Born.", []⟩,
      ⟨c!"First_20_line_20_indent", c!"Lived.", []⟩, ⟨c!"Heading_20_3", c!"Goals", []⟩, ⟨c!"Text_20_body", c!"a < b", []⟩, ⟨c!"Heading_20_3", c!"Notes", []⟩, ⟨c!"Text_20_body", c!"", []⟩] := by
  obtain ⟨text, root, h1, h2, h3⟩ := C74_characters_partial c!"prj" c!"/p" sheetExample sheetExample_exportable sheetExample_there sheetExample_title sheetExample_persons
  exact ⟨text, root, h1, h2, by rw [h3]; decide +kernel⟩

/-- The chapter descriptions of the example. -/
example : ∃ text root, getText (odtChapterDesc (plainEnv c!"my prj" c!"/p")) descExample = .ok text ∧ parseDoc text = some root ∧
    paragraphs root = [⟨c!"Title", c!"A & B", []⟩, ⟨c!"Subtitle", c!"N. N.", []⟩, ⟨c!"Heading_20_1", c!"Part <1>", []⟩,
      ⟨c!"Heading_20_2", c!"C", [c!"../my prj_manuscript.odt#ChID:2%7Cregion"]⟩, ⟨c!"Text_20_body", c!"One.", []⟩, ⟨c!"First_20_line_20_indent", c!"", []⟩, ⟨c!"Text_20_body", c!"Two.", []⟩] := by
  obtain ⟨text, root, h1, h2, h3⟩ := C74_chapters_partial false c!"my prj" c!"/p" descExample exampleName descExample_exportable descExample_there descExample_inherits descExample_title descExample_chapters
  exact ⟨text, root, h1, h2, by rw [h3]; decide +kernel⟩

theorem descExample_show : ScenesShow descExample where
  chapters k hk ch hc hs := ⟨(descExample_scenes.chapters k hk ch hc hs).1, (descExample_scenes.chapters k hk ch hc hs).2.1⟩
  scenes k hk ch hc p hp := ⟨(descExample_scenes.scenes k hk ch hc p hp).1.number, (descExample_scenes.scenes k hk ch hc p hp).1.title, (descExample_scenes.scenes k hk ch hc p hp).1.desc⟩

/-- The scene descriptions of the example; the unused scene is not in it. -/
example : ∃ text root, getText (odtSceneDesc (plainEnv c!"my prj" c!"/p")) descExample = .ok text ∧ parseDoc text = some root ∧
    paragraphs root = [⟨c!"Title", c!"A & B", []⟩, ⟨c!"Subtitle", c!"N. N.", []⟩, ⟨c!"Heading_20_1", c!"Part <1>", []⟩,
      ⟨c!"Heading_20_2", c!"C", [c!"../my prj_manuscript.odt#ChID:2%7Cregion"]⟩, ⟨c!"Invisible_20_Heading_20_3", c!"S", []⟩, ⟨c!"Text_20_body", c!"First & foremost.", []⟩,
      ⟨c!"First_20_line_20_indent", c!"  Indented.", []⟩, ⟨c!"Invisible_20_Heading_20_3", c!"T", []⟩, ⟨c!"First_20_line_20_indent", c!"", []⟩] := by
  obtain ⟨text, root, h1, h2, h3⟩ := C74_scenes_partial c!"my prj" c!"/p" descExample exampleName descExample_exportable descExample_there descExample_inherits descExample_title descExample_show
  exact ⟨text, root, h1, h2, by rw [h3]; decide +kernel⟩

/-- A project file with a location; `aka` is in the XML text. -/
def akaFile (aka : Str) : Str :=
  c!"<?xml version=\"1.0\" encoding=\"utf-8\"?>\n<YWRITER7><PROJECT><Title>A</Title></PROJECT><LOCATIONS><LOCATION><ID>7</ID><Title>Inn</Title><Desc>Old.</Desc><AKA>" ++ aka ++
  c!"</AKA></LOCATION></LOCATIONS><ITEMS></ITEMS><CHARACTERS></CHARACTERS><SCENES></SCENES><CHAPTERS></CHAPTERS></YWRITER7>"

/-- The novel in the file. -/
def akaNovel (aka : Str) : Option Novel := (loadFile exLib (akaFile aka)).map (·.2)

set_option maxRecDepth 100000 in
/-- A project file with an alternate name that meets the conditions: its location sheets. -/
theorem aka_shown : ∃ x n text root, loadFile exLib (akaFile c!"Pub") = some (x, n) ∧ getText (odtLocations (plainEnv c!"p" c!"/p")) n = .ok text ∧ parseDoc text = some root ∧
    paragraphs root = [⟨c!"Title", c!"A", []⟩, ⟨c!"Subtitle", c!"", []⟩, ⟨c!"Heading_20_2", c!"Inn (\"Pub\")", []⟩, ⟨c!"Text_20_body", c!"Old.", []⟩] := by
  have h1 : (akaNovel c!"Pub").map (·.srtChapters) = some [] := by decide +kernel
  have h2 : (akaNovel c!"Pub").map (·.srtItems) = some [] := by decide +kernel
  have h3 : (akaNovel c!"Pub").map (·.srtCharacters) = some [] := by decide +kernel
  have h4 : (akaNovel c!"Pub").map (·.srtLocations) = some [c!"7"] := by decide +kernel
  have h5 : (akaNovel c!"Pub").map (fun n => (n.locations.get? c!"7").map (·.aka)) = some (some (some c!"Pub")) := by decide +kernel
  have h6 : (akaNovel c!"Pub").map locationSheets =
      some [⟨c!"Title", c!"A", []⟩, ⟨c!"Subtitle", c!"", []⟩, ⟨c!"Heading_20_2", c!"Inn (\"Pub\")", []⟩, ⟨c!"Text_20_body", c!"Old.", []⟩] := by decide +kernel
  cases e : loadFile exLib (akaFile c!"Pub") with
  | none => unfold akaNovel at h1; rw [e] at h1; cases h1
  | some p =>
    obtain ⟨x, n⟩ := p
    have en : akaNovel c!"Pub" = some n := by unfold akaNovel; rw [e]; rfl
    rw [en] at h1 h2 h3 h4 h5 h6
    simp only [Option.map_some, Option.some.injEq] at h1 h2 h3 h4 h5 h6
    have hnar : narrative n = [] := by unfold narrative; rw [h1]; rfl
    have ho : Ordinary n := by
      refine ⟨?_, ?_, ?_, ?_, ?_⟩
      · rw [hnar]; intro id hid; cases hid
      · rw [h1]; intro id hid; cases hid
      · rw [h4]
        intro id hid
        rw [List.mem_singleton] at hid
        subst hid
        refine ⟨by unfold NumId Digit; decide, ?_⟩
        intro w hw t ht
        rw [hw, Option.map_some, Option.some.injEq] at h5
        rw [h5] at ht
        cases ht
        unfold Plain
        decide
      · rw [h2]; intro id hid; cases hid
      · rw [h3]; intro id hid; cases hid
    obtain ⟨-, -, -, -, ⟨text, root, g1, g2, g3⟩, -⟩ := C74_opened_partial exLib _ x n e (by intro id hid; rw [hnar] at hid; cases hid) ho c!"p" c!"/p" (by unfold LinkName; decide)
    exact ⟨x, n, text, root, rfl, g1, g2, by rw [g3, h6]⟩

/-- The location sheets of the file, if it can be opened and they are well-formed. -/
def akaParsed (aka : Str) : Option Bool := (akaNovel aka).map (fun n => match getText (odtLocations (plainEnv c!"p" c!"/p")) n with
  | .ok text => (parseDoc text).isSome
  | .error _ => false)

set_option maxRecDepth 100000 in
/-- False without the condition on the names: the alternate name is not escaped, with `&` in it the document is not well-formed, although the project file can be opened. -/
theorem C74_aka_breaks : akaParsed c!"Pub" = some true ∧ akaParsed c!"Bed &amp; Breakfast" = some false := by
  refine ⟨?_, ?_⟩ <;> decide +kernel

end Verif
