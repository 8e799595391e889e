/-
C50: the chapter and part descriptions and back.
-/
import Verif.Lemmas.Desc4
import Verif.Props.C49_Sheets

namespace Verif
open Spec Re Template

/-- The numbers, titles and descriptions of the shown chapters can be in a document. -/
def Spec.ChaptersFit (n : Novel) : Prop := ∀ id ∈ n.srtChapters, ∀ ch, n.chapters.get? id = some ch → chapterShown n ch = true → DescFits id ch

/-- The text of the chapter or part descriptions. -/
theorem descs_text (parts : Bool) (name path : Str) {n : Novel} {text : Str} (hw : getText (descExporter parts (plainEnv name path)) n = .ok text) (hname : LinkName name) (hi : Inherits n)
    (ht : TitleFits n) (hf : ChaptersFit n) : text = formattedHeader [] ++ (((c!"<text:p text:style-name=\"Title\">" ++ ((n.title.getD []).flatMap escChar ++ c!"</text:p>\n")) ++
      (c!"<text:p text:style-name=\"Subtitle\">" ++ ((n.authorName.getD []).flatMap escChar ++ c!"</text:p>\n"))) ++
      (n.srtChapters.flatMap (descPart parts name n) ++ contentFooter)) := by
  unfold getText at hw
  obtain ⟨header, h1, hw⟩ := bind_ok hw
  obtain ⟨chapters, h2, hw⟩ := bind_ok hw
  obtain ⟨chars, h3, hw⟩ := bind_ok hw
  obtain ⟨locs, h4, hw⟩ := bind_ok hw
  obtain ⟨items, h5, hw⟩ := bind_ok hw
  obtain ⟨notes, h6, hw⟩ := bind_ok hw
  injection hw with hw
  have e1 := sheet_header name path n (by cases parts <;> rfl) (by cases parts <;> rfl) ht h1
  have hm : ManuscriptTemplates (descExporter parts (plainEnv name path)).toTemplates := by
    cases parts
    · exact (C29_writers (plainEnv name path)).2.2.2.1
    · exact (C29_writers (plainEnv name path)).2.2.2.2.1
  have e2 := C29_C30_lines _ hm n hi chapters h2
  have e2 := (congrArg List.flatten e2).trans (desc_manuscript parts name path hname n.srtChapters [] hf)
  have e3 : chars.flatten = [] := by cases parts <;> exact elementLines_empty h3
  have e4 : locs.flatten = [] := by cases parts <;> exact elementLines_empty h4
  have e5 : items.flatten = [] := by cases parts <;> exact elementLines_empty h5
  have e6 : notes.flatten = [] := by cases parts <;> exact elementLines_empty h6
  have g : text = (header ++ chapters ++ ([] ++ chars) ++ ([] ++ locs) ++ ([] ++ items) ++ notes ++ [contentFooter]).flatten := by
    rw [← hw]
    cases parts <;> rfl
  rw [g]
  simp only [List.nil_append, List.flatten_append, e1, e2, e3, e4, e5, e6, List.append_nil, List.flatten_singleton, List.append_assoc]

/-- Reading the descriptions of the chapters or parts of a project. -/
theorem read_descs (parts : Bool) (name path : Str) {n : Novel} (hname : LinkName name) (hn : Exportable n) (ha : AllThere n) (hi : Inherits n) (ht : TitleFits n) (hf : ChaptersFit n) :
    ∃ text evs, getText (descExporter parts (plainEnv name path)) n = .ok text ∧ saxEvents text = some evs ∧ ∀ m st info a b, stylesCalls st = .ok a → infoCalls info = .ok b →
      readOdt chapterDescReader ⟨st, info, evs⟩ m = .ok (descsBack n.chapters (described parts n n.srtChapters) m) := by
  have hx : TotalMappings (descExporter parts (plainEnv name path)) n := by
    cases parts <;> exact sheet_mappings (e := plainEnv name path) hn rfl rfl rfl
  obtain ⟨text, hw⟩ := getText_total hn hx (by
      intro id hid
      cases parts <;> exact character_total _ (ha.characters id hid)) (by
      intro id hid
      cases parts <;> exact location_total _ (ha.locations id hid)) (by
      intro id hid
      cases parts <;> exact item_total _ (ha.items id hid)) (by
      intro id hid
      cases parts <;> exact note_total _ (ha.notes id hid))
  have hw' := hw
  have htext := descs_text parts name path hw hname hi ht hf
  have key : ∀ m, ∃ evs, saxEvents text = some evs ∧ ∀ st info a b, stylesCalls st = .ok a → infoCalls info = .ok b →
      readOdt chapterDescReader ⟨st, info, evs⟩ m = .ok (descsBack n.chapters (described parts n n.srtChapters) m) := by
    intro m
    refine read_sheets ht (cd_deaf m) (descPart_cr parts hname n.srtChapters hf) htext ?_ (r' := cd (descsBack n.chapters (described parts n n.srtChapters) m) [] none) rfl
    intro cm acc
    obtain ⟨acc', f⟩ := Fed.descs (ls := []) parts hname n.srtChapters hf m cm acc
    exact ⟨cm, acc', f⟩
  obtain ⟨evs, g1, _⟩ := key {}
  refine ⟨text, evs, hw', g1, ?_⟩
  intro m
  obtain ⟨evs', g1', g2'⟩ := key m
  rw [g1] at g1'
  injection g1' with g1'
  subst g1'
  exact g2'

/-- **C50, chapters and parts**: the chapter descriptions (`parts = false`) and part descriptions (`parts = true`) of a consistent project are
documents, and reading one into any project gives every described chapter its description, up to blanks around the lines and white
space at the end; it becomes a normal chapter and gets the exported title if it has none. If the project has these chapters, nothing else
changes. -/
theorem C50_chapters_partial (parts : Bool) (name path : Str) (n : Novel) (hname : LinkName name) (hn : Exportable n) (ha : AllThere n) (hi : Inherits n) (ht : TitleFits n) (hf : ChaptersFit n) :
    ∃ text evs, getText (descExporter parts (plainEnv name path)) n = .ok text ∧ saxEvents text = some evs ∧ ∀ m st info a b, stylesCalls st = .ok a → infoCalls info = .ok b →
      ∃ m', readOdt chapterDescReader ⟨st, info, evs⟩ m = .ok m' ∧ DescriptionsRead (described parts n n.srtChapters) n.chapters m.chapters m'.chapters ∧
        ((∀ id ∈ described parts n n.srtChapters, id ∈ m.chapters.keys) → m' = { m with chapters := m'.chapters } ∧ m'.chapters.keys = m.chapters.keys) := by
  obtain ⟨text, evs, h0, h1, h2⟩ := read_descs parts name path hname hn ha hi ht hf
  refine ⟨text, evs, h0, h1, ?_⟩
  intro m st info a b hs hb
  refine ⟨_, h2 m st info a b hs hb, fun id => descsBack_get _ _ _ _, ?_⟩
  intro hk
  obtain ⟨d, g1, g2⟩ := descsBack_frame n.chapters (described parts n n.srtChapters) m (by
    intro id hid
    obtain ⟨x, hx⟩ := (Dict.mem_keys_iff _ _).1 (hk id hid)
    exact has_of hx)
  rw [g1]
  exact ⟨rfl, g2⟩

/-- **C50, chapters and parts, unmodified**: exporting the descriptions and importing the unmodified document changes nothing, if the described
chapters are of normal type and have a title and a tidy description (possibly empty). -/
theorem C50_chapters_unmodified_partial (parts : Bool) (name path : Str) (n : Novel) (hname : LinkName name) (hn : Exportable n) (ha : AllThere n) (hi : Inherits n) (ht : TitleFits n)
    (hf : ChaptersFit n) (hd : ∀ id ∈ described parts n n.srtChapters, ∀ ch, n.chapters.get? id = some ch → ch.chType = some 0 ∧ ch.title.isSome = true ∧ tidyDesc ch.desc = ch.desc) :
    ∃ text evs, getText (descExporter parts (plainEnv name path)) n = .ok text ∧ saxEvents text = some evs ∧
      ∀ st info a b, stylesCalls st = .ok a → infoCalls info = .ok b → readOdt chapterDescReader ⟨st, info, evs⟩ n = .ok n := by
  obtain ⟨text, evs, h0, h1, h2⟩ := read_descs parts name path hname hn ha hi ht hf
  refine ⟨text, evs, h0, h1, ?_⟩
  intro st info a b hs hb
  rw [h2 n st info a b hs hb]
  refine congrArg _ (descsBack_same _ _ ?_)
  intro id hid
  obtain ⟨ch, hc⟩ := hn.chapters id (List.mem_filter.1 hid).1
  refine ⟨ch, hc, ?_⟩
  obtain ⟨g1, g2, g3⟩ := hd id hid ch hc
  unfold withDescription
  rw [g3]
  obtain ⟨t, he⟩ := Option.isSome_iff_exists.1 g2
  cases ch
  simp only at g1 he ⊢
  subst g1 he
  cases t <;> rfl

/-! ### Scene descriptions -/

theorem untitled_eq (t : Option Str) : isBlankField t = lacksTitle t := by
  unfold isBlankField lacksTitle
  rw [Bool.eq_iff_iff]
  simp

theorem sd_fits {n m : Novel} (hf : ScenesFit n m) : SdFits n m.scenes m.chapters n.srtChapters where
  chapters k hk ch hc hs := by
    obtain ⟨h1, h2, x, h3, h4⟩ := hf.chapters k hk ch hc hs
    refine ⟨h1, h2, ⟨x, h3, ?_⟩, ?_⟩
    · rw [untitled_eq]
      exact h4
    · intro p hp
      obtain ⟨g1, g2⟩ := hf.scenes k hk ch hc p hp
      obtain ⟨v, hv⟩ := (Dict.mem_keys_iff _ _).1 g2
      exact ⟨g1, has_of hv⟩

/-- The text of the scene descriptions. -/
theorem sceneDescs_text (name path : Str) {n : Novel} {text : Str} (hw : getText (odtSceneDesc (plainEnv name path)) n = .ok text) (hname : LinkName name) (hn : Exportable n) (hi : Inherits n)
    (ht : TitleFits n) (hf : ∀ k ∈ n.srtChapters, ∀ ch, n.chapters.get? k = some ch → chapterShown n ch = true → CarriableO ch.title ∧ ∀ p ∈ exportedIn n ch, CarriableO p.2.title) :
    text = formattedHeader [] ++ (((c!"<text:p text:style-name=\"Title\">" ++ ((n.title.getD []).flatMap escChar ++ c!"</text:p>\n")) ++
      (c!"<text:p text:style-name=\"Subtitle\">" ++ ((n.authorName.getD []).flatMap escChar ++ c!"</text:p>\n"))) ++
      (n.srtChapters.flatMap (sdChapter name n) ++ contentFooter)) := by
  unfold getText at hw
  obtain ⟨header, h1, hw⟩ := bind_ok hw
  obtain ⟨chapters, h2, hw⟩ := bind_ok hw
  obtain ⟨chars, h3, hw⟩ := bind_ok hw
  obtain ⟨locs, h4, hw⟩ := bind_ok hw
  obtain ⟨items, h5, hw⟩ := bind_ok hw
  obtain ⟨notes, h6, hw⟩ := bind_ok hw
  injection hw with hw
  have e1 := sheet_header name path n rfl rfl ht h1
  have e2 := C29_C30_lines _ (C29_writers (plainEnv name path)).2.2.1 n hi chapters h2
  have e2 := (congrArg List.flatten e2).trans (sd_manuscript_of name path hname hn hf n.srtChapters [] (fun _ h => h))
  have e3 : chars.flatten = [] := elementLines_empty h3
  have e4 : locs.flatten = [] := elementLines_empty h4
  have e5 : items.flatten = [] := elementLines_empty h5
  have e6 : notes.flatten = [] := elementLines_empty h6
  have g : text = (header ++ chapters ++ ([] ++ chars) ++ ([] ++ locs) ++ ([] ++ items) ++ notes ++ [contentFooter]).flatten := by
    rw [← hw]
    rfl
  rw [g]
  simp only [List.nil_append, List.flatten_append, e1, e2, e3, e4, e5, e6, List.append_nil, List.flatten_singleton, List.append_assoc]

/-- Reading the scene descriptions of a project. -/
theorem read_sceneDescs (name path : Str) {n : Novel} (hname : LinkName name) (hn : Exportable n) (ha : AllThere n) (hi : Inherits n) (ht : TitleFits n) :
    ∃ text, getText (odtSceneDesc (plainEnv name path)) n = .ok text ∧ ∀ m, ScenesFit n m → ∃ evs, saxEvents text = some evs ∧ ∀ st info a b, stylesCalls st = .ok a → infoCalls info = .ok b →
      readOdt sceneDescReader ⟨st, info, evs⟩ m = .ok { m with scenes := scenesAfter n n.srtChapters m.scenes, chapters := chaptersAfter n n.srtChapters m.chapters } := by
  have hx : TotalMappings (odtSceneDesc (plainEnv name path)) n := sheet_mappings (e := plainEnv name path) hn rfl rfl rfl
  obtain ⟨text, hw⟩ := getText_total hn hx (fun id hid => character_total _ (ha.characters id hid)) (fun id hid => location_total _ (ha.locations id hid))
    (fun id hid => item_total _ (ha.items id hid)) (fun id hid => note_total _ (ha.notes id hid))
  refine ⟨text, hw, ?_⟩
  intro m hf
  have hf := sd_fits hf
  have htext := sceneDescs_text name path hw hname hn hi ht (fun k hk ch hc hs => ⟨(hf.chapters k hk ch hc hs).2.1, fun p hp => ((hf.chapters k hk ch hc hs).2.2.2 p hp).1.title⟩)
  refine read_sheets ht (sd_deaf m) (sdChapter_cr hname hf) htext ?_ (r' := sdAt m (scenesAfter n n.srtChapters m.scenes) (chaptersAfter n n.srtChapters m.chapters) [] none none) rfl
  intro cm acc
  obtain ⟨acc', f⟩ := Fed.sdChapters (ls := []) hname m n.srtChapters m.scenes m.chapters hf cm acc
  exact ⟨cm, acc', f⟩

/-- **C50, scenes**: the scene descriptions of a consistent project can be written, and reading the document into any project that has the scenes and chapters in it gives
every exported scene its description, up to white space at the end, and makes it a normal scene; the chapters shown become normal chapters and get the exported
title if they have none. Nothing else changes. -/
theorem C50_scenes_partial (name path : Str) (n : Novel) (hname : LinkName name) (hn : Exportable n) (ha : AllThere n) (hi : Inherits n) (ht : TitleFits n) :
    ∃ text, getText (odtSceneDesc (plainEnv name path)) n = .ok text ∧ ∀ m, ScenesFit n m → ∃ evs, saxEvents text = some evs ∧ ∀ st info a b, stylesCalls st = .ok a → infoCalls info = .ok b →
      ∃ m', readOdt sceneDescReader ⟨st, info, evs⟩ m = .ok m' ∧ SceneDescriptionsRead n m.scenes m'.scenes ∧ ChapterHeadingsRead n m.chapters m'.chapters ∧
        m'.scenes.keys = m.scenes.keys ∧ m'.chapters.keys = m.chapters.keys ∧ m' = { m with scenes := m'.scenes, chapters := m'.chapters } := by
  obtain ⟨text, h0, h1⟩ := read_sceneDescs name path hname hn ha hi ht
  refine ⟨text, h0, ?_⟩
  intro m hf
  obtain ⟨evs, h2, h3⟩ := h1 m hf
  refine ⟨evs, h2, ?_⟩
  intro st info a b hs hb
  refine ⟨_, h3 st info a b hs hb, fun id => scenesAfter_get _ _ _ _, ?_, (after_keys n n.srtChapters m.scenes m.chapters).1, (after_keys n n.srtChapters m.scenes m.chapters).2, rfl⟩
  intro id
  refine (chaptersAfter_get _ _ _ _).trans ?_
  unfold headChapter
  simp only [untitled_eq]

theorem scenesDescribed_same {n : Novel} {ch : Chapter} (l : List (Str × Scene)) (hl : ∀ p ∈ l, p ∈ exportedIn n ch ∧ p.2.scType = some 0 ∧ ∃ d, p.2.desc = some d ∧ Str.rstrip d = d) :
    scenesDescribed l n.scenes = n.scenes := by
  induction l with
  | nil => rfl
  | cons p l ih =>
    obtain ⟨g0, g1, d, g2, g3⟩ := hl p (by simp)
    unfold scenesDescribed
    rw [Dict.modify_same (exportedIn_mem g0), ih (fun q hq => hl q (by simp [hq]))]
    unfold sceneDescribed
    obtain ⟨i, s⟩ := p
    cases s
    simp only at g1 g2 ⊢
    subst g1 g2
    simp only [Option.getD_some, g3]

theorem scenesAfter_same {n : Novel} (ids : List Str) (hd : ∀ p ∈ exported n ids, p.2.scType = some 0 ∧ ∃ d, p.2.desc = some d ∧ Str.rstrip d = d) :
    scenesAfter n ids n.scenes = n.scenes := by
  induction ids with
  | nil => rfl
  | cons i ids ih =>
    unfold scenesAfter
    cases hc : n.chapters.get? i with
    | none =>
      have e1 : exported n (i :: ids) = exported n ids := by simp [exported, hc]
      rw [e1] at hd
      exact ih hd
    | some ch =>
      have e1 : exported n (i :: ids) = exportedIn n ch ++ exported n ids := by simp [exported, hc]
      rw [e1] at hd
      dsimp only
      rw [scenesDescribed_same (ch := ch) _ (fun p hp => ⟨hp, hd p (List.mem_append.2 (.inl hp))⟩)]
      exact ih (fun p hp => hd p (List.mem_append.2 (.inr hp)))

theorem chaptersAfter_same {n : Novel} (ids : List Str) (hc : ∀ id ∈ shownChapters n ids, ∀ ch, n.chapters.get? id = some ch → ch.chType = some 0 ∧ lacksTitle ch.title = false) :
    chaptersAfter n ids n.chapters = n.chapters := by
  induction ids with
  | nil => rfl
  | cons i ids ih =>
    have hsub : ∀ id ∈ shownChapters n ids, ∀ ch, n.chapters.get? id = some ch → ch.chType = some 0 ∧ lacksTitle ch.title = false := by
      intro id hid
      refine hc id ?_
      unfold shownChapters at hid ⊢
      rw [List.mem_filter] at hid ⊢
      exact ⟨List.mem_cons.2 (.inr hid.1), hid.2⟩
    unfold chaptersAfter
    cases hx : n.chapters.get? i with
    | none => exact ih hsub
    | some ch =>
      dsimp only
      by_cases hs : chapterShown n ch = true
      · rw [if_pos hs]
        obtain ⟨g1, g2⟩ := hc i (by unfold shownChapters; rw [List.filter_cons, hx]; simp [hs]) ch hx
        rw [Dict.modify_same hx]
        · exact ih hsub
        · unfold headChapter
          rw [untitled_eq, g2]
          cases ch
          simp only at g1 ⊢
          subst g1
          rfl
      · rw [if_neg hs]
        exact ih hsub

/-- **C50, scenes, unmodified**: exporting the scene descriptions and importing the unmodified document changes nothing, if the exported scenes are of normal type and have a
description (possibly empty) without white space at the end, and the shown chapters are of normal type and have a title. -/
theorem C50_scenes_unmodified_partial (name path : Str) (n : Novel) (hname : LinkName name) (hn : Exportable n) (ha : AllThere n) (hi : Inherits n) (ht : TitleFits n) (hf : ScenesFit n n)
    (hd : ∀ p ∈ exported n n.srtChapters, p.2.scType = some 0 ∧ ∃ d, p.2.desc = some d ∧ Str.rstrip d = d)
    (hc : ∀ id ∈ shownChapters n n.srtChapters, ∀ ch, n.chapters.get? id = some ch → ch.chType = some 0 ∧ lacksTitle ch.title = false) :
    ∃ text evs, getText (odtSceneDesc (plainEnv name path)) n = .ok text ∧ saxEvents text = some evs ∧
      ∀ st info a b, stylesCalls st = .ok a → infoCalls info = .ok b → readOdt sceneDescReader ⟨st, info, evs⟩ n = .ok n := by
  obtain ⟨text, h0, h1⟩ := read_sceneDescs name path hname hn ha hi ht
  obtain ⟨evs, h2, h3⟩ := h1 n hf
  refine ⟨text, evs, h0, h2, ?_⟩
  intro st info a b hs hb
  rw [h3 st info a b hs hb]
  rw [scenesAfter_same n.srtChapters hd, chaptersAfter_same n.srtChapters hc]

/-! ### Examples -/

/-- A project with a part and a chapter, three scenes (one of them unused), and descriptions of several lines. -/
def descExample : Novel :=
  { title := some c!"A & B", authorName := some c!"N. N.",
    chapters := [(c!"1", { title := some c!"Part <1>", desc := some c!"All & all.", chLevel := some 1, chType := some 0, srtScenes := [] }),
      (c!"2", { title := some c!"C", desc := some c!"One.\n\nTwo.", chLevel := some 0, chType := some 0, srtScenes := [c!"7", c!"8", c!"9"] })], srtChapters := [c!"1", c!"2"],
    scenes := [(c!"7", { title := some c!"S", status := some 1, desc := some c!"First & foremost.\n  Indented.", scType := some 0 }),
      (c!"8", { title := some c!"T", status := some 1, desc := some c!"", scType := some 0, appendToPrev := some true }),
      (c!"9", { title := some c!"U", status := some 1, desc := some c!"x", scType := some 3 })] }

theorem descExample_exportable : Exportable descExample where
  chapters id hid := by
    simp only [descExample, List.mem_cons, List.not_mem_nil, or_false] at hid
    rcases hid with rfl | rfl <;> exact ⟨_, rfl⟩
  scenes id hid := by
    have : narrative descExample = [c!"7", c!"8", c!"9"] := by decide
    rw [this] at hid
    simp only [List.mem_cons, List.not_mem_nil, or_false] at hid
    rcases hid with rfl | rfl | rfl <;> exact ⟨_, rfl, ⟨1, by decide, rfl⟩, (fun _ h => by cases h), (fun _ h => by cases h)⟩

theorem descExample_there : AllThere descExample where
  characters := by decide
  locations := by decide
  items := by decide
  notes := by decide

theorem descExample_title : TitleFits descExample := ⟨(by show Carriable _; unfold Carriable; decide), (by show Carriable _; unfold Carriable; decide)⟩

theorem descExample_inherits : Inherits descExample := by
  intro chId ch scId s h1 h2 h3 h4 h5
  simp only [descExample, List.mem_cons, List.not_mem_nil, or_false] at h1
  rcases h1 with rfl | rfl
  · cases h2
    cases h4
  · cases h2
    exact absurd h3 (by decide)

theorem descExample_chapters : ChaptersFit descExample := by
  intro id hid ch hc _
  simp only [descExample, List.mem_cons, List.not_mem_nil, or_false] at hid
  rcases hid with rfl | rfl <;> cases hc <;>
    exact ⟨(by unfold NumId Digit; decide), (by show Carriable _; unfold Carriable; decide), (by show Carriable _; unfold Carriable; decide)⟩

theorem descExample_scenes : ScenesFit descExample descExample where
  chapters k hk ch hc _ := by
    simp only [descExample, List.mem_cons, List.not_mem_nil, or_false] at hk
    rcases hk with rfl | rfl <;> cases hc <;>
      exact ⟨(by unfold NumId Digit; decide), (by show Carriable _; unfold Carriable; decide), _, rfl, .inl (by decide)⟩
  scenes k hk ch hc p hp := by
    simp only [descExample, List.mem_cons, List.not_mem_nil, or_false] at hk
    rcases hk with rfl | rfl
    · cases hc
      cases hp
    · cases hc
      have : exportedIn descExample { title := some c!"C", desc := some c!"One.\n\nTwo.", chLevel := some 0, chType := some 0, srtScenes := [c!"7", c!"8", c!"9"] } =
        [(c!"7", { title := some c!"S", status := some 1, desc := some c!"First & foremost.\n  Indented.", scType := some 0 }),
         (c!"8", { title := some c!"T", status := some 1, desc := some c!"", scType := some 0, appendToPrev := some true })] := by rfl
      rw [this] at hp
      simp only [List.mem_cons, List.not_mem_nil, or_false] at hp
      rcases hp with rfl | rfl <;>
        exact ⟨⟨(by unfold NumId Digit; decide), (by show Carriable _; unfold Carriable; decide), (by show Carriable _; unfold Carriable; decide), (by decide)⟩, by decide⟩

theorem exampleName : LinkName c!"my prj" := by
  unfold LinkName
  decide

/-- The chapter and the part descriptions of the example are written, and reading them back changes nothing. -/
example (parts : Bool) : ∃ text evs, getText (descExporter parts (plainEnv c!"my prj" c!"/p")) descExample = .ok text ∧ saxEvents text = some evs ∧
    ∀ st info a b, stylesCalls st = .ok a → infoCalls info = .ok b → readOdt chapterDescReader ⟨st, info, evs⟩ descExample = .ok descExample := by
  refine C50_chapters_unmodified_partial parts c!"my prj" c!"/p" descExample exampleName descExample_exportable descExample_there descExample_inherits descExample_title descExample_chapters ?_
  intro id hid ch hc
  have : id ∈ descExample.srtChapters := (List.mem_filter.1 hid).1
  simp only [descExample, List.mem_cons, List.not_mem_nil, or_false] at this
  rcases this with rfl | rfl <;> cases hc <;> exact ⟨rfl, rfl, by decide⟩

/-- The scene descriptions of the example are written, and reading them back changes nothing. -/
example : ∃ text evs, getText (odtSceneDesc (plainEnv c!"my prj" c!"/p")) descExample = .ok text ∧ saxEvents text = some evs ∧
    ∀ st info a b, stylesCalls st = .ok a → infoCalls info = .ok b → readOdt sceneDescReader ⟨st, info, evs⟩ descExample = .ok descExample := by
  refine C50_scenes_unmodified_partial c!"my prj" c!"/p" descExample exampleName descExample_exportable descExample_there descExample_inherits descExample_title descExample_scenes ?_ ?_
  · have : exported descExample descExample.srtChapters =
        [(c!"7", { title := some c!"S", status := some 1, desc := some c!"First & foremost.\n  Indented.", scType := some 0 }),
         (c!"8", { title := some c!"T", status := some 1, desc := some c!"", scType := some 0, appendToPrev := some true })] := by rfl
    rw [this]
    intro p hp
    simp only [List.mem_cons, List.not_mem_nil, or_false] at hp
    rcases hp with rfl | rfl
    · exact ⟨rfl, _, rfl, by decide⟩
    · exact ⟨rfl, _, rfl, by decide⟩
  · intro id hid ch hc
    have : id ∈ descExample.srtChapters := (List.mem_filter.1 hid).1
    simp only [descExample, List.mem_cons, List.not_mem_nil, or_false] at this
    rcases this with rfl | rfl <;> cases hc <;> exact ⟨rfl, by decide⟩

/-! ### Counterexamples -/

/-- A project with one chapter and one scene. -/
def singleScene (ch : Chapter) (sc : Scene) : Novel := { chapters := [(c!"1", { ch with srtScenes := [c!"2"] })], srtChapters := [c!"1"], scenes := [(c!"2", sc)] }

/-- Title of the chapter, title and description of the scene after export and import of the scene descriptions, if this succeeds. -/
def sceneDescriptionBack (ch : Chapter) (sc : Scene) : Option (Option (Option Str) × Option (Option Str) × Option (Option Str)) :=
  match getText (odtSceneDesc (plainEnv c!"prj" c!"/p")) (singleScene ch sc) with
  | .error _ => none
  | .ok doc => match saxEvents doc with
    | none => none
    | some evs => match readOdt sceneDescReader ⟨.elem c!"office:document-styles" [] [.elem c!"office:styles" [] []], none, evs⟩ (singleScene ch sc) with
      | .error _ => none
      | .ok m => some ((m.chapters.get? c!"1").map (·.title), (m.scenes.get? c!"2").map (·.title), (m.scenes.get? c!"2").map (·.desc))

set_option maxRecDepth 100000 in
/-- The path works. -/
example : sceneDescriptionBack { title := some c!"C", chType := some 0 } { title := some c!"S", status := some 1, scType := some 0, desc := some c!"a & b\n c" } =
    some (some (some c!"C"), some (some c!"S"), some (some c!"a & b\n c")) := by decide +kernel

set_option maxRecDepth 100000 in
/-- A description that begins with a comment loses the comment, and can change the title of the scene. -/
theorem C50_comment_lost : sceneDescriptionBack { title := some c!"C", chType := some 0 } { title := some c!"S", status := some 1, scType := some 0, desc := some c!"/* ~X~ */ a" } =
    some (some (some c!"C"), some (some c!"X"), some (some c!" a")) := by decide +kernel

set_option maxRecDepth 100000 in
/-- A chapter without a title gets the title of its first scene. -/
theorem C50_untitled_chapter : sceneDescriptionBack { chType := some 0 } { title := some c!"S", status := some 1, scType := some 0, desc := some c!"a" } =
    some (some (some c!"S"), some (some c!"S"), some (some c!"a")) := by decide +kernel

end Verif
