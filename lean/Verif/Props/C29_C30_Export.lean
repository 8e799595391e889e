/-
C29: material that is not for export never gets into the manuscript, everything else does, once and in order.
C30: chapters and scenes are numbered consecutively, totals are sums over what was exported so far.
-/
import Verif.Lemmas.Export2

namespace Verif
open Spec

/-- **C29, hidden material has no influence**: changing the text, title, description or any other data of scenes that are unused, notes, todo or
marked "do not export" (keeping these marks) changes neither the exported manuscript nor the editable manuscript: not a single character of
them depends on these scenes. -/
theorem C29_hidden_irrelevant (e : DocEnv) (n n' : Novel) (h : SameButHidden n n') :
    exportText e n' = exportText e n ∧ formattedText (odtManuscript e) n' = formattedText (odtManuscript e) n := by
  have ha : n'.authorName = n.authorName := by rw [h.rest]
  constructor
  · unfold exportText
    rw [formattedText_hidden (odtExport_templates e) (odtExport_local e) h, ha]
  · exact formattedText_hidden (odtManuscript_templates e) (odtManuscript_local e) h

/-- In a project that was read from a file, the scenes in unused, notes and todo chapters are hidden, too, so `C29_hidden_irrelevant` covers them. -/
theorem C29_hidden_chapters (lib : PyLib) (root : Elem) (n : Novel) (h : readTree lib root = .ok n) (chId : Str) (ch : Chapter)
    (hl : chId ∈ n.srtChapters) (hc : n.chapters.get? chId = some ch) (hs : setAside ch.chType = true) (scId : Str) (s : Scene)
    (hsc : scId ∈ ch.srtScenes) (hg : n.scenes.get? scId = some s) : hiddenScene s = true := by
  have := readTree_inherits h chId ch scId s hl hc hs hsc hg
  simp [hiddenScene, this]

/-- **C29 and C30 for every manuscript-like document type**: the chapters and scenes of the document are exactly the specified ones, in narrative
order: each scene that is for export once, no other scene, with the number and the totals that belong to the scenes exported up to it. -/
theorem C29_C30_lines (x : Exporter) (hx : ManuscriptTemplates x.toTemplates) (n : Novel) (hn : Inherits n) (ls : List Str)
    (h : getChapters x n = .ok ls) : ls = manuscript x n [] n.srtChapters := getChapters_spec hx hn h

/-- The same for a project read from a file. -/
theorem C29_C30_project (x : Exporter) (hx : ManuscriptTemplates x.toTemplates) (lib : PyLib) (root : Elem) (n : Novel)
    (hr : readTree lib root = .ok n) (ls : List Str) (h : getChapters x n = .ok ls) : ls = manuscript x n [] n.srtChapters :=
  getChapters_spec hx (readTree_inherits hr) h

/-- The document types for which `C29_C30_lines` holds. -/
theorem C29_writers (e : DocEnv) : ManuscriptTemplates (odtExport e).toTemplates ∧ ManuscriptTemplates (odtManuscript e).toTemplates ∧
    ManuscriptTemplates (odtSceneDesc e).toTemplates ∧ ManuscriptTemplates (odtChapterDesc e).toTemplates ∧
    ManuscriptTemplates (odtPartDesc e).toTemplates ∧ ManuscriptTemplates (odtSynopsis e).toTemplates := by
  refine ⟨?_, ?_, ?_, ?_, ?_, ?_⟩ <;> constructor <;> rfl

/-- The scenes taken over by the specification are those listed scenes that are for export, in narrative order (with the multiplicity
of their listing). -/
theorem C29_exported (n : Novel) : List.Sublist ((exported n n.srtChapters).map Prod.fst) (narrative n) ∧
    ∀ id s, (id, s) ∈ exported n n.srtChapters ↔ n.scenes.get? id = some s ∧
      ∃ chId ch, chId ∈ n.srtChapters ∧ n.chapters.get? chId = some ch ∧ id ∈ ch.srtScenes ∧ forExport ch s = true := by
  constructor
  · unfold exported narrative
    generalize n.srtChapters = l
    induction l with
    | nil => exact List.Sublist.refl _
    | cons a r ih =>
      rw [List.flatMap_cons, List.flatMap_cons, List.map_append]
      refine List.Sublist.append ?_ ih
      unfold scenesOf
      cases n.chapters.get? a with
      | none => exact List.Sublist.refl _
      | some ch =>
        simp only [exportedIn]
        generalize ch.srtScenes = ids
        induction ids with
        | nil => exact List.Sublist.refl _
        | cons i t iht =>
          cases hs : n.scenes.get? i with
          | none =>
            simp only [List.filterMap_cons, hs, Option.map_none]
            exact iht.cons _
          | some s =>
            simp only [List.filterMap_cons, hs, Option.map_some, List.filter_cons]
            cases forExport ch s with
            | false => exact iht.cons _
            | true => exact iht.cons_cons _
  · intro id s
    unfold exported
    rw [List.mem_flatMap]
    constructor
    · rintro ⟨chId, hch, hm⟩
      cases hc : n.chapters.get? chId with
      | none => rw [hc] at hm; cases hm
      | some ch =>
        rw [hc] at hm
        simp only [exportedIn, List.mem_filter, List.mem_filterMap] at hm
        obtain ⟨⟨i, hi, e⟩, hf⟩ := hm
        cases hs : n.scenes.get? i with
        | none => rw [hs] at e; cases e
        | some s' =>
          rw [hs] at e
          cases e
          exact ⟨hs, chId, ch, hch, hc, hi, hf⟩
    · rintro ⟨hs, chId, ch, hch, hc, hi, hf⟩
      refine ⟨chId, hch, ?_⟩
      rw [hc]
      simp only [exportedIn, List.mem_filter, List.mem_filterMap]
      exact ⟨⟨id, hi, by rw [hs]; rfl⟩, hf⟩

/-! ### What the line of a scene looks like -/

theorem get?_set_other {m : Mapping} {k v x : Str} (h : k ≠ x) : (Dict.set m k v).get? x = m.get? x := Dict.get?_set_ne m v h

/-- The scene content in the mapping of a scene. -/
theorem Base.scene_content {b : Base} {n : Novel} {id : Str} {s : Scene} {k w l : Nat} {m : Mapping} (hs : n.scenes.get? id = some s)
    (h : b.scene n id k w l = .ok m) : m.get? c!"SceneContent" = some (b.conv n s.sceneContent false) ∧ m.get? c!"ID" = some id ∧
      m.get? c!"Title" = some (b.conv n s.title true) ∧ m.get? c!"Desc" = some (b.conv n s.desc false) ∧
      m.get? c!"SceneNumber" = some (dispNumber k) ∧ m.get? c!"WordsTotal" = some (Str.ofNat w) ∧
      m.get? c!"LettersTotal" = some (Str.ofNat l) := by
  unfold Base.scene at h
  rw [Dict.get!_of hs] at h
  obtain ⟨s', hs', h⟩ := bind_ok h
  cases hs'
  obtain ⟨locs, _, h⟩ := bind_ok h
  obtain ⟨items, _, h⟩ := bind_ok h
  obtain ⟨status, _, h⟩ := bind_ok h
  cases h
  exact ⟨rfl, rfl, rfl, rfl, rfl, rfl, rfl⟩

theorem subst_exportScene (m : Mapping) (t : Str) (h : m.get? c!"SceneContent" = some t) : Template.subst exportTemplates.scene m =
    c!"'<text:p text:style-name=\"Text_20_body\">" ++ (t ++ c!"</text:p>\n    ") := by
  have e : Template.segs exportTemplates.scene = c!"'<text:p text:style-name=\"Text_20_body\">".map Seg.lit ++
      Seg.var c!"SceneContent" c!"$SceneContent" :: c!"</text:p>\n    ".map Seg.lit := by decide +kernel
  have lits : ∀ l : Str, (l.map Seg.lit).flatMap (Template.render m) = l := by
    intro l
    induction l with
    | nil => rfl
    | cons c r ih => simp only [List.map_cons, List.flatMap_cons, ih]; rfl
  unfold Template.subst
  rw [e, List.flatMap_append, List.flatMap_cons, lits, lits]
  simp only [Template.render, h, Option.getD_some]

theorem subst_exportAppended (m : Mapping) (t : Str) (h : m.get? c!"SceneContent" = some t) : Template.subst exportTemplates.appendedScene m =
    c!"<text:p text:style-name=\"First_20_line_20_indent\">" ++ (t ++ c!"</text:p>\n") := by
  have e : Template.segs exportTemplates.appendedScene = c!"<text:p text:style-name=\"First_20_line_20_indent\">".map Seg.lit ++
      Seg.var c!"SceneContent" c!"$SceneContent" :: c!"</text:p>\n".map Seg.lit := by decide +kernel
  have lits : ∀ l : Str, (l.map Seg.lit).flatMap (Template.render m) = l := by
    intro l
    induction l with
    | nil => rfl
    | cons c r ih => simp only [List.map_cons, List.flatMap_cons, ih]; rfl
  unfold Template.subst
  rw [e, List.flatMap_append, List.flatMap_cons, lits, lits]
  simp only [Template.render, h, Option.getD_some]

/-- **C29, every exported scene appears once with its text**: what the specification puts into the manuscript for a scene is its converted text in
one paragraph frame, after a divider unless it is the first scene of the chapter or appended to the previous one. -/
theorem C29_scene_text (e : DocEnv) (n : Novel) (before : List (Str × Scene)) (first : Bool) (id : Str) (s : Scene)
    (hs : n.scenes.get? id = some s) (m : Mapping)
    (hm : (odtExport e).sceneMapping n id (before ++ [(id, s)]).length (total (·.wordCount) (before ++ [(id, s)])) (total (·.letterCount) (before ++ [(id, s)])) = .ok m) :
    sceneText (odtExport e) n before first (id, s) =
      (if first || s.appendToPrev == some true then [] else [starsDivider]) ++
      [if !first && s.appendToPrev == some true then
        c!"<text:p text:style-name=\"First_20_line_20_indent\">" ++ (odtExportConvert n s.sceneContent false ++ c!"</text:p>\n")
      else c!"'<text:p text:style-name=\"Text_20_body\">" ++ (odtExportConvert n s.sceneContent false ++ c!"</text:p>\n    ")] := by
  have hm0 := hm
  obtain ⟨m', hm', e'⟩ := bind_ok (a := e.exportBase.scene n id (before ++ [(id, s)]).length (total (·.wordCount) (before ++ [(id, s)]))
    (total (·.letterCount) (before ++ [(id, s)]))) hm
  have hc := (Base.scene_content hs hm').1
  have hc' : m.get? c!"SceneContent" = some (odtExportConvert n s.sceneContent false) := by
    cases e'
    rw [get?_set_other (by decide)]
    exact hc
  unfold sceneText
  simp only [hm0, filled]
  have ha : (odtExport e).appendedScene = exportTemplates.appendedScene := rfl
  have hb : (odtExport e).scene = exportTemplates.scene := rfl
  have hd : (odtExport e).sceneDivider = starsDivider := rfl
  rw [ha, hb, hd]
  have hne : exportTemplates.appendedScene ≠ [] := by decide
  simp only [hne, ne_eq, not_false_eq_true, decide_true, Bool.and_true]
  congr 1
  cases first <;> cases (s.appendToPrev == some true) <;>
    simp only [Bool.not_true, Bool.not_false, Bool.true_and, Bool.false_and, if_true, if_false, Bool.false_eq_true]
  all_goals first
    | rw [subst_exportScene m _ hc']
    | rw [subst_exportAppended m _ hc']

/-- **C30**: the number shown for a scene is its position among the exported scenes of the whole document, and the totals shown are the sums of
the word and letter counts of these scenes up to and including it (for every document type with the mapping of the base class). -/
theorem C30_scene_mapping (b : Base) (n : Novel) (before : List (Str × Scene)) (id : Str) (s : Scene) (hs : n.scenes.get? id = some s) (m : Mapping)
    (hm : b.scene n id (before ++ [(id, s)]).length (total (·.wordCount) (before ++ [(id, s)])) (total (·.letterCount) (before ++ [(id, s)])) = .ok m) :
    m.get? c!"SceneNumber" = some (Str.ofNat (before.length + 1)) ∧
    m.get? c!"WordsTotal" = some (Str.ofNat ((before.map (·.2.wordCount)).sum + s.wordCount)) ∧
    m.get? c!"LettersTotal" = some (Str.ofNat ((before.map (·.2.letterCount)).sum + s.letterCount)) := by
  obtain ⟨_, _, _, _, h5, h6, h7⟩ := Base.scene_content hs hm
  rw [h5, h6, h7, total_snoc, total_snoc]
  refine ⟨?_, rfl, rfl⟩
  rw [List.length_append]
  rfl

/-- **C30, chapters**: a shown chapter that is no part gets the number one more than the count of such chapters before it. -/
theorem C30_chapter_mapping (b : Base) (n : Novel) (chId : Str) (k : Nat) (m : Mapping) (h : b.chapter n chId (k + 1) = .ok m) :
    m.get? c!"ChapterNumber" = some (Str.ofNat (k + 1)) := by
  unfold Base.chapter at h
  obtain ⟨ch, _, h⟩ := bind_ok h
  cases h
  rfl

/-! ### A concrete project, and what goes wrong without the inheritance of types -/

/-- Four chapters: a part with a normal and a hidden scene, a chapter with two scenes, an unused chapter, a notes chapter. -/
def exportExample : Novel :=
  { title := some c!"T", authorName := some c!"A", languages := some []
    chapters := [(c!"1", { title := some c!"P", chType := some 0, chLevel := some 1, srtScenes := [c!"1", c!"2"] }),
      (c!"2", { title := some c!"C", chType := some 0, chLevel := some 0, srtScenes := [c!"3", c!"4"] }),
      (c!"3", { title := some c!"U", chType := some 3, srtScenes := [c!"5"] }),
      (c!"4", { title := some c!"N", chType := some 1, srtScenes := [c!"6"] })]
    srtChapters := [c!"1", c!"2", c!"3", c!"4"]
    scenes := [(c!"1", { sceneContent := some c!"one", wordCount := 1, letterCount := 3, scType := some 0, status := some 1 }),
      (c!"2", { sceneContent := some c!"secret", scType := some 0, doNotExport := some true, status := some 1 }),
      (c!"3", { sceneContent := some c!"three", wordCount := 1, letterCount := 5, scType := some 0, status := some 1 }),
      (c!"4", { sceneContent := some c!"four", wordCount := 1, letterCount := 4, scType := some 0, status := some 1 }),
      (c!"5", { sceneContent := some c!"unused", scType := some 3, status := some 1 }),
      (c!"6", { sceneContent := some c!"note", scType := some 1, status := some 1 })] }

/-- The environment of the examples. -/
def exampleEnv : DocEnv := ⟨c!"prj", c!"/p", fun _ => c!"H"⟩

/-- Its manuscript. -/
example : (getChapters (odtExport exampleEnv) exportExample).toOption = some
    [c!"<text:h text:style-name=\"Heading_20_1\" text:outline-level=\"1\">P</text:h>\n",
     c!"'<text:p text:style-name=\"Text_20_body\">one</text:p>\n    ",
     c!"<text:h text:style-name=\"Heading_20_2\" text:outline-level=\"2\">C</text:h>\n",
     c!"'<text:p text:style-name=\"Text_20_body\">three</text:p>\n    ",
     starsDivider,
     c!"'<text:p text:style-name=\"Text_20_body\">four</text:p>\n    "] := by
  decide +kernel

/-- The example has the property `Inherits`. -/
example : Inherits exportExample := by
  intro chId ch scId s h1 h2 h3 h4 h5
  simp only [exportExample, List.mem_cons, List.not_mem_nil, or_false] at h1
  rcases h1 with rfl | rfl | rfl | rfl
  · cases h2; cases h3
  · cases h2; cases h3
  · cases h2
    simp only [List.mem_cons, List.not_mem_nil, or_false] at h4
    subst h4
    cases h5
    rfl
  · cases h2
    simp only [List.mem_cons, List.not_mem_nil, or_false] at h4
    subst h4
    cases h5
    rfl

/-- The hidden scenes of the example may change arbitrarily: a witness for `SameButHidden` that is not the identity. -/
example : SameButHidden exportExample { exportExample with scenes := exportExample.scenes.set c!"2" { title := some c!"x", doNotExport := some true, scType := some 0 } } where
  rest := rfl
  scenes id := by
    show Dict.get? (Dict.set exportExample.scenes c!"2" _) id = _ ∨ _
    by_cases h : c!"2" = id
    · right
      subst h
      exact ⟨_, _, rfl, Dict.get?_set_self _ _ _, rfl, rfl, rfl⟩
    · left
      exact Dict.get?_set_ne _ _ h

/-- **Finding**: the exporter itself checks only for unused chapters. A normal scene in a notes chapter (a novel whose scene types were not
adjusted) is exported with its text, without any chapter heading. -/
theorem C29_unadjusted_leak : (getChapters (odtExport exampleEnv) { exportExample with scenes := exportExample.scenes.set c!"6" { sceneContent := some c!"note", scType := some 0, status := some 1 } }).toOption.map (·.getLast?) = some (some c!"'<text:p text:style-name=\"Text_20_body\">note</text:p>\n    ") := by
  decide +kernel

end Verif
