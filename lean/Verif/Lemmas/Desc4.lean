/-
Scene descriptions: chapters and documents.
-/
import Verif.Lemmas.Desc3
import Verif.Lemmas.ReadAll

namespace Verif
open Spec Re Template

variable {ls : List Str}

theorem headChapter_modify (c : Dict Chapter) (k t : Str) : (c.modify k (fun x => { x with chType := some 0 })).modify k
    (fun ch => { ch with title := if isBlankField ch.title then some (Str.strip t) else ch.title }) = c.modify k (headChapter t) := by
  rw [modify_modify]
  rfl

/-- The heading of a chapter in the document of scene descriptions. -/
def sdHeading (name k : Str) (ch : Chapter) : Str :=
  if ch.chLevel = some 1 then h1Open ++ ((ch.title.getD []).flatMap escChar ++ hEnd) else linkText c!"2" (name.flatMap escChar) k ((ch.title.getD []).flatMap escChar)

theorem Fed.sdHeading {name : Str} (hname : LinkName name) {m : Novel} {s : Dict Scene} {c : Dict Chapter} {k : Str} {ch : Chapter} (hk : NumId k) (ht : CarriableO ch.title)
    (hn : Named c k (ch.title.getD [])) (cm acc : Str) :
    Fed sceneDescReader (Verif.sdHeading name k ch) acc (idleP ls cm) (sdAt m s (c.modify k (fun x => { x with chType := some 0 })) [] none (some k)) c!"\n" (idleP ls cm)
      (sdAt m s (c.modify k (headChapter (ch.title.getD []))) [] none (some k)) := by
  have hn' : Named (c.modify k (fun x => { x with chType := some 0 })) k (ch.title.getD []) := by
    obtain ⟨x, hx, h⟩ := hn
    refine ⟨{ x with chType := some 0 }, ?_, h⟩
    rw [Dict.get?_modify, if_pos rfl, hx]
    rfl
  have hdata := sd_data (m := m) (s := s) hn'
  rw [headChapter_modify] at hdata
  have hct := (odtConvert_title ht).2
  unfold Verif.sdHeading
  split
  · refine Fed.heading (op := c!"text:h text:style-name=\"Heading_20_1\" text:outline-level=\"1\">") (en := c!"/text:h>\n") (e := c!"text:h")
      (as := [(c!"text:style-name", c!"Heading_20_1"), (c!"text:outline-level", c!"1")]) (p1 := fun cm => headP ls cm c!"h1") (tag := c!"h1") (by decide +kernel)
      (x := (ch.title.getD []).reverse ++ []) (fun p r => Fed.esc hct [] p r) (by decide +kernel) (fun _ => rfl) (fun _ _ => rfl) (fun _ => rfl)
      (r1 := sdAt m s (c.modify k (fun x => { x with chType := some 0 })) [] none (some k)) (r2 := sdAt m s (c.modify k (headChapter (ch.title.getD []))) [] none (some k)) rfl ?_ rfl cm acc
    rw [List.append_nil, List.reverse_reverse]
    by_cases he : ch.title.getD [] = []
    · rw [if_pos he] at hdata
      rw [if_pos (by rw [he]; rfl)]
      exact hdata
    · rw [if_neg he] at hdata
      rw [if_neg (by simpa using he)]
      exact hdata
  · refine Fed.linked (.inr rfl) (r1 := sdAt m s (c.modify k (fun x => { x with chType := some 0 })) [] none (some k)) (r2 := sdAt m s (c.modify k (headChapter (ch.title.getD []))) [] none (some k))
      hname hk hct rfl ?_ rfl cm acc
    exact hdata

/-- A chapter in the document of scene descriptions. -/
def sdChapter (name : Str) (n : Novel) (k : Str) : Str :=
  match n.chapters.get? k with
  | none => []
  | some ch => if chapterShown n ch = true then secOpen (c!"ChID:" ++ k) ++ (sdHeading name k ch ++ (sceneSheets true (exportedIn n ch) ++ secEnd)) else []

/-- The scenes after reading the descriptions of all chapters. -/
def scenesAfter (n : Novel) : List Str → Dict Scene → Dict Scene
  | [], s => s
  | k :: r, s => scenesAfter n r (match n.chapters.get? k with | none => s | some ch => scenesDescribed (exportedIn n ch) s)

/-- The chapters after reading the descriptions of all chapters. -/
def chaptersAfter (n : Novel) : List Str → Dict Chapter → Dict Chapter
  | [], c => c
  | k :: r, c => chaptersAfter n r (match n.chapters.get? k with | none => c | some ch => if chapterShown n ch = true then c.modify k (headChapter (ch.title.getD [])) else c)

theorem scenesDescribed_has (l : List (Str × Scene)) (s : Dict Scene) (id : Str) : (scenesDescribed l s).has id = s.has id := by
  induction l generalizing s with
  | nil => rfl
  | cons p l ih =>
    unfold scenesDescribed
    rw [ih, has_modify]

theorem Named.modify {c : Dict Chapter} {k i t t' : Str} (h : Named c i t) : Named (c.modify k (headChapter t')) i t := by
  obtain ⟨x, hx, hn⟩ := h
  by_cases e : k = i
  · subst e
    refine ⟨headChapter t' x, by rw [Dict.get?_modify, if_pos rfl, hx]; rfl, ?_⟩
    rcases hn with hn | hn
    · left
      unfold headChapter
      dsimp only
      rw [hn, if_neg (by decide)]
      exact hn
    · exact .inr hn
  · exact ⟨x, by rw [Dict.get?_modify, if_neg e, hx], hn⟩

/-- Everything that is needed to read the scene descriptions of the chapters `ids` of `n` into scenes `s` and chapters `c`. -/
structure SdFits (n : Novel) (s : Dict Scene) (c : Dict Chapter) (ids : List Str) : Prop where
  chapters : ∀ k ∈ ids, ∀ ch, n.chapters.get? k = some ch → chapterShown n ch = true → NumId k ∧ CarriableO ch.title ∧ Named c k (ch.title.getD []) ∧
    ∀ p ∈ exportedIn n ch, SceneDescFits p ∧ s.has p.1 = true

theorem Fed.sdChapters {name : Str} (hname : LinkName name) {n : Novel} (m : Novel) (ids : List Str) (s : Dict Scene) (c : Dict Chapter) (hf : SdFits n s c ids) (cm acc : Str) :
    ∃ acc', Fed sceneDescReader (ids.flatMap (Verif.sdChapter name n)) acc (idleP ls cm) (sdAt m s c [] none none) acc' (idleP ls cm)
      (sdAt m (scenesAfter n ids s) (chaptersAfter n ids c) [] none none) := by
  induction ids generalizing s c acc with
  | nil => exact ⟨acc, Fed.nil _ _ _ _⟩
  | cons k ids ih =>
    rw [List.flatMap_cons]
    unfold scenesAfter chaptersAfter Verif.sdChapter
    cases hc : n.chapters.get? k with
    | none =>
      obtain ⟨acc', f⟩ := ih s c ⟨fun i hi => hf.chapters i (by simp [hi])⟩ acc
      exact ⟨acc', f⟩
    | some ch =>
      dsimp only
      by_cases hs : chapterShown n ch = true
      · rw [if_pos hs, if_pos hs]
        obtain ⟨h1, h2, h3, h4⟩ := hf.chapters k (by simp) ch hc hs
        obtain ⟨acc', f⟩ := ih (scenesDescribed (exportedIn n ch) s) (c.modify k (headChapter (ch.title.getD []))) ⟨by
          intro i hi chi hci hsi
          obtain ⟨g1, g2, g3, g4⟩ := hf.chapters i (by simp [hi]) chi hci hsi
          refine ⟨g1, g2, g3.modify, ?_⟩
          intro p hp
          refine ⟨(g4 p hp).1, ?_⟩
          rw [scenesDescribed_has]
          exact (g4 p hp).2⟩ c!"\n"
        refine ⟨acc', Fed.append ?_ f⟩
        obtain ⟨x, hx, hx2⟩ := id h3
        have hget : (c.modify k (headChapter (ch.title.getD []))).get? k = some (headChapter (ch.title.getD []) x) := by
          rw [Dict.get?_modify, if_pos rfl, hx]
          rfl
        obtain ⟨acc2, f2⟩ := Fed.sceneSheets (ls := ls) (m := m) hget (headChapter_titled hx2) (exportedIn n ch) (fun p hp => (h4 p hp).1) true s (fun p hp => (h4 p hp).2) cm c!"\n"
        exact (Fed.section (secName_plain (.inr rfl) h1) (sd_chapterStart h1 (has_of hx)) cm acc).append ((Fed.sdHeading hname h1 h2 h3 cm _).append (f2.append (Fed.sectionEnd rfl cm _)))
      · rw [if_neg hs, if_neg hs]
        have : exportedIn n ch = [] := exportedIn_hidden (by simpa using hs)
        rw [this]
        obtain ⟨acc', f⟩ := ih s c ⟨fun i hi => hf.chapters i (by simp [hi])⟩ acc
        exact ⟨acc', f⟩

/-! ### Writing -/

theorem subst_sdScene {m : Mapping} {t id d : Str} (h1 : m.get? c!"Title" = some t) (h2 : m.get? c!"ID" = some id) (h3 : m.get? c!"Desc" = some d) :
    subst sceneDescTemplates.scene m = sceneSheet bodyStyle id t d ∧ subst sceneDescTemplates.appendedScene m = sceneSheet indStyle id t d := by
  have e1 : segs sceneDescTemplates.scene = h3Open.map Seg.lit ++ (Seg.var c!"Title" c!"$Title" :: (hEnd.map Seg.lit ++
      (c!"<text:section text:style-name=\"Sect1\" text:name=\"".map Seg.lit ++ (c!"ScID:".map Seg.lit ++ (Seg.var c!"ID" c!"$ID" :: (c!"\">\n".map Seg.lit ++
      ((pOpen bodyStyle).map Seg.lit ++ (Seg.var c!"Desc" c!"$Desc" :: (pEnd.map Seg.lit ++ (c!"\n".map Seg.lit ++ secEnd.map Seg.lit)))))))))) := by decide +kernel
  have e2 : segs sceneDescTemplates.appendedScene = h3Open.map Seg.lit ++ (Seg.var c!"Title" c!"$Title" :: (hEnd.map Seg.lit ++
      (c!"<text:section text:style-name=\"Sect1\" text:name=\"".map Seg.lit ++ (c!"ScID:".map Seg.lit ++ (Seg.var c!"ID" c!"$ID" :: (c!"\">\n".map Seg.lit ++
      ((pOpen indStyle).map Seg.lit ++ (Seg.var c!"Desc" c!"$Desc" :: (pEnd.map Seg.lit ++ (c!"\n".map Seg.lit ++ secEnd.map Seg.lit)))))))))) := by decide +kernel
  unfold subst
  rw [e1, e2]
  simp only [List.flatMap_append, List.flatMap_cons, render_lits, render, h1, h2, h3, Option.getD_some]
  unfold sceneSheet secOpen
  simp only [List.append_assoc, and_self]

theorem subst_sdChapter {m : Mapping} {t id name : Str} (h1 : m.get? c!"Title" = some t) (h2 : m.get? c!"ID" = some id) (h4 : m.get? c!"ProjectName" = some name) :
    subst sceneDescTemplates.chapter m = secOpen (c!"ChID:" ++ id) ++ linkText c!"2" name id t ∧ subst sceneDescTemplates.part m = secOpen (c!"ChID:" ++ id) ++ (h1Open ++ (t ++ hEnd)) := by
  have e1 : segs sceneDescTemplates.chapter =
      c!"<text:section text:style-name=\"Sect1\" text:name=\"".map Seg.lit ++ (c!"ChID:".map Seg.lit ++ (Seg.var c!"ID" c!"$ID" :: (c!"\">\n".map Seg.lit ++
      (c!"<text:h text:style-name=\"Heading_20_".map Seg.lit ++ (c!"2".map Seg.lit ++ (c!"\" text:outline-level=\"".map Seg.lit ++ (c!"2".map Seg.lit ++ (c!"\">".map Seg.lit ++
      (c!"<text:a xlink:href=\"../".map Seg.lit ++ (Seg.var c!"ProjectName" c!"${ProjectName}" :: (c!"_manuscript.odt#ChID:".map Seg.lit ++ (Seg.var c!"ID" c!"$ID" :: (c!"%7Cregion\">".map Seg.lit ++
      (Seg.var c!"Title" c!"$Title" :: (c!"</text:a>".map Seg.lit ++ hEnd.map Seg.lit))))))))))))))) := by decide +kernel
  have e2 : segs sceneDescTemplates.part = (c!"<text:section text:style-name=\"Sect1\" text:name=\"".map Seg.lit ++ (c!"ChID:".map Seg.lit ++ (Seg.var c!"ID" c!"$ID" ::
      (c!"\">\n".map Seg.lit ++ (h1Open.map Seg.lit ++ (Seg.var c!"Title" c!"$Title" :: hEnd.map Seg.lit)))))) := by decide +kernel
  unfold subst
  rw [e1, e2]
  simp only [List.flatMap_append, List.flatMap_cons, render_lits, render, h1, h2, h4, Option.getD_some]
  unfold secOpen linkText hOpen linkOpen
  simp only [List.append_assoc, and_self]

theorem sd_scenes (name path : Str) {n : Novel} (hn : Exportable n) (l : List (Str × Scene)) (hl : ∀ p ∈ l, p.1 ∈ narrative n ∧ n.scenes.get? p.1 = some p.2 ∧ CarriableO p.2.title)
    (before : List (Str × Scene)) (first : Bool) : (scenesText (odtSceneDesc (plainEnv name path)) n before first l).flatten = sceneSheets first l := by
  induction l generalizing before first with
  | nil => rfl
  | cons p l ih =>
    obtain ⟨h1, h2, h3⟩ := hl p (by simp)
    unfold scenesText sceneSheets
    rw [List.flatten_append, ih (fun q hq => hl q (by simp [hq]))]
    unfold sceneText
    dsimp only
    obtain ⟨mp, hm⟩ := (plainEnv name path).plainBase.scene_total hn h1 (before ++ [p]).length (total (·.wordCount) (before ++ [p])) (total (·.letterCount) (before ++ [p]))
    have e : (odtSceneDesc (plainEnv name path)).sceneMapping n p.1 (before ++ [p]).length (total (·.wordCount) (before ++ [p])) (total (·.letterCount) (before ++ [p])) =
        .ok (Dict.set mp c!"sceneTitle" c!"Scene") := by
      show ((plainEnv name path).plainBase.scene n p.1 _ _ _ >>= fun m => _) = _
      rw [hm]
      rfl
    rw [e]
    unfold filled
    dsimp only
    obtain ⟨-, g1, g2, g3, -⟩ := Base.scene_content h2 hm
    obtain ⟨s1, s2⟩ := subst_sdScene (m := Dict.set mp c!"sceneTitle" c!"Scene") (t := (p.2.title.getD []).flatMap escChar) (id := p.1) (d := odtConvert p.2.desc false)
      (by rw [get?_set_other (by decide), g2, ← (odtConvert_title h3).1]; rfl) (by rw [get?_set_other (by decide), g1]) (by rw [get?_set_other (by decide), g3]; rfl)
    have ea : (odtSceneDesc (plainEnv name path)).appendedScene = sceneDescTemplates.appendedScene := rfl
    have es : (odtSceneDesc (plainEnv name path)).scene = sceneDescTemplates.scene := rfl
    have ed : (odtSceneDesc (plainEnv name path)).sceneDivider = starsDivider := rfl
    have en : decide (sceneDescTemplates.appendedScene ≠ []) = true := by decide +kernel
    rw [ea, es, ed, en, Bool.and_true]
    cases first <;> cases (p.2.appendToPrev == some true)
    · simp only [Bool.or_self, Bool.false_eq_true, if_false, Bool.not_false, Bool.and_false, List.flatten_append, List.flatten_singleton, s1]
    · simp only [Bool.or_true, if_true, Bool.not_false, Bool.and_self, List.flatten_append, List.flatten_singleton, List.flatten_nil, s2]
    · simp only [Bool.or_false, if_true, Bool.not_true, Bool.and_self, Bool.false_eq_true, if_false, List.flatten_append, List.flatten_singleton, List.flatten_nil, s1]
    · simp only [Bool.or_self, if_true, Bool.not_true, Bool.false_and, Bool.false_eq_true, if_false, List.flatten_append, List.flatten_singleton, List.flatten_nil, s1]

theorem exportedIn_narrative {n : Novel} {k : Str} {ch : Chapter} (hk : k ∈ n.srtChapters) (hc : n.chapters.get? k = some ch) {p : Str × Scene} (hp : p ∈ exportedIn n ch) : p.1 ∈ narrative n := by
  unfold exportedIn at hp
  rw [List.mem_filter, List.mem_filterMap] at hp
  obtain ⟨⟨i, hi, h2⟩, _⟩ := hp
  cases hs : n.scenes.get? i with
  | none => rw [hs] at h2; cases h2
  | some s =>
    rw [hs] at h2
    cases h2
    unfold narrative
    rw [List.mem_flatMap]
    exact ⟨k, hk, by unfold scenesOf; rw [hc]; exact hi⟩

theorem sd_chapter (name path : Str) (hname : LinkName name) {n : Novel} (hn : Exportable n)
    (hf : ∀ k ∈ n.srtChapters, ∀ ch, n.chapters.get? k = some ch → chapterShown n ch = true → CarriableO ch.title ∧ ∀ p ∈ exportedIn n ch, CarriableO p.2.title) {k : Str}
    (hk : k ∈ n.srtChapters) (before : List Str) : (chapterText (odtSceneDesc (plainEnv name path)) n before k).flatten = sdChapter name n k := by
  unfold chapterText sdChapter
  cases hc : n.chapters.get? k with
  | none => rfl
  | some ch =>
    dsimp only
    by_cases hs : chapterShown n ch = true
    · rw [if_pos hs, if_pos hs]
      obtain ⟨h2, h4⟩ := hf k hk ch hc hs
      have ht := (odtConvert_title h2).1
      have e1 : (odtSceneDesc (plainEnv name path)).chapterMapping = (plainEnv name path).plainBase.chapter := rfl
      have e2 : (odtSceneDesc (plainEnv name path)).chapterEnd = secEnd := rfl
      have e4 : secEnd ≠ [] := by decide
      have e3 : isPart (odtSceneDesc (plainEnv name path)).toTemplates ch = (ch.chLevel == some 1) := by
        unfold isPart
        have : (odtSceneDesc (plainEnv name path)).part ≠ [] := by
          show sceneDescTemplates.part ≠ []
          decide +kernel
        simp only [this, ne_eq, not_false_eq_true, decide_true, Bool.and_true]
        rw [Bool.eq_iff_iff]
        simp
      rw [e1, e2, if_neg e4, List.flatten_append, List.flatten_append, sd_scenes name path hn _ (fun p hp => ⟨exportedIn_narrative hk hc hp, exportedIn_mem hp, h4 p hp⟩), List.flatten_singleton,
        List.flatten_singleton, e3, desc_mapping name path hc]
      unfold filled
      dsimp only
      have hsub := fun j => subst_sdChapter (m := [(c!"ID", k), (c!"ChapterNumber", dispNumber j), (c!"Title", odtConvert ch.title true), (c!"Desc", odtConvert ch.desc false),
        (c!"ProjectName", odtConvert (some name) true), (c!"ProjectPath", path), (c!"Language", pyStr n.languageCode), (c!"Country", pyStr n.countryCode)])
        (t := odtConvert ch.title true) (id := k) (name := odtConvert (some name) true) rfl rfl rfl
      rw [subst_secEnd, ← List.append_assoc, List.append_assoc]
      unfold sdHeading
      by_cases hp : ch.chLevel = some 1
      · have hb : (ch.chLevel == some 1) = true := by simpa using hp
        simp only [hb, ↓reduceIte]
        rw [if_pos hp, ← ht, show (odtSceneDesc (plainEnv name path)).part = sceneDescTemplates.part from rfl, (hsub _).2]
      · have hb : (ch.chLevel == some 1) = false := by simpa using hp
        simp only [hb, Bool.false_eq_true, ↓reduceIte]
        rw [if_neg hp, ← ht, ← convert_name hname, show (odtSceneDesc (plainEnv name path)).chapter = sceneDescTemplates.chapter from rfl, (hsub _).1]
    · rw [if_neg hs, if_neg hs]
      rfl

theorem sd_manuscript_of (name path : Str) (hname : LinkName name) {n : Novel} (hn : Exportable n)
    (hf : ∀ k ∈ n.srtChapters, ∀ ch, n.chapters.get? k = some ch → chapterShown n ch = true → CarriableO ch.title ∧ ∀ p ∈ exportedIn n ch, CarriableO p.2.title) (ids before : List Str)
    (hi : ∀ k ∈ ids, k ∈ n.srtChapters) : (manuscript (odtSceneDesc (plainEnv name path)) n before ids).flatten = ids.flatMap (sdChapter name n) := by
  induction ids generalizing before with
  | nil => rfl
  | cons k ids ih =>
    unfold manuscript
    rw [List.flatten_append, List.flatMap_cons, ih _ (fun i h => hi i (by simp [h])), sd_chapter name path hname hn hf (hi k (by simp)) before]

theorem sd_manuscript (name path : Str) (hname : LinkName name) {n : Novel} (hn : Exportable n) {s : Dict Scene} {c : Dict Chapter} (hf : SdFits n s c n.srtChapters) (ids before : List Str)
    (hi : ∀ k ∈ ids, k ∈ n.srtChapters) : (manuscript (odtSceneDesc (plainEnv name path)) n before ids).flatten = ids.flatMap (sdChapter name n) :=
  sd_manuscript_of name path hname hn (fun k hk ch hc hs => ⟨(hf.chapters k hk ch hc hs).2.1, fun p hp => ((hf.chapters k hk ch hc hs).2.2.2 p hp).1.title⟩) ids before hi

theorem sceneSheets_cr (l : List (Str × Scene)) (hl : ∀ p ∈ l, SceneDescFits p) (first : Bool) : '\r' ∉ sceneSheets first l := by
  induction l generalizing first with
  | nil => simp [sceneSheets]
  | cons p l ih =>
    have hp := hl p (by simp)
    have h1 := esc_cr (odtConvert_title hp.title).2
    have h2 := odtConvert_cr hp.desc
    have h3 := num_cr hp.number
    unfold sceneSheets
    rw [List.mem_append, List.mem_append, not_or, not_or]
    refine ⟨⟨?_, ?_⟩, ih (fun q hq => hl q (by simp [hq])) false⟩
    · split
      · simp
      · decide
    · have : ∀ st, st = indStyle ∨ st = bodyStyle → '\r' ∉ sceneSheet st p.1 ((p.2.title.getD []).flatMap escChar) (odtConvert p.2.desc false) := by
        intro st hst
        have h0 : '\r' ∉ st := by rcases hst with rfl | rfl <;> decide
        unfold sceneSheet secOpen pOpen
        simp only [List.mem_append, not_or]
        exact ⟨⟨by decide, h1, by decide⟩, ⟨⟨by decide, by decide, h3⟩, by decide⟩, ⟨⟨⟨by decide, h0⟩, by decide⟩, h2, by decide⟩, by decide, by decide⟩
      split
      · exact this _ (.inl rfl)
      · exact this _ (.inr rfl)

theorem sdChapter_cr {name : Str} (hname : LinkName name) {n : Novel} {s : Dict Scene} {c : Dict Chapter} (hf : SdFits n s c n.srtChapters) :
    '\r' ∉ n.srtChapters.flatMap (sdChapter name n) := by
  have hn : '\r' ∉ name.flatMap escChar := escs_cr (fun hm => (hname _ hm).2.2 rfl)
  rw [List.mem_flatMap]
  rintro ⟨k, hk, hm⟩
  unfold sdChapter at hm
  cases hc : n.chapters.get? k with
  | none =>
    rw [hc] at hm
    cases hm
  | some ch =>
    rw [hc] at hm
    dsimp only at hm
    by_cases hs : chapterShown n ch = true
    · obtain ⟨h1, h2, -, h4⟩ := hf.chapters k hk ch hc hs
      have g1 := esc_cr (odtConvert_title h2).2
      have g2 := num_cr h1
      rw [if_pos hs] at hm
      simp only [List.mem_append] at hm
      rcases hm with hm | hm | hm | hm
      · unfold secOpen at hm
        simp only [List.mem_append] at hm
        rcases hm with (hm | hm | hm) | hm
        · exact absurd hm (by decide)
        · exact absurd hm (by decide)
        · exact g2 hm
        · exact absurd hm (by decide)
      · unfold sdHeading at hm
        split at hm
        · simp only [List.mem_append] at hm
          rcases hm with hm | hm | hm
          · exact absurd hm (by decide)
          · exact g1 hm
          · exact absurd hm (by decide)
        · have : '\r' ∉ linkText c!"2" (name.flatMap escChar) k ((ch.title.getD []).flatMap escChar) := by
            unfold linkText hOpen linkOpen
            simp only [List.mem_append, not_or]
            exact ⟨⟨by decide, by decide, by decide, by decide, by decide⟩, ⟨by decide, hn, by decide, g2, by decide⟩, g1, by decide, by decide⟩
          exact this hm
      · exact sceneSheets_cr _ (fun p hp => (h4 p hp).1) true hm
      · exact absurd hm (by decide)
    · rw [if_neg hs] at hm
      cases hm

theorem sd_deaf (m : Novel) : Deaf sceneDescReader { novel := m } := by
  refine ⟨?_, fun _ => rfl, fun _ _ => rfl⟩
  intro t as h1 h2
  show Rd.baseStart 0 { novel := m } t as = _
  unfold Rd.baseStart
  rw [if_neg h1, if_neg h2]

/-! ### What reading does -/

theorem scenesDescribed_get {n : Novel} (l : List (Str × Scene)) (hl : ∀ p ∈ l, n.scenes.get? p.1 = some p.2) (s : Dict Scene) (k : Str) :
    (scenesDescribed l s).get? k = if k ∈ l.map Prod.fst then (s.get? k).map (sceneDescribed (((n.scenes.get? k).bind (·.desc)).getD [])) else s.get? k := by
  induction l generalizing s with
  | nil => rfl
  | cons p l ih =>
    unfold scenesDescribed
    rw [ih (fun q hq => hl q (by simp [hq])), Dict.get?_modify]
    by_cases e : p.1 = k
    · subst e
      rw [if_pos rfl, if_pos (c := p.1 ∈ (p :: l).map Prod.fst) (by simp), hl p (by simp)]
      split
      · rw [Option.map_map]
        rfl
      · rfl
    · rw [if_neg e]
      by_cases h2 : k ∈ l.map Prod.fst
      · rw [if_pos h2, if_pos (by simp only [List.map_cons, List.mem_cons]; exact .inr h2)]
      · rw [if_neg h2, if_neg]
        simp only [List.map_cons, List.mem_cons]
        rintro (h | h)
        · exact e h.symm
        · exact h2 h

theorem scenesAfter_get (n : Novel) (ids : List Str) (s : Dict Scene) (k : Str) : (scenesAfter n ids s).get? k =
    if k ∈ (exported n ids).map Prod.fst then (s.get? k).map (sceneDescribed (((n.scenes.get? k).bind (·.desc)).getD [])) else s.get? k := by
  induction ids generalizing s with
  | nil => rfl
  | cons i ids ih =>
    unfold scenesAfter
    rw [ih]
    cases hc : n.chapters.get? i with
    | none =>
      have e1 : exported n (i :: ids) = exported n ids := by simp [exported, hc]
      rw [e1]
    | some ch =>
      have e1 : exported n (i :: ids) = exportedIn n ch ++ exported n ids := by simp [exported, hc]
      dsimp only
      rw [e1, scenesDescribed_get (n := n) _ (fun p hp => exportedIn_mem hp), List.map_append]
      by_cases h1 : k ∈ (exportedIn n ch).map Prod.fst
      · rw [if_pos h1, if_pos (c := k ∈ (exportedIn n ch).map Prod.fst ++ (exported n ids).map Prod.fst) (List.mem_append.2 (.inl h1)), Option.map_map]
        split <;> rfl
      · rw [if_neg h1]
        by_cases h2 : k ∈ (exported n ids).map Prod.fst
        · rw [if_pos h2, if_pos (List.mem_append.2 (.inr h2))]
        · rw [if_neg h2, if_neg (fun h => (List.mem_append.1 h).elim h1 h2)]

theorem headChapter_twice (t : Str) (ch : Chapter) : headChapter t (headChapter t ch) = headChapter t ch := by
  unfold headChapter isBlankField
  cases ht : ch.title with
  | none => simp
  | some t => cases t <;> simp

theorem chaptersAfter_get (n : Novel) (ids : List Str) (c : Dict Chapter) (k : Str) : (chaptersAfter n ids c).get? k =
    if k ∈ shownChapters n ids then (c.get? k).map (headChapter (((n.chapters.get? k).bind (·.title)).getD [])) else c.get? k := by
  induction ids generalizing c with
  | nil => rfl
  | cons i ids ih =>
    unfold chaptersAfter
    rw [ih]
    unfold shownChapters
    rw [List.filter_cons]
    cases hc : n.chapters.get? i with
    | none => rfl
    | some ch =>
      dsimp only
      by_cases hs : chapterShown n ch = true
      · rw [if_pos hs, if_pos hs, Dict.get?_modify]
        by_cases e : i = k
        · subst e
          rw [if_pos rfl, hc, if_pos (c := i ∈ i :: _) (by simp), Option.bind_some]
          split
          · rw [Option.map_map]
            congr 1
            funext x
            exact headChapter_twice _ _
          · rfl
        · rw [if_neg e]
          simp only [List.mem_cons, Ne.symm e, false_or]
      · rw [if_neg hs, if_neg hs]

theorem scenesDescribed_keys (l : List (Str × Scene)) (s : Dict Scene) : (scenesDescribed l s).keys = s.keys := by
  induction l generalizing s with
  | nil => rfl
  | cons p l ih =>
    unfold scenesDescribed
    rw [ih, Dict.keys_modify]

theorem after_keys (n : Novel) (ids : List Str) (s : Dict Scene) (c : Dict Chapter) : (scenesAfter n ids s).keys = s.keys ∧ (chaptersAfter n ids c).keys = c.keys := by
  induction ids generalizing s c with
  | nil => exact ⟨rfl, rfl⟩
  | cons i ids ih =>
    unfold scenesAfter chaptersAfter
    refine ⟨((ih _ c).1).trans ?_, ((ih s _).2).trans ?_⟩
    · split
      · rfl
      · exact scenesDescribed_keys _ _
    · split
      · rfl
      · split
        · exact Dict.keys_modify _ _ _
        · rfl

end Verif
