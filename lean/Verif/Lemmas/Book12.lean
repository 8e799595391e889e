/-
Headings, scenes and chapters of the exported document (C56).
-/
import Verif.Lemmas.Book11
import Verif.Lemmas.NestDoc
import Verif.Props.C29_Succeeds

namespace Verif.Book
open Spec Re Template

variable {ls : List Str} {author : Option Str}

/-! ### Titles -/

theorem layout_none {t : Str} (h : ∀ c ∈ c!"/h|crsu", ¬ ['[', c] <:+: t) (b : Bool) : subGo layoutTag [] b 0 (t.flatMap escChar) = t.flatMap escChar := by
  induction t generalizing b with
  | nil => rfl
  | cons c t ih =>
    have ih := ih (fun d hd hi => h d hd (List.infix_cons hi))
    by_cases hc : c = '['
    · subst hc
      have e : ('[' :: t).flatMap escChar = '[' :: t.flatMap escChar := rfl
      have hm : layoutTag b ('[' :: t.flatMap escChar) = none := by
        refine layout_bracket b ?_
        intro d r hd hmem
        cases t with
        | nil => cases hd
        | cons x t =>
          obtain ⟨y, z, e1, _⟩ := escChar_head x
          have hyd : y = d := by
            rw [List.flatMap_cons, e1] at hd
            injection hd
          subst hyd
          have hne : y ≠ '&' := by rintro rfl; revert hmem; decide
          obtain ⟨rfl, _⟩ := escChar_other e1 hne
          exact h _ hmem ⟨[], t, rfl⟩
      rw [e]
      simp only [subGo, hm]
      rw [ih]
    · obtain ⟨b', e⟩ := layout_skip b (escChar c) (t.flatMap escChar) (not_mem_esc (by decide) hc)
      rw [List.flatMap_cons, e, ih]

theorem title_conv (n : Novel) (o : Option Str) (h : ∀ c ∈ c!"/h|crsu", ¬ ['[', c] <:+: o.getD []) : odtExportConvert n o true = (o.getD []).flatMap escChar := by
  cases o with
  | none => rfl
  | some t =>
    cases t with
    | nil => rfl
    | cons c t =>
      have : odtExportConvert n (some (c :: t)) true = subGo layoutTag [] true 0 ((c :: t).flatMap escChar) := by
        show sub layoutTag [] (replaceAll xmlReplacements (c :: t)) = _
        rw [replaceAll_xml]
        rfl
      rw [this]
      exact layout_none h true

theorem getD_carriable {o : Option Str} (h : CarriableO o) : Carriable (o.getD []) := by
  cases o with
  | none => intro c hc; cases hc
  | some t => exact h

theorem h1_piece {t : Str} (ht : Carriable t) (hnl : '\n' ∉ t) (hm : NoMarks t) : Piec author (h1Open ++ (t.flatMap escChar ++ hEnd)) [⟨c!"Heading_20_1", plainShown t⟩] :=
  Piec.heading (op := c!"text:h text:style-name=\"Heading_20_1\" text:outline-level=\"1\">") (en := c!"/text:h>\n") (e := c!"text:h") (as := [(c!"text:style-name", c!"Heading_20_1"), (c!"text:outline-level", c!"1")]) ht hnl hm
    (.inr rfl) rfl (by decide) (by decide) (by decide) (by decide) (by decide) (by decide) (by decide +kernel) (a2 := c!"\n") (by decide +kernel)

theorem h2_piece {t : Str} (ht : Carriable t) (hnl : '\n' ∉ t) (hm : NoMarks t) : Piec author (h2Open ++ (t.flatMap escChar ++ hEnd)) [⟨c!"Heading_20_2", plainShown t⟩] :=
  Piec.heading (op := c!"text:h text:style-name=\"Heading_20_2\" text:outline-level=\"2\">") (en := c!"/text:h>\n") (e := c!"text:h") (as := [(c!"text:style-name", c!"Heading_20_2"), (c!"text:outline-level", c!"2")]) ht hnl hm
    (.inr rfl) rfl (by decide) (by decide) (by decide) (by decide) (by decide) (by decide) (by decide +kernel) (a2 := c!"\n") (by decide +kernel)

theorem title_piece {t : Str} (ht : Carriable t) (hnl : '\n' ∉ t) (hm : NoMarks t) : Piec author (c!"<text:p text:style-name=\"Title\">" ++ (t.flatMap escChar ++ c!"</text:p>\n")) [⟨c!"Title", plainShown t⟩] :=
  Piec.heading (op := c!"text:p text:style-name=\"Title\">") (en := c!"/text:p>\n") (e := c!"text:p") (as := [(c!"text:style-name", c!"Title")]) ht hnl hm
    (.inl rfl) rfl (by decide) (by decide) (by decide) (by decide) (by decide) (by decide) (by decide +kernel) (a2 := c!"\n") (by decide +kernel)

theorem subtitle_piece {t : Str} (ht : Carriable t) (hnl : '\n' ∉ t) (hm : NoMarks t) : Piec author (c!"<text:p text:style-name=\"Subtitle\">" ++ (t.flatMap escChar ++ c!"</text:p>\n")) [⟨c!"Subtitle", plainShown t⟩] :=
  Piec.heading (op := c!"text:p text:style-name=\"Subtitle\">") (en := c!"/text:p>\n") (e := c!"text:p") (as := [(c!"text:style-name", c!"Subtitle")]) ht hnl hm
    (.inl rfl) rfl (by decide) (by decide) (by decide) (by decide) (by decide) (by decide) (by decide +kernel) (a2 := c!"\n") (by decide +kernel)

theorem divider_piece : Piec author starsDivider [⟨c!"Heading_20_4", plainShown c!"* * *"⟩] :=
  Piec.heading (op := c!"text:p text:style-name=\"Heading_20_4\">") (t := c!"* * *") (en := c!"/text:p>\n") (e := c!"text:p") (as := [(c!"text:style-name", c!"Heading_20_4")]) (by unfold Carriable; decide)
    (by decide) (by unfold NoMarks; decide) (.inl rfl) rfl (by decide) (by decide) (by decide) (by decide) (by decide) (by decide) (by decide +kernel) (a2 := c!"\n") (by decide +kernel)

/-! ### Scenes -/

/-- The text of a scene becomes the passages of these pieces. -/
def TextShown (n : Novel) (content : Option Str) (ps : List Piece) : Prop :=
  ∀ st, st = indStyle ∨ st = bodyStyle → Piec n.authorName (pOpen st ++ odtExportConvert n content false ++ pEnd) (textPassages (n.languages.getD []) (pyStr n.authorName) st ps)

theorem scene_piece (e : DocEnv) {n : Novel} (hn : Exportable n)
    {p : Str × Scene} (hp : n.scenes.get? p.1 = some p.2) (hmem : p.1 ∈ narrative n) {marks : Str → List Piece} (hc : TextShown n p.2.sceneContent (marks p.1)) (before : List (Str × Scene)) (first : Bool) :
    Piec n.authorName (Spec.sceneText (odtExport e) n before first p).flatten (scenePassages n marks first p) := by
  obtain ⟨m, hm⟩ := (odtExport_total e hn).scene p.1 hmem (before ++ [p]).length (total (·.wordCount) (before ++ [p])) (total (·.letterCount) (before ++ [p]))
  have h := C29_scene_text e n before first p.1 p.2 hp m hm
  rw [show (p.1, p.2) = p from rfl] at h
  rw [h, List.flatten_append]
  unfold scenePassages
  refine Piec.append ?_ ?_
  · split
    · exact Piec.nil
    · rw [List.flatten_cons, List.flatten_nil, List.append_nil]
      exact divider_piece
  · rw [List.flatten_cons, List.flatten_nil, List.append_nil]
    split
    · have h1 := (hc _ (.inl rfl)).append (Piec.blank (s := c!"\n") (by decide) (by decide) (by decide) (by decide) (by decide) (by decide))
      rw [List.append_nil] at h1
      have e1 : ∀ t : Str, c!"<text:p text:style-name=\"First_20_line_20_indent\">" ++ (t ++ c!"</text:p>\n") = pOpen indStyle ++ t ++ pEnd ++ c!"\n" := by
        intro t
        show pOpen indStyle ++ (t ++ (pEnd ++ c!"\n")) = _
        simp only [List.append_assoc]
      rw [e1]
      exact h1
    · have h1 := (Piec.blank (author := n.authorName) (s := c!"'") (by decide) (by decide) (by decide) (by decide) (by decide) (by decide)).append
        ((hc _ (.inr rfl)).append (Piec.blank (s := c!"\n    ") (by decide) (by decide) (by decide) (by decide) (by decide) (by decide)))
      rw [List.append_nil, List.nil_append] at h1
      have e1 : ∀ t : Str, c!"'<text:p text:style-name=\"Text_20_body\">" ++ (t ++ c!"</text:p>\n    ") = c!"'" ++ (pOpen bodyStyle ++ t ++ pEnd ++ c!"\n    ") := by
        intro t
        show c!"'" ++ (pOpen bodyStyle ++ (t ++ (pEnd ++ c!"\n    "))) = _
        simp only [List.append_assoc]
      rw [e1]
      exact h1

theorem scenes_piece (e : DocEnv) {n : Novel} (hn : Exportable n)
    {marks : Str → List Piece} (l : List (Str × Scene)) (hp : ∀ p ∈ l, n.scenes.get? p.1 = some p.2 ∧ p.1 ∈ narrative n ∧ TextShown n p.2.sceneContent (marks p.1)) (before : List (Str × Scene)) (first : Bool) :
    Piec n.authorName (Spec.scenesText (odtExport e) n before first l).flatten (scenesPassages n marks first l) := by
  induction l generalizing before first with
  | nil => exact Piec.nil
  | cons p l ih =>
    unfold Spec.scenesText scenesPassages
    rw [List.flatten_append]
    obtain ⟨h1, h2, h3⟩ := hp p (by simp)
    exact (scene_piece e hn h1 h2 h3 before first).append (ih (fun q hq => hp q (by simp [hq])) _ _)

/-! ### Chapters -/

theorem subst_part {m : Mapping} {t : Str} (ht : m.get? c!"Title" = some t) : subst exportTemplates.part m = h1Open ++ (t ++ hEnd) := by
  have e : segs exportTemplates.part = h1Open.map Seg.lit ++ (Seg.var c!"Title" c!"$Title" :: hEnd.map Seg.lit) := by decide +kernel
  unfold subst
  rw [e]
  simp only [List.flatMap_append, List.flatMap_cons, render_lits, render, ht, Option.getD_some]

theorem subst_chapter {m : Mapping} {t : Str} (ht : m.get? c!"Title" = some t) : subst exportTemplates.chapter m = h2Open ++ (t ++ hEnd) := by
  have e : segs exportTemplates.chapter = h2Open.map Seg.lit ++ (Seg.var c!"Title" c!"$Title" :: hEnd.map Seg.lit) := by decide +kernel
  unfold subst
  rw [e]
  simp only [List.flatMap_append, List.flatMap_cons, render_lits, render, ht, Option.getD_some]

theorem chapter_values (e : DocEnv) {n : Novel} {id : Str} {ch : Chapter} (hc : n.chapters.get? id = some ch) (ht : ∀ c ∈ c!"/h|crsu", ¬ ['[', c] <:+: ch.title.getD []) (k : Nat) :
    ∃ m, (odtExport e).chapterMapping n id k = .ok m ∧ m.get? c!"Title" = some ((if ch.suppressChapterTitle = some true then [] else ch.title.getD []).flatMap escChar) := by
  have hb : ∃ m, e.exportBase.chapter n id k = .ok m ∧ m.get? c!"Title" = some ((ch.title.getD []).flatMap escChar) := by
    unfold Base.chapter
    rw [Dict.get!_of hc, ← title_conv n _ ht]
    exact ⟨_, rfl, rfl⟩
  obtain ⟨m, e1, e2⟩ := hb
  have e4 : (odtExport e).chapterMapping n id k = .ok (if ch.suppressChapterTitle = some true then Dict.set m c!"Title" [] else m) := by
    show chapterSuppressed e.exportBase n id k = _
    unfold chapterSuppressed
    rw [e1, Dict.get!_of hc]
    rfl
  refine ⟨_, e4, ?_⟩
  split
  · rw [Dict.get?_set_self]
    rfl
  · exact e2

theorem chapter_piece (e : DocEnv) {n : Novel} (hn : Exportable n)
    {marks : Str → List Piece} {id : Str} {ch : Chapter} (hid : id ∈ n.srtChapters) (hch : n.chapters.get? id = some ch)
    (hsh : chapterShown n ch = true) (hc : BookTitle ch.title) (hp : ∀ p ∈ exportedIn n ch, TextShown n p.2.sceneContent (marks p.1)) (before : List Str) :
    Piec n.authorName (Spec.chapterText (odtExport e) n before id).flatten (chapterPassages n marks id) := by
  unfold Spec.chapterText chapterPassages
  rw [hch]
  simp only
  rw [if_pos hsh, if_pos hsh]
  obtain ⟨m, e1, e2⟩ := chapter_values e hch hc.2.2.2 (if isPart (odtExport e).toTemplates ch = true then 0 else (numberedChapters (odtExport e).toTemplates n before).length + 1)
  rw [e1]
  simp only [filled]
  obtain ⟨t, ht⟩ : ∃ t, t = if ch.suppressChapterTitle = some true then [] else ch.title.getD [] := ⟨_, rfl⟩
  rw [← ht] at e2 ⊢
  have ht3 : Carriable t ∧ '\n' ∉ t ∧ NoMarks t := by
    rw [ht]
    split
    · exact ⟨(by intro c hc; cases hc), (by decide), (by unfold NoMarks; decide)⟩
    · exact ⟨getD_carriable hc.1, hc.2.1, hc.2.2.1⟩
  have hpart : (isPart (odtExport e).toTemplates ch = true) ↔ ch.chLevel = some 1 := by
    unfold isPart
    rw [show (odtExport e).part = exportTemplates.part from rfl]
    have : exportTemplates.part ≠ [] := by decide
    simp [this]
  have p2 : Piec n.authorName (subst (if isPart (odtExport e).toTemplates ch = true then (odtExport e).part else (odtExport e).chapter) m)
      [⟨if ch.chLevel = some 1 then c!"Heading_20_1" else c!"Heading_20_2", plainShown t⟩] := by
    by_cases hl : ch.chLevel = some 1
    · rw [if_pos hl, if_pos (hpart.2 hl), show (odtExport e).part = exportTemplates.part from rfl, subst_part e2]
      exact h1_piece ht3.1 ht3.2.1 ht3.2.2
    · rw [if_neg hl, if_neg (fun h => hl (hpart.1 h)), show (odtExport e).chapter = exportTemplates.chapter from rfl, subst_chapter e2]
      exact h2_piece ht3.1 ht3.2.1 ht3.2.2
  have hmem : ∀ p ∈ exportedIn n ch, p.1 ∈ narrative n := by
    intro p hp
    unfold exportedIn at hp
    rw [List.mem_filter, List.mem_filterMap] at hp
    obtain ⟨⟨i, hi, h2⟩, _⟩ := hp
    cases hs : n.scenes.get? i with
    | none => rw [hs] at h2; cases h2
    | some s =>
      rw [hs] at h2
      cases h2
      unfold narrative
      rw [List.mem_flatMap]
      exact ⟨id, hid, by unfold scenesOf; rw [hch]; exact hi⟩
  have p3 := scenes_piece e hn (exportedIn n ch) (fun p hq => ⟨exportedIn_mem hq, hmem p hq, hp p hq⟩) (exported n before) true
  have e6 : (if (odtExport e).chapterEnd = [] then [] else [subst (odtExport e).chapterEnd m]) = [] := if_pos rfl
  rw [e6, List.append_nil, List.flatten_append, List.flatten_cons, List.flatten_nil, List.append_nil]
  exact p2.append p3

theorem chapters_piece (e : DocEnv) {n : Novel} (hn : Exportable n)
    {marks : Str → List Piece} (ids : List Str) (hids : ∀ id ∈ ids, id ∈ n.srtChapters)
    (hch : ∀ id ∈ ids, ∀ ch, n.chapters.get? id = some ch → chapterShown n ch = true → BookTitle ch.title ∧ ∀ p ∈ exportedIn n ch, TextShown n p.2.sceneContent (marks p.1)) (before : List Str) :
    Piec n.authorName (Spec.manuscript (odtExport e) n before ids).flatten (ids.flatMap (chapterPassages n marks)) := by
  induction ids generalizing before with
  | nil => exact Piec.nil
  | cons id ids ih =>
    unfold Spec.manuscript
    rw [List.flatten_append, List.flatMap_cons]
    obtain ⟨ch, hc⟩ := hn.chapters id (hids id (by simp))
    refine Piec.append ?_ (ih (fun i hi => hids i (by simp [hi])) (fun i hi => hch i (by simp [hi])) _)
    by_cases hsh : chapterShown n ch = true
    · obtain ⟨h1, h3⟩ := hch id (by simp) ch hc hsh
      exact chapter_piece e hn (hids id (by simp)) hc hsh h1 h3 before
    · have h1 : Spec.chapterText (odtExport e) n before id = [] := by
        unfold Spec.chapterText
        rw [hc]
        simp only
        rw [if_neg hsh]
      have h2 : chapterPassages n marks id = [] := by
        unfold chapterPassages
        rw [hc]
        simp only
        rw [if_neg hsh]
      rw [h1, h2]
      exact Piec.nil

end Verif.Book
