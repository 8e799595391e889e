/-
The paragraphs of the description documents (for C74).
-/
import Verif.Lemmas.Shown
import Verif.Props.C50_Descriptions

namespace Verif
open Spec Template

/-- The description of a chapter, in its section. -/
theorem Pars.chapterBlock {level name id : Str} (hl : level = c!"1" ∨ level = c!"2") (hn : LinkName name) {ch : Chapter} (hf : DescFits id ch) :
    Pars (Verif.chapterBlock level name id ch) (⟨c!"Heading_20_" ++ level, ch.title.getD [], [chapterLink name id]⟩ :: description bodyStyle ch.desc) := by
  unfold Verif.chapterBlock descSection
  have h := Pars.section (name := c!"ChID:" ++ id) (numId_plain (by decide) hf.number)
    ((Pars.linked hl hn hf.number (odtConvert_title hf.title).2).append (Pars.desc (.inr rfl) hf.desc))
  simp only [List.append_assoc] at h ⊢
  exact h

/-- A chapter in the descriptions of chapters or parts. -/
theorem Pars.descPart (parts : Bool) {name : Str} (hn : LinkName name) {n : Novel} {id : Str} (hf : ∀ ch, n.chapters.get? id = some ch → chapterShown n ch = true → DescFits id ch) :
    Pars (Verif.descPart parts name n id) (match n.chapters.get? id with
      | some ch => if chapterShown n ch = true then (if parts then (if ch.chLevel = some 1 then ⟨c!"Heading_20_1", ch.title.getD [], [chapterLink name id]⟩ :: description c!"Text_20_body" ch.desc else [])
          else (if ch.chLevel = some 1 then [partHeading ch] else chapterHeading name id ch :: description c!"Text_20_body" ch.desc)) else []
      | none => []) := by
  unfold Verif.descPart
  cases hc : n.chapters.get? id with
  | none => exact Pars.nil
  | some ch =>
    dsimp only
    by_cases hs : chapterShown n ch = true
    · rw [if_pos hs, if_pos hs]
      have hfit := hf ch hc hs
      cases parts
      · simp only [Bool.false_eq_true, ↓reduceIte]
        by_cases hp : ch.chLevel = some 1
        · rw [if_pos hp, if_pos hp]
          exact Pars.h1 (Inl.esc (odtConvert_title hfit.title).2)
        · rw [if_neg hp, if_neg hp]
          exact Pars.chapterBlock (.inr rfl) hn hfit
      · simp only [↓reduceIte]
        by_cases hp : ch.chLevel = some 1
        · rw [if_pos hp, if_pos hp]
          exact Pars.chapterBlock (.inl rfl) hn hfit
        · rw [if_neg hp, if_neg hp]
          exact Pars.nil
    · rw [if_neg hs, if_neg hs]
      exact Pars.nil

/-- A scene, in its section. -/
theorem Pars.sceneSheet {st id : Str} (hst : st = indStyle ∨ st = bodyStyle) (hid : NumId id) {s : Scene} (ht : CarriableO s.title) (hd : CarriableO s.desc) :
    Pars (Verif.sceneSheet st id ((s.title.getD []).flatMap escChar) (odtConvert s.desc false)) (sceneBlock st s) := by
  unfold Verif.sceneSheet sceneBlock
  have hs : Pars (secOpen (c!"ScID:" ++ id) ++ (((pOpen st ++ (odtConvert s.desc false ++ pEnd)) ++ c!"\n") ++ secEnd)) (description st s.desc) :=
    Pars.section (numId_plain (by decide) hid) (Pars.desc hst hd)
  rw [List.append_assoc (pOpen st ++ _)] at hs
  exact (Pars.h3Invisible (Inl.esc (odtConvert_title ht).2)).append hs

/-- The scenes after the first one. -/
theorem Pars.sceneSheets_rest (l : List (Str × Scene)) (hl : ∀ p ∈ l, NumId p.1 ∧ CarriableO p.2.title ∧ CarriableO p.2.desc) :
    Pars (Verif.sceneSheets false l) ((l.map (·.2)).flatMap (fun s => if s.appendToPrev = some true then sceneBlock c!"First_20_line_20_indent" s
      else ⟨c!"Heading_20_4", c!"* * *", []⟩ :: sceneBlock c!"Text_20_body" s)) := by
  induction l with
  | nil => exact Pars.nil
  | cons p l ih =>
    obtain ⟨h1, h2, h3⟩ := hl p (by simp)
    rw [Verif.sceneSheets, List.map_cons, List.flatMap_cons]
    refine Pars.append ?_ (ih (fun q hq => hl q (by simp [hq])))
    by_cases ha : p.2.appendToPrev = some true
    · have hb : (p.2.appendToPrev == some true) = true := by simpa using ha
      rw [if_pos ha, hb]
      exact Pars.sceneSheet (.inl rfl) h1 h2 h3
    · have hb : (p.2.appendToPrev == some true) = false := by simpa using ha
      rw [if_neg ha, hb]
      exact Pars.append Pars.stars (Pars.sceneSheet (.inr rfl) h1 h2 h3)

/-- The scenes of a chapter. -/
theorem Pars.sceneSheets (l : List (Str × Scene)) (hl : ∀ p ∈ l, NumId p.1 ∧ CarriableO p.2.title ∧ CarriableO p.2.desc) :
    Pars (Verif.sceneSheets true l) (sceneBlocks (l.map (·.2))) := by
  cases l with
  | nil => exact Pars.nil
  | cons p l =>
    obtain ⟨h1, h2, h3⟩ := hl p (by simp)
    rw [Verif.sceneSheets, List.map_cons, sceneBlocks]
    exact Pars.append (Pars.sceneSheet (.inr rfl) h1 h2 h3) (Pars.sceneSheets_rest l (fun q hq => hl q (by simp [hq])))

/-- A chapter in the scene descriptions. -/
theorem Pars.sdChapter {name : Str} (hn : LinkName name) {n : Novel} (hf : ScenesShow n) {k : Str} (hk : k ∈ n.srtChapters) :
    Pars (Verif.sdChapter name n k) (match n.chapters.get? k with
      | some ch => if chapterShown n ch = true then (if ch.chLevel = some 1 then partHeading ch else chapterHeading name k ch) :: sceneBlocks ((exportedIn n ch).map (·.2)) else []
      | none => []) := by
  unfold Verif.sdChapter
  cases hc : n.chapters.get? k with
  | none => exact Pars.nil
  | some ch =>
    dsimp only
    by_cases hs : chapterShown n ch = true
    · rw [if_pos hs, if_pos hs]
      obtain ⟨h1, h2⟩ := hf.chapters k hk ch hc hs
      have hh : Pars (sdHeading name k ch) [if ch.chLevel = some 1 then partHeading ch else chapterHeading name k ch] := by
        unfold sdHeading
        by_cases hp : ch.chLevel = some 1
        · rw [if_pos hp, if_pos hp]
          exact Pars.h1 (Inl.esc (odtConvert_title h2).2)
        · rw [if_neg hp, if_neg hp]
          exact Pars.linked (.inr rfl) hn h1 (odtConvert_title h2).2
      have key := Pars.section (name := c!"ChID:" ++ k) (numId_plain (by decide) h1) (hh.append (Pars.sceneSheets (exportedIn n ch) (hf.scenes k hk ch hc)))
      rw [List.append_assoc] at key
      exact key
    · rw [if_neg hs, if_neg hs]
      exact Pars.nil

/-- A document with the title page and these paragraphs. -/
theorem document_shown {n : Novel} (ht : TitleFits n) {body text : Str} {ps : List Paragraph} (hb : Pars body ps)
    (htext : text = formattedHeader [] ++ (((c!"<text:p text:style-name=\"Title\">" ++ ((n.title.getD []).flatMap escChar ++ c!"</text:p>\n")) ++
      (c!"<text:p text:style-name=\"Subtitle\">" ++ ((n.authorName.getD []).flatMap escChar ++ c!"</text:p>\n"))) ++ (body ++ contentFooter))) :
    ∃ root, parseDoc text = some root ∧ paragraphs root = titlePage n ++ ps := by
  have pt := Pars.p (style := c!"Title") (by simp) (Inl.esc (odtConvert_title ht.1).2)
  have pa := Pars.p (style := c!"Subtitle") (by simp) (Inl.esc (odtConvert_title ht.2).2)
  have eT : c!"<text:p text:style-name=\"" ++ c!"Title" ++ c!"\">" = c!"<text:p text:style-name=\"Title\">" := by decide
  have eA : c!"<text:p text:style-name=\"" ++ c!"Subtitle" ++ c!"\">" = c!"<text:p text:style-name=\"Subtitle\">" := by decide
  rw [eT] at pt
  rw [eA] at pa
  obtain ⟨root, h1, h2⟩ := document_paragraphs ((pt.append pa).append hb)
  refine ⟨root, ?_, h2⟩
  rw [htext]
  refine (congrArg parseDoc ?_).trans h1
  simp only [List.append_assoc]

end Verif
