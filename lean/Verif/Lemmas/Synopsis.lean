/-
The brief synopsis (for C71).
-/
import Verif.Spec.Synopsis
import Verif.Lemmas.Desc4
import Verif.Lemmas.XrefDoc3

namespace Verif
open Spec Template

/-- The heading of a part. -/
theorem Pars.h1 {body text : Str} {ls : List Str} (hb : Inl body text ls) :
    Pars (c!"<text:h text:style-name=\"Heading_20_1\" text:outline-level=\"1\">" ++ (body ++ c!"</text:h>\n")) [⟨c!"Heading_20_1", text, ls⟩] :=
  Pars.elem (start := c!"text:h text:style-name=\"Heading_20_1\" text:outline-level=\"1\">") (stop := c!"/text:h>\n") (a2 := c!"\n") (t := c!"text:h")
    (as := [(c!"text:style-name", c!"Heading_20_1"), (c!"text:outline-level", c!"1")]) (.inr rfl) (by decide) (by decide) (by decide +kernel) hb (by decide +kernel)

theorem subst_synopsisChapter {m : Mapping} {t : Str} (h1 : m.get? c!"Title" = some t) :
    subst synopsisTemplates.chapter m = c!"<text:h text:style-name=\"Heading_20_2\" text:outline-level=\"2\">" ++ (t ++ c!"</text:h>\n") := by
  have e : segs synopsisTemplates.chapter =
      c!"<text:h text:style-name=\"Heading_20_2\" text:outline-level=\"2\">".map Seg.lit ++ (Seg.var c!"Title" c!"$Title" :: c!"</text:h>\n".map Seg.lit) := by
    decide +kernel
  unfold subst
  rw [e]
  simp only [List.flatMap_append, List.flatMap_cons, render_lits, render, h1, Option.getD_some]

theorem subst_synopsisPart {m : Mapping} {t : Str} (h1 : m.get? c!"Title" = some t) :
    subst synopsisTemplates.part m = c!"<text:h text:style-name=\"Heading_20_1\" text:outline-level=\"1\">" ++ (t ++ c!"</text:h>\n") := by
  have e : segs synopsisTemplates.part =
      c!"<text:h text:style-name=\"Heading_20_1\" text:outline-level=\"1\">".map Seg.lit ++ (Seg.var c!"Title" c!"$Title" :: c!"</text:h>\n".map Seg.lit) := by
    decide +kernel
  unfold subst
  rw [e]
  simp only [List.flatMap_append, List.flatMap_cons, render_lits, render, h1, Option.getD_some]

theorem subst_synopsisScene {m : Mapping} {t : Str} (h1 : m.get? c!"Title" = some t) :
    subst synopsisTemplates.scene m = c!"<text:p text:style-name=\"Text_20_body\">" ++ (t ++ c!"</text:p>\n") := by
  have e : segs synopsisTemplates.scene =
      c!"<text:p text:style-name=\"Text_20_body\">".map Seg.lit ++ (Seg.var c!"Title" c!"$Title" :: c!"</text:p>\n".map Seg.lit) := by
    decide +kernel
  unfold subst
  rw [e]
  simp only [List.flatMap_append, List.flatMap_cons, render_lits, render, h1, Option.getD_some]

/-- The lines of the scenes. -/
theorem synopsis_scenes (name path : Str) {n : Novel} (hn : Exportable n) (l : List (Str × Scene)) (hl : ∀ p ∈ l, p.1 ∈ narrative n ∧ n.scenes.get? p.1 = some p.2 ∧ CarriableO p.2.title)
    (before : List (Str × Scene)) (first : Bool) : Pars (scenesText (odtSynopsis (plainEnv name path)) n before first l).flatten (l.map (fun p => synopsisLine p.2)) := by
  induction l generalizing before first with
  | nil => exact Pars.nil
  | cons p l ih =>
    obtain ⟨h1, h2, h3⟩ := hl p (by simp)
    unfold scenesText
    rw [List.flatten_append, List.map_cons]
    refine Pars.append (p1 := [synopsisLine p.2]) ?_ (ih (fun q hq => hl q (by simp [hq])) _ _)
    unfold sceneText
    dsimp only
    obtain ⟨mp, hm⟩ := (plainEnv name path).plainBase.scene_total hn h1 (before ++ [p]).length (total (·.wordCount) (before ++ [p])) (total (·.letterCount) (before ++ [p]))
    have e : (odtSynopsis (plainEnv name path)).sceneMapping n p.1 (before ++ [p]).length (total (·.wordCount) (before ++ [p])) (total (·.letterCount) (before ++ [p])) =
        .ok (Dict.set mp c!"sceneTitle" c!"Scene") := by
      show ((plainEnv name path).plainBase.scene n p.1 _ _ _ >>= fun m => _) = _
      rw [hm]
      rfl
    rw [e]
    unfold filled
    dsimp only
    obtain ⟨-, -, g2, -, -⟩ := Base.scene_content h2 hm
    have s1 := subst_synopsisScene (m := Dict.set mp c!"sceneTitle" c!"Scene") (t := (p.2.title.getD []).flatMap escChar)
      (by rw [get?_set_other (by decide), g2, ← (odtConvert_title h3).1]; rfl)
    have ea : (odtSynopsis (plainEnv name path)).appendedScene = [] := rfl
    have es : (odtSynopsis (plainEnv name path)).scene = synopsisTemplates.scene := rfl
    have ed : (odtSynopsis (plainEnv name path)).sceneDivider = [] := rfl
    have en : ¬ ((!first && p.2.appendToPrev == some true && decide (([] : Str) ≠ [])) = true) := by simp
    rw [ea, es, ed, if_neg en, s1, List.flatten_append, List.flatten_singleton]
    have ez : ((if (first || p.2.appendToPrev == some true) = true then [] else [([] : Str)]) : List Str).flatten = [] := by split <;> rfl
    rw [ez, List.nil_append]
    exact Pars.p (style := c!"Text_20_body") (by simp) (Inl.esc (odtConvert_title h3).2)

/-- A chapter. -/
theorem synopsis_chapter (name path : Str) {n : Novel} (hn : Exportable n) (hf : SynopsisFits n) {k : Str} (hk : k ∈ n.srtChapters) (before : List Str) :
    Pars (chapterText (odtSynopsis (plainEnv name path)) n before k).flatten (match n.chapters.get? k with | some ch => synopsisChapter n ch | none => []) := by
  unfold chapterText
  cases hc : n.chapters.get? k with
  | none => exact Pars.nil
  | some ch =>
    dsimp only
    unfold synopsisChapter
    by_cases hs : chapterShown n ch = true
    · rw [if_pos hs, if_pos hs]
      obtain ⟨h1, h2⟩ := hf.chapters k hk ch hc hs
      have e1 : (odtSynopsis (plainEnv name path)).chapterMapping = (plainEnv name path).plainBase.chapter := rfl
      have e2 : (odtSynopsis (plainEnv name path)).chapterEnd = [] := rfl
      have e3 : isPart (odtSynopsis (plainEnv name path)).toTemplates ch = (ch.chLevel == some 1) := by
        unfold isPart
        have : (odtSynopsis (plainEnv name path)).part ≠ [] := by
          show synopsisTemplates.part ≠ []
          decide
        simp only [this, ne_eq, not_false_eq_true, decide_true, Bool.and_true]
        rw [Bool.eq_iff_iff]
        simp
      rw [e1, e2, if_pos rfl, List.append_nil, List.flatten_append, List.flatten_singleton, e3, desc_mapping name path hc]
      refine Pars.append (p1 := [synopsisHeading ch]) ?_ (synopsis_scenes name path hn _ (fun p hp => ⟨exportedIn_narrative hk hc hp, exportedIn_mem hp, h2 p hp⟩) _ _)
      unfold filled synopsisHeading
      dsimp only
      have hi := Inl.esc (odtConvert_title h1).2
      rw [← (odtConvert_title h1).1] at hi
      by_cases hp : ch.chLevel = some 1
      · have hb : (ch.chLevel == some 1) = true := by simpa using hp
        rw [if_pos hb, if_pos hp]
        refine (congrArg (fun s => Pars s _) (subst_synopsisPart rfl)).mpr ?_
        exact Pars.h1 hi
      · have hb : ¬ (ch.chLevel == some 1) = true := by simpa using hp
        rw [if_neg hb, if_neg hp]
        refine (congrArg (fun s => Pars s _) (subst_synopsisChapter rfl)).mpr ?_
        exact Pars.h2 hi
    · rw [if_neg hs, if_neg hs]
      exact Pars.nil

/-- The chapters. -/
theorem synopsis_manuscript (name path : Str) {n : Novel} (hn : Exportable n) (hf : SynopsisFits n) (ids before : List Str) (hids : ∀ k ∈ ids, k ∈ n.srtChapters) :
    Pars (manuscript (odtSynopsis (plainEnv name path)) n before ids).flatten
      (ids.flatMap (fun id => match n.chapters.get? id with | some ch => synopsisChapter n ch | none => [])) := by
  induction ids generalizing before with
  | nil => exact Pars.nil
  | cons k ids ih =>
    unfold manuscript
    rw [List.flatten_append, List.flatMap_cons]
    exact Pars.append (synopsis_chapter name path hn hf (hids k (by simp)) before) (ih _ (fun i hi => hids i (by simp [hi])))

end Verif
