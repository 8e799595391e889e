/-
The document, when the texts of the scenes become passages (C56).
-/
import Verif.Lemmas.Book14
import Verif.Lemmas.Flow4

namespace Verif
open Spec Re Template Book

theorem book_of_texts (name path : Str) (n : Novel) (marks : Str → List Piece) (hn : Exportable n) (hi : Inherits n) (languages : ∀ l ∈ n.languages.getD [], LangCode l)
    (distinct : (n.languages.getD []).Nodup) (author : AuthorOk n.authorName) (hat : '@' ∉ pyStr n.authorName) (title : BookTitle n.title)
    (chapters : ∀ id ∈ n.srtChapters, ∀ ch, n.chapters.get? id = some ch → chapterShown n ch = true → BookTitle ch.title)
    (scenes : ∀ p ∈ exported n n.srtChapters, TextShown n p.2.sceneContent (marks p.1)) :
    ∃ text root, exportText (formattedEnv name path) n = .ok text ∧ parseDoc text = some root ∧ passages root = book n marks ∧
      ∀ l ∈ n.languages.getD [], ∃ a b, l = a ++ c!"-" ++ b ∧ styleLanguage (languageStyleName (position (n.languages.getD []) l)) root = some (a, b) := by
  obtain ⟨e, he⟩ : ∃ e, e = formattedEnv name path := ⟨_, rfl⟩
  obtain ⟨ls, hls⟩ : ∃ ls, n.languages.getD [] = ls := ⟨_, rfl⟩
  have hL : ∀ l ∈ ls, LangCode l := by rw [← hls]; exact languages
  have hf : (formats ls).Nodup := formats_nodup (by rw [← hls]; exact distinct)
  have haut : CarriableO n.authorName ∧ '\n' ∉ n.authorName.getD [] ∧ NoMarks (n.authorName.getD []) ∧ ∀ c ∈ c!"/h|crsu", ¬ ['[', c] <:+: n.authorName.getD [] := by
    cases ha : n.authorName with
    | none => exact ⟨trivial, by decide, by unfold NoMarks; decide, by decide⟩
    | some a =>
      have h1 : ∀ c ∈ a, xmlLegal c = true ∧ c ∉ c!"<>&[*\r\n" := by
        have := author
        rw [ha] at this
        exact this
      have h2 : '@' ∉ a := by rw [ha] at hat; exact hat
      have no : ∀ d ∈ c!"<>&[*\r\n", d ∉ a := fun d hd hm => (h1 d hm).2 hd
      refine ⟨author_carriable (ha ▸ author) a rfl, no _ (by decide), ⟨?_, ?_, ?_⟩, ?_⟩
      · exact fun h => no '*' (by decide) (h.subset (by simp))
      · exact fun h => h2 (h.subset (by simp))
      · exact fun h => h2 (h.subset (by simp))
      · exact fun c hc h => no '[' (by decide) (h.subset (by simp))
  obtain ⟨header, hh, htext⟩ := C29_document e n hn hi
  have hm : ∃ hm, (odtExport e).headerMapping n = .ok hm ∧ hm.get? c!"ContentHeader" = some (formattedHeader ls) ∧ hm.get? c!"Title" = some ((n.title.getD []).flatMap escChar) ∧
      hm.get? c!"AuthorName" = some ((n.authorName.getD []).flatMap escChar) := by
    refine ⟨_, rfl, ?_, ?_, ?_⟩
    · rw [Dict.get?_set_self, he, hls]
      rfl
    · rw [get?_set_other (by decide), ← title_conv n _ title.2.2.2]
      rfl
    · rw [get?_set_other (by decide), ← title_conv n _ haut.2.2.2]
      rfl
  obtain ⟨hm, hm0, hm1, hm2, hm3⟩ := hm
  have hheader : header = [subst titleTemplate hm] := by
    unfold getFileHeader at hh
    rw [hm0] at hh
    cases hh
    rfl
  rw [subst_title hm1 hm2 hm3] at hheader
  subst hheader
  have piece : Piec n.authorName (((c!"<text:p text:style-name=\"Title\">" ++ ((n.title.getD []).flatMap escChar ++ c!"</text:p>\n")) ++ (c!"<text:p text:style-name=\"Subtitle\">" ++ ((n.authorName.getD []).flatMap escChar ++ c!"</text:p>\n"))) ++
      (Spec.manuscript (odtExport e) n [] n.srtChapters).flatten)
      ([⟨c!"Title", plainShown (n.title.getD [])⟩, ⟨c!"Subtitle", plainShown (n.authorName.getD [])⟩] ++ n.srtChapters.flatMap (chapterPassages n marks)) := by
    refine ((title_piece (getD_carriable title.1) title.2.1 title.2.2.1).append (subtitle_piece (getD_carriable haut.1) haut.2.1 haut.2.2.1)).append ?_
    refine chapters_piece e hn n.srtChapters (fun id h => h) ?_ []
    intro id hid ch hch hsh
    refine ⟨chapters id hid ch hch hsh, ?_⟩
    intro p hp
    refine scenes p ?_
    unfold exported
    rw [List.mem_flatMap]
    exact ⟨id, hid, by rw [hch]; exact hp⟩
  generalize hb : ((c!"<text:p text:style-name=\"Title\">" ++ ((n.title.getD []).flatMap escChar ++ c!"</text:p>\n")) ++ (c!"<text:p text:style-name=\"Subtitle\">" ++ ((n.authorName.getD []).flatMap escChar ++ c!"</text:p>\n"))) ++
      (Spec.manuscript (odtExport e) n [] n.srtChapters).flatten = body at piece
  have etext : ([formattedHeader ls ++ ((c!"<text:p text:style-name=\"Title\">" ++ ((n.title.getD []).flatMap escChar ++ c!"</text:p>\n")) ++ (c!"<text:p text:style-name=\"Subtitle\">" ++ ((n.authorName.getD []).flatMap escChar ++ c!"</text:p>\n")))] ++
      Spec.manuscript (odtExport e) n [] n.srtChapters ++ [contentFooter]).flatten = formattedHeader ls ++ (body ++ contentFooter) := by
    rw [← hb, List.flatten_append, List.flatten_append, List.flatten_cons, List.flatten_nil, List.append_nil, List.flatten_cons, List.flatten_nil, List.append_nil]
    simp only [List.append_assoc]
  rw [etext] at htext
  obtain ⟨b1, q1, hk⟩ := piece
  obtain ⟨b2, hno, hba, hpas⟩ := hk 0
  have qall : Quot (formattedHeader ls ++ (body ++ contentFooter)) (formattedHeader ls ++ (b1 ++ contentFooter)) := (Quot.header hL).append (q1.append (Quot.lit (by decide)))
  rw [quotations_eq qall] at htext
  have hnoted : Noted n.authorName 0 (formattedHeader ls ++ (b1 ++ contentFooter)) (formattedHeader ls ++ (b2 ++ contentFooter)) _ :=
    (Noted.calm 0 (header_begin hL)).append (hno.append (Noted.calm _ (NoBegin.lit (by decide))))
  have hback : Back (formattedHeader ls ++ (b2 ++ contentFooter)) := (header_back hL).append (hba.append (Back.lit (by decide) (by decide) (by decide)))
  rw [convertNotes_noted hnoted hback qall.2.2 (header_head _)] at htext
  have e2 : formattedHeader ls ++ (b2 ++ contentFooter) = odtHeadStart ++ ((automaticStyles ls ++ (odtHeadEnd ++ (b2 ++ bodyEnd))) ++ c!"</office:document-content>\n") := by
    have : contentFooter = bodyEnd ++ c!"</office:document-content>\n" := rfl
    rw [this, formattedHeader_eq]
    generalize c!"</office:document-content>\n" = z
    simp only [List.append_assoc]
  have hcr : '\r' ∉ formattedHeader ls ++ (b2 ++ contentFooter) := by
    simp only [List.mem_append, not_or]
    exact ⟨(Quot.header hL).2.2, hpas.1, by decide⟩
  obtain ⟨n1, a1, r1, p1, s1⟩ := automatic_renders hL c!" \n"
  obtain ⟨n2, a2, r2, p2⟩ := body_renders hpas a1
  rw [e2] at hcr
  obtain ⟨as, ks, hp, k1, k2⟩ := document_tree (r1.append r2) hcr
  refine ⟨_, _, by rw [← he]; exact htext, by rw [e2]; exact hp, ?_, ?_⟩
  · rw [passages, if_neg (by decide), passagesAll_append, passagesAll_append, passagesAll_append, passagesAll_textNode, k1, p1, p2, List.nil_append, List.nil_append, List.append_nil]
    rfl
  · intro l hl
    rw [hls] at hl ⊢
    obtain ⟨a, b, h1, h2⟩ := s1 l hl
    refine ⟨a, b, h1, ?_⟩
    rw [styleLanguage, if_neg (fun h => absurd h.1 (by decide)), styleLanguageAll_append, styleLanguageAll_none _ _ k2, styleLanguageAll_append, styleLanguageAll_append, h2]
    rfl

end Verif
