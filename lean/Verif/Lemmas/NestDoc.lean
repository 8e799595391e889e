/-
Well-formedness of exported manuscripts.
-/
import Verif.Lemmas.Nest

namespace Verif
open Spec Re Template

variable {ls : List Str} {author : Option Str}

/-! ### Headings, sections, scenes, chapters -/

theorem heading_even {op e en : Str} {as : Dict Str} {t : Str} (ht : Carriable t) (hq1 : quotLit ('<' :: op) = true) (hq2 : quotLit ('<' :: en) = true)
    (x1 : saxRun .lt op = (.text [], [.start e as])) (x2 : ∃ acc, saxRun .lt en = (.text acc, [.stop e])) :
    EvenPart ('<' :: op ++ (t.flatMap escChar ++ '<' :: en)) := by
  refine ⟨'<' :: op ++ (t.flatMap escChar ++ '<' :: en), ?_, ?_⟩
  · exact (Quot.lit hq1).append ((Quot.text (escs_no_quote t) (escs_no_lt t) (escs_cr (fun hm => (ht _ hm).2 rfl))).append (Quot.lit hq2))
  · obtain ⟨a2, x2⟩ := x2
    exact Even.elem (t := e) (Bal.tag x1 rfl) (Bal.esc ht _) (Bal.tag x2 (by simp [nest]))

theorem h1_even {t : Str} (ht : Carriable t) : EvenPart (h1Open ++ (t.flatMap escChar ++ hEnd)) :=
  heading_even (op := c!"text:h text:style-name=\"Heading_20_1\" text:outline-level=\"1\">") (en := c!"/text:h>\n") (e := c!"text:h") (as := [(c!"text:style-name", c!"Heading_20_1"), (c!"text:outline-level", c!"1")]) ht
    (by decide) (by decide) (by decide +kernel) ⟨c!"\n", by decide +kernel⟩

theorem h2_even {t : Str} (ht : Carriable t) : EvenPart (h2Open ++ (t.flatMap escChar ++ hEnd)) :=
  heading_even (op := c!"text:h text:style-name=\"Heading_20_2\" text:outline-level=\"2\">") (en := c!"/text:h>\n") (e := c!"text:h") (as := [(c!"text:style-name", c!"Heading_20_2"), (c!"text:outline-level", c!"2")]) ht
    (by decide) (by decide) (by decide +kernel) ⟨c!"\n", by decide +kernel⟩

theorem h3_even {t : Str} (ht : Carriable t) : EvenPart (h3Open ++ (t.flatMap escChar ++ hEnd)) :=
  heading_even (op := c!"text:h text:style-name=\"Invisible_20_Heading_20_3\" text:outline-level=\"3\">") (en := c!"/text:h>\n") (e := c!"text:h") (as := [(c!"text:style-name", c!"Invisible_20_Heading_20_3"), (c!"text:outline-level", c!"3")]) ht
    (by decide) (by decide) (by decide +kernel) ⟨c!"\n", by decide +kernel⟩

theorem divider_even : EvenPart starsDivider :=
  heading_even (op := c!"text:p text:style-name=\"Heading_20_4\">") (t := c!"* * *") (en := c!"/text:p>\n") (e := c!"text:p") (as := [(c!"text:style-name", c!"Heading_20_4")]) (by unfold Carriable; decide)
    (by decide) (by decide) (by decide +kernel) ⟨c!"\n", by decide +kernel⟩

theorem title_even {t : Str} (ht : Carriable t) : EvenPart (c!"<text:p text:style-name=\"Title\">" ++ (t.flatMap escChar ++ c!"</text:p>\n")) :=
  heading_even (op := c!"text:p text:style-name=\"Title\">") (en := c!"/text:p>\n") (e := c!"text:p") (as := [(c!"text:style-name", c!"Title")]) ht
    (by decide) (by decide) (by decide +kernel) ⟨c!"\n", by decide +kernel⟩

theorem subtitle_even {t : Str} (ht : Carriable t) : EvenPart (c!"<text:p text:style-name=\"Subtitle\">" ++ (t.flatMap escChar ++ c!"</text:p>\n")) :=
  heading_even (op := c!"text:p text:style-name=\"Subtitle\">") (en := c!"/text:p>\n") (e := c!"text:p") (as := [(c!"text:style-name", c!"Subtitle")]) ht
    (by decide) (by decide) (by decide +kernel) ⟨c!"\n", by decide +kernel⟩

theorem section_even {pre id : Str} (hp : pre = c!"ScID:" ∨ pre = c!"ChID:") (h : NumId id) {mid : Str} (hm : EvenPart mid) :
    EvenPart (secOpen (pre ++ id) ++ (mid ++ secEnd)) := by
  obtain ⟨t, q, hb⟩ := hm
  refine ⟨secOpen (pre ++ id) ++ (t ++ secEnd), (secOpen_quot hp h).append (q.append (Quot.lit (by decide))), ?_⟩
  obtain ⟨o, e1, x1⟩ := secOpen_sax (secName_plain hp h)
  refine Even.elem (t := c!"text:section") ?_ hb ?_
  · rw [e1]
    exact Bal.tag x1 rfl
  · exact Bal.tag (t := c!"/text:section>\n") (acc' := c!"\n") (evs := [.stop c!"text:section"]) (by decide +kernel) (by simp [nest])

theorem scene_even {id : Str} (hid : NumId id) (hL : ∀ l ∈ ls, LangCode l) (hf : (formats ls).Nodup) (hA : AuthorOk author) {ps : List Piece} (hm : Mendables ls ps) {st : Str}
    (hst : st = indStyle ∨ st = bodyStyle) :
    EvenPart (secOpen (c!"ScID:" ++ id) ++
      ((pOpen st ++ formattedConvert (spanReplacements ++ commentReplacements author) ls (some (rawText ps)) false ++ pEnd) ++ (c!"\n" ++ secEnd))) := by
  have := section_even (.inl rfl) hid ((paragraphs_even hL hf hA hm hst).append (s2 := c!"\n") ⟨c!"\n", Quot.lit (by decide), Bal.plain (by decide) _⟩)
  rw [List.append_assoc] at this
  exact this

theorem sceneText_even (e : DocEnv) {n : Novel} (hn : Exportable n) (hls : n.languages.getD [] = ls) (hL : ∀ l ∈ ls, LangCode l) (hf : (formats ls).Nodup) (hA : AuthorOk n.authorName)
    {p : Str × Scene} (hp : n.scenes.get? p.1 = some p.2) (hmem : p.1 ∈ narrative n) (hc : SceneWritable ls p) (before : List (Str × Scene)) (first : Bool) :
    EvenPart (Spec.sceneText (odtManuscript e) n before first p).flatten := by
  obtain ⟨ps, hps, hN⟩ := hc.text
  obtain ⟨m, hm, h1, h2, h3⟩ := sceneMapping_values e hn hmem hp (before ++ [p]).length (total (·.wordCount) (before ++ [p])) (total (·.letterCount) (before ++ [p]))
  obtain ⟨t', ht1, ht2⟩ := conv_title e n hc.title
  have h3' : m.get? c!"SceneContent" = some (formattedConvert (spanReplacements ++ commentReplacements n.authorName) ls (some (rawText ps)) false) := by
    rw [h3, ← hps, ← hls]
    cases hsc : p.2.sceneContent with
    | none => rfl
    | some t => rfl
  rw [ht1] at h1
  have key : ∀ st, st = indStyle ∨ st = bodyStyle → EvenPart ((h3Open ++ (t'.flatMap escChar ++ hEnd)) ++ (secOpen (c!"ScID:" ++ p.1) ++
      ((pOpen st ++ formattedConvert (spanReplacements ++ commentReplacements n.authorName) ls (some (rawText ps)) false ++ pEnd) ++ (c!"\n" ++ secEnd)))) := by
    intro st hst
    exact (h3_even ht2).append (scene_even hc.number hL hf hA hN hst)
  unfold Spec.sceneText
  simp only [hm, filled]
  have body : EvenPart (subst (if (!first && p.2.appendToPrev == some true && decide ((odtManuscript e).appendedScene ≠ [])) = true then (odtManuscript e).appendedScene else (odtManuscript e).scene) m) := by
    split
    · rw [show (odtManuscript e).appendedScene = manuscriptTemplates.appendedScene from rfl, subst_appended h1 h2 h3']
      exact key _ (.inl rfl)
    · rw [show (odtManuscript e).scene = manuscriptTemplates.scene from rfl, subst_scene h1 h2 h3']
      exact key _ (.inr rfl)
  rw [List.flatten_append]
  refine EvenPart.append ?_ ?_
  · split
    · exact EvenPart.nil
    · rw [List.flatten_cons, List.flatten_nil, List.append_nil]
      exact divider_even
  · rw [List.flatten_cons, List.flatten_nil, List.append_nil]
    exact body

theorem scenesText_even (e : DocEnv) {n : Novel} (hn : Exportable n) (hls : n.languages.getD [] = ls) (hL : ∀ l ∈ ls, LangCode l) (hf : (formats ls).Nodup) (hA : AuthorOk n.authorName)
    (l : List (Str × Scene)) (hp : ∀ p ∈ l, n.scenes.get? p.1 = some p.2 ∧ p.1 ∈ narrative n ∧ SceneWritable ls p) (before : List (Str × Scene)) (first : Bool) :
    EvenPart (Spec.scenesText (odtManuscript e) n before first l).flatten := by
  induction l generalizing before first with
  | nil => exact EvenPart.nil
  | cons p l ih =>
    unfold Spec.scenesText
    rw [List.flatten_append]
    obtain ⟨h1, h2, h3⟩ := hp p (by simp)
    exact (sceneText_even e hn hls hL hf hA h1 h2 h3 before first).append (ih (fun q hq => hp q (by simp [hq])) _ _)

theorem chapterText_even (e : DocEnv) {n : Novel} (hn : Exportable n) (hls : n.languages.getD [] = ls) (hL : ∀ l ∈ ls, LangCode l) (hf : (formats ls).Nodup) (hA : AuthorOk n.authorName)
    {id : Str} {ch : Chapter} (hid : id ∈ n.srtChapters) (hch : n.chapters.get? id = some ch)
    (hsh : chapterShown n ch = true) (hc : ChapterCarried id ch) (hp : ∀ p ∈ exportedIn n ch, SceneWritable ls p) (before : List Str) :
    EvenPart (Spec.chapterText (odtManuscript e) n before id).flatten := by
  unfold Spec.chapterText
  rw [hch]
  simp only
  rw [if_pos hsh]
  obtain ⟨m, t', e1, e2, e3, e4⟩ := chapterMapping_values e hch hc.title
    (if isPart (odtManuscript e).toTemplates ch = true then 0 else (numberedChapters (odtManuscript e).toTemplates n before).length + 1)
  rw [e1]
  simp only [filled]
  have p2 : ∃ hd, subst (if isPart (odtManuscript e).toTemplates ch = true then (odtManuscript e).part else (odtManuscript e).chapter) m = secOpen (c!"ChID:" ++ id) ++ hd ∧ EvenPart hd := by
    split
    · rw [show (odtManuscript e).part = manuscriptTemplates.part from rfl, subst_part e2 e4]
      exact ⟨_, rfl, h1_even e3⟩
    · rw [show (odtManuscript e).chapter = manuscriptTemplates.chapter from rfl, subst_chapter e2 e4]
      exact ⟨_, rfl, h2_even e3⟩
  have hmem : ∀ p ∈ exportedIn n ch, p.1 ∈ narrative n := by
    intro p hp
    unfold exportedIn at hp
    rw [List.mem_filter, List.mem_filterMap] at hp
    obtain ⟨⟨i, hi, h2⟩, _⟩ := hp
    cases hs : n.scenes.get? i with
    | none => rw [hs] at h2; cases h2
    | some s =>
      rw [hs] at h2
      cases h2
      unfold narrative
      rw [List.mem_flatMap]
      exact ⟨id, hid, by unfold scenesOf; rw [hch]; exact hi⟩
  have p3 := scenesText_even e hn hls hL hf hA (exportedIn n ch) (fun p hq => ⟨exportedIn_mem hq, hmem p hq, hp p hq⟩) (exported n before) true
  have e6 : (if (odtManuscript e).chapterEnd = [] then [] else [subst (odtManuscript e).chapterEnd m]) = [secEnd] := by
    rw [show (odtManuscript e).chapterEnd = secEnd from rfl, if_neg (by decide), subst_secEnd]
  obtain ⟨hd, e7, p2⟩ := p2
  rw [e6, e7, List.flatten_append, List.flatten_append, List.flatten_cons, List.flatten_nil, List.append_nil, List.flatten_cons, List.flatten_nil, List.append_nil]
  have := section_even (.inr rfl) hc.number (p2.append p3)
  simpa only [List.append_assoc] using this

/-- The chapters of a manuscript. -/
theorem manuscript_even (e : DocEnv) {n : Novel} (hn : Exportable n) (hls : n.languages.getD [] = ls) (hL : ∀ l ∈ ls, LangCode l) (hf : (formats ls).Nodup) (hA : AuthorOk n.authorName)
    (ids : List Str) (hids : ∀ id ∈ ids, id ∈ n.srtChapters)
    (hch : ∀ id ∈ ids, ∀ ch, n.chapters.get? id = some ch → chapterShown n ch = true → ChapterCarried id ch ∧ ∀ p ∈ exportedIn n ch, SceneWritable ls p) (before : List Str) :
    EvenPart (Spec.manuscript (odtManuscript e) n before ids).flatten := by
  induction ids generalizing before with
  | nil => exact EvenPart.nil
  | cons id ids ih =>
    unfold Spec.manuscript
    rw [List.flatten_append]
    obtain ⟨ch, hc⟩ := hn.chapters id (hids id (by simp))
    refine EvenPart.append ?_ (ih (fun i hi => hids i (by simp [hi])) (fun i hi => hch i (by simp [hi])) _)
    by_cases hsh : chapterShown n ch = true
    · obtain ⟨h1, h3⟩ := hch id (by simp) ch hc hsh
      exact chapterText_even e hn hls hL hf hA (hids id (by simp)) hc hsh h1 h3 before
    · have : Spec.chapterText (odtManuscript e) n before id = [] := by
        unfold Spec.chapterText
        rw [hc]
        simp only
        rw [if_neg hsh]
      rw [this]
      exact EvenPart.nil

/-! ### Header and footer -/

theorem style_even {l : Str} (hl : LangCode l) (i : Nat) : Even ('\n' :: languageStyle i l) := by
  obtain ⟨a, b, h1, h2, h3, h4, h5, h6⟩ := languageParts_code hl
  have ha : a.all plainAttr = true := List.all_eq_true.2 (fun c hc => alnum_plain (h5 c hc))
  have hb : b.all plainAttr = true := List.all_eq_true.2 (fun c hc => alnum_plain (h6 c hc))
  have e : '\n' :: languageStyle i l = c!"\n  " ++ (('<' :: (c!"style:style style:name=\"T" ++ (Str.ofNat i ++ c!"\" style:family=\"text\">\n   "))) ++
      ('<' :: (c!"style:text-properties fo:language=\"" ++ (a ++ (c!"\" fo:country=\"" ++ (b ++ (c!"\" style:language-asian=\"" ++ (a ++ (c!"\" style:country-asian=\"" ++
      (b ++ (c!"\" style:language-complex=\"" ++ (a ++ (c!"\" style:country-complex=\"" ++ (b ++ c!"\"/>\n  </style:style>")))))))))))))) := by
    unfold languageStyle
    rw [h1]
    simp only [List.flatten_cons, List.flatten_nil, List.append_nil]
    generalize Str.ofNat i = i
    show '\n' :: (c!"  <style:style style:name=\"T" ++ (i ++ (c!"\" style:family=\"text\">\n   <style:text-properties fo:language=\"" ++ _))) = _
    have e2 : ∀ x y z w : Str, x ++ (y ++ z) ++ w = x ++ (y ++ (z ++ w)) := by intro x y z w; simp
    show _ = c!"\n  <" ++ (c!"style:style style:name=\"T" ++ (i ++ c!"\" style:family=\"text\">\n   ") ++ _)
    rw [e2]
    rfl
  rw [e]
  refine Bal.append (b := []) (Bal.plain (by decide) _) (Bal.append (b := [c!"style:style"]) ?_ ?_)
  · exact Bal.tag (styleOpen_sax _ (digits_plain (digits_ofNat _)).1) rfl
  · exact Bal.tag (props_sax ha hb) (by simp [nest])

theorem styles_even (hL : ∀ l ∈ ls, LangCode l) (i : Nat) : Even ((languageStyles i ls).flatMap (fun s => '\n' :: s)) := by
  induction ls generalizing i with
  | nil => exact Even.nil
  | cons l ls ih =>
    unfold languageStyles
    rw [List.flatMap_cons]
    exact (style_even (hL l (by simp)) i).append (ih (fun x hx => hL x (by simp [hx])) (i + 1))

theorem automatic_even (hL : ∀ l ∈ ls, LangCode l) : Even (automaticStyles ls) := by
  by_cases hne : ls = []
  · subst hne
    exact Bal.tag (t := c!"office:automatic-styles/>") (acc' := []) (evs := [.start c!"office:automatic-styles" [], .stop c!"office:automatic-styles"]) (by decide +kernel) (by simp [nest])
  · rw [automaticStyles_eq hne]
    refine Even.elem (t := c!"office:automatic-styles") (Bal.tag (t := c!"office:automatic-styles>") (acc' := []) (evs := [.start c!"office:automatic-styles" []]) (by decide +kernel) rfl) (styles_even hL 1) ?_
    exact Bal.append (s1 := c!"\n ") (Bal.plain (by decide) _) (Bal.tag (t := c!"/office:automatic-styles>") (acc' := []) (evs := [.stop c!"office:automatic-styles"]) (by decide +kernel) (by simp [nest]))

/-- The footer without the end of the root. -/
def bodyEnd : Str := c!"  </office:text>\n </office:body>\n"

theorem body_even {s : Str} (h : Even s) : Even (odtHeadEnd ++ (s ++ bodyEnd)) := by
  refine Bal.append (b := [c!"office:text", c!"office:body"]) ?_ (Bal.append (h.more _) ?_)
  · intro acc
    refine ⟨c!"\n\n", saxPend (c!"\n ".reverse ++ acc) ++ [.start c!"office:body" [], .chars c!"\n  ", .start c!"office:text" [(c!"text:use-soft-page-breaks", c!"true")]], ?_, ?_⟩
    · have e : odtHeadEnd = c!"\n " ++ '<' :: c!"office:body>\n  <office:text text:use-soft-page-breaks=\"true\">\n\n" := by decide +kernel
      rw [e, saxRun_comp (saxRun_plain (by decide) acc) (saxRun_lt _ _)]
      have : saxRun .lt c!"office:body>\n  <office:text text:use-soft-page-breaks=\"true\">\n\n" = (.text c!"\n\n", [.start c!"office:body" [], .chars c!"\n  ", .start c!"office:text" [(c!"text:use-soft-page-breaks", c!"true")]]) := by decide +kernel
      rw [this]
      rfl
    · rw [nest_append, nest_pend]
      rfl
  · exact Bal.append (s1 := c!"  ") (Bal.plain (by decide) _) (Bal.tag (t := c!"/office:text>\n </office:body>\n") (acc' := c!"\n") (evs := [.stop c!"office:text", .chars c!"\n ", .stop c!"office:body"])
      (by decide +kernel) (by simp [nest]))

/-! ### The tree -/

theorem nest_run {evs : List Ev} {a a' : List Str} (h : nest a evs = some a') (fs : List XFrame) (g : XFrame) (gs : List XFrame) (r : Option XNode) (hf : fs.map XFrame.tag = a) :
    ∃ fs' g', XBld.run ⟨fs ++ g :: gs, r⟩ evs = some ⟨fs' ++ g' :: gs, r⟩ ∧ fs'.map XFrame.tag = a' ∧ g'.tag = g.tag := by
  induction evs generalizing a fs g with
  | nil =>
    cases h
    exact ⟨fs, g, rfl, hf, rfl⟩
  | cons e evs ih =>
    cases e with
    | start t as =>
      have hs : XBld.step ⟨fs ++ g :: gs, r⟩ (.start t as) = some ⟨(⟨t, as, []⟩ :: fs) ++ g :: gs, r⟩ := by
        cases fs <;> rfl
      obtain ⟨fs', g', h1, h2⟩ := ih (a := t :: a) h (⟨t, as, []⟩ :: fs) g (by rw [List.map_cons, hf])
      exact ⟨fs', g', by rw [XBld.run, hs]; exact h1, h2⟩
    | chars s =>
      cases fs with
      | nil =>
        obtain ⟨fs', g', h1, h2, h3⟩ := ih (a := a) (by simpa only [nest] using h) [] { g with kids := .text s :: g.kids } hf
        exact ⟨fs', g', h1, h2, h3⟩
      | cons f fs =>
        obtain ⟨fs', g', h1, h2, h3⟩ := ih (a := a) (by simpa only [nest] using h) ({ f with kids := .text s :: f.kids } :: fs) g hf
        exact ⟨fs', g', h1, h2, h3⟩
    | stop t =>
      cases fs with
      | nil =>
        rw [← hf] at h
        cases h
      | cons f fs =>
        rw [← hf] at h
        simp only [List.map_cons, nest] at h
        split at h
        · next e =>
          have e : f.tag = t := e.symm
          cases fs with
          | nil =>
            obtain ⟨fs', g', h1, h2, h3⟩ := ih h [] { g with kids := .elem f.tag f.attrs f.kids.reverse :: g.kids } rfl
            refine ⟨fs', g', ?_, h2, h3⟩
            rw [XBld.run]
            show Option.bind (XBld.step ⟨f :: g :: gs, r⟩ (.stop t)) _ = _
            simp only [XBld.step]
            rw [if_pos e]
            exact h1
          | cons f2 fs =>
            obtain ⟨fs', g', h1, h2, h3⟩ := ih h ({ f2 with kids := .elem f.tag f.attrs f.kids.reverse :: f2.kids } :: fs) g rfl
            refine ⟨fs', g', ?_, h2, h3⟩
            rw [XBld.run]
            show Option.bind (XBld.step ⟨f :: f2 :: (fs ++ g :: gs), r⟩ (.stop t)) _ = _
            simp only [XBld.step]
            rw [if_pos e]
            exact h1
        · cases h

set_option maxRecDepth 100000 in
theorem headStart_tree : (XBld.run {} (saxRun (.text []) odtHeadStart).2).map (fun b => (b.frames.map XFrame.tag, b.root.isNone)) = some ([c!"office:document-content"], true) := by
  decide +kernel

/-- A document with this beginning and this end is well-formed if what is between them opens and closes its elements. -/
theorem document_parses {s : Str} (h : Even s) (hr : '\r' ∉ odtHeadStart ++ (s ++ c!"</office:document-content>\n")) :
    (parseDoc (odtHeadStart ++ (s ++ c!"</office:document-content>\n"))).isSome = true := by
  obtain ⟨acc, evs, x, hn⟩ := h c!" \n"
  have h1 : saxRun (.text []) odtHeadStart = (.text c!" \n", (saxRun (.text []) odtHeadStart).2) := Prod.ext headStart_sax rfl
  have h3 : saxRun (.text acc) c!"</office:document-content>\n" = (.text c!"\n", saxPend acc ++ [.stop c!"office:document-content"]) := by
    show saxRun _ ('<' :: c!"/office:document-content>\n") = _
    rw [saxRun_lt]
    have : saxRun .lt c!"/office:document-content>\n" = (.text c!"\n", [.stop c!"office:document-content"]) := by decide +kernel
    rw [this]
  have hall := saxRun_comp h1 (saxRun_comp x h3)
  have hev : saxEvents (odtHeadStart ++ (s ++ c!"</office:document-content>\n")) =
      some (((saxRun (.text []) odtHeadStart).2 ++ (evs ++ (saxPend acc ++ [.stop c!"office:document-content"]))) ++ saxPend c!"\n") := by
    unfold saxEvents
    rw [normEol_id hr, hall]
  have ht := headStart_tree
  cases hb : XBld.run {} (saxRun (.text []) odtHeadStart).2 with
  | none => rw [hb] at ht; cases ht
  | some b =>
    rw [hb] at ht
    simp only [Option.map_some, Option.some.injEq, Prod.mk.injEq] at ht
    obtain ⟨fs, root⟩ := b
    obtain ⟨f1, f2⟩ := ht
    simp only at f1 f2
    cases fs with
    | nil => cases f1
    | cons g gs =>
      simp only [List.map_cons, List.cons.injEq, List.map_eq_nil_iff] at f1
      obtain ⟨f1, rfl⟩ := f1
      have hroot : root = none := by simpa using f2
      subst hroot
      obtain ⟨fs', g', r1, r2, r3⟩ := nest_run hn [] g [] none rfl
      rw [List.map_eq_nil_iff] at r2
      subst r2
      obtain ⟨fs2, g2, q1, q2, q3⟩ := nest_run (nest_pend [] acc) [] g' [] none rfl
      rw [List.map_eq_nil_iff] at q2
      subst q2
      have hg : g2.tag = c!"office:document-content" := by rw [q3, r3, f1]
      unfold parseDoc
      rw [hev]
      simp only [Option.bind_some]
      rw [XBld_run_append, XBld_run_append, hb, Option.bind_some, XBld_run_append]
      simp only [List.nil_append] at r1 q1
      rw [r1, Option.bind_some, XBld_run_append, q1, Option.bind_some]
      have e1 : XBld.run ⟨[g2], none⟩ [.stop c!"office:document-content"] = some ⟨[], some (.elem g2.tag g2.attrs g2.kids.reverse)⟩ := by
        simp only [XBld.run, XBld.step]
        rw [if_pos hg]
        rfl
      rw [e1]
      rfl

/-- A manuscript is a well-formed document. -/
theorem manuscript_parses (name path : Str) {n : Novel} (hn : Exportable n) (hi : Inherits n) (hw : ManuscriptWritable n) :
    ∃ text, formattedText (odtManuscript (formattedEnv name path)) n = .ok text ∧ (parseDoc text).isSome = true := by
  obtain ⟨e, he⟩ : ∃ e, e = formattedEnv name path := ⟨_, rfl⟩
  obtain ⟨ls, hls⟩ : ∃ ls, n.languages.getD [] = ls := ⟨_, rfl⟩
  have hL : ∀ l ∈ ls, LangCode l := by rw [← hls]; exact hw.languages
  have hf : (formats ls).Nodup := by
    have hd : ls.Nodup := by rw [← hls]; exact hw.distinct
    unfold formats
    rw [List.nodup_cons, List.nodup_cons]
    refine ⟨?_, ?_, ?_⟩
    · simp
    · simp
    · refine List.Pairwise.map _ ?_ hd
      intro a b hab e
      exact hab (List.append_cancel_left e)
  obtain ⟨t1, ht1, ht2⟩ := conv_title e n hw.title
  obtain ⟨a1, ha1, ha2⟩ := conv_title e n (author_carriable hw.author)
  obtain ⟨chs, hchs⟩ := getChapters_total hn (odtManuscript_total e hn)
  have hchs' : chs = Spec.manuscript (odtManuscript e) n [] n.srtChapters := getChapters_spec (C29_writers e).2.1 hi hchs
  have hh : ∃ hm, (odtManuscript e).headerMapping n = .ok hm ∧ hm.get? c!"ContentHeader" = some (formattedHeader ls) ∧ hm.get? c!"Title" = some (t1.flatMap escChar) ∧
      hm.get? c!"AuthorName" = some (a1.flatMap escChar) := by
    have h0 : e.formattedBase.header n = .ok _ := rfl
    refine ⟨_, rfl, ?_, ?_, ?_⟩
    · rw [Dict.get?_set_self, he, hls]
      rfl
    · rw [get?_set_other (by decide), ← ht1]
      rfl
    · rw [get?_set_other (by decide), ← ha1]
      rfl
  obtain ⟨hm, hm0, hm1, hm2, hm3⟩ := hh
  have htext : formattedText (odtManuscript e) n = .ok (quotations ([subst titleTemplate hm] ++ chs ++ [contentFooter]).flatten) := by
    unfold formattedText getFileHeader
    rw [hm0, hchs]
    rfl
  rw [subst_title hm1 hm2 hm3] at htext
  obtain ⟨b', qb, hb'⟩ : EvenPart (((c!"<text:p text:style-name=\"Title\">" ++ (t1.flatMap escChar ++ c!"</text:p>\n")) ++ (c!"<text:p text:style-name=\"Subtitle\">" ++ (a1.flatMap escChar ++ c!"</text:p>\n"))) ++
      chs.flatten) := by
    refine ((title_even ht2).append (subtitle_even ha2)).append ?_
    rw [hchs']
    refine manuscript_even e hn hls hL hf hw.author n.srtChapters (fun id h => h) ?_ []
    intro id hid ch hch hsh
    refine ⟨hw.chapters id hid ch hch hsh, ?_⟩
    intro p hp
    rw [← hls]
    refine hw.scenes p ?_
    unfold exported
    rw [List.mem_flatMap]
    exact ⟨id, hid, by rw [hch]; exact hp⟩
  obtain ⟨body, hbody⟩ : ∃ b, b = ((c!"<text:p text:style-name=\"Title\">" ++ (t1.flatMap escChar ++ c!"</text:p>\n")) ++ (c!"<text:p text:style-name=\"Subtitle\">" ++ (a1.flatMap escChar ++ c!"</text:p>\n"))) ++
        chs.flatten := ⟨_, rfl⟩
  have etext : ([formattedHeader ls ++ ((c!"<text:p text:style-name=\"Title\">" ++ (t1.flatMap escChar ++ c!"</text:p>\n")) ++ (c!"<text:p text:style-name=\"Subtitle\">" ++ (a1.flatMap escChar ++ c!"</text:p>\n")))] ++ chs ++
      [contentFooter]).flatten = formattedHeader ls ++ (body ++ contentFooter) := by
    rw [hbody, List.flatten_append, List.flatten_append, List.flatten_cons, List.flatten_nil, List.append_nil, List.flatten_cons, List.flatten_nil, List.append_nil]
    simp only [List.append_assoc]
  rw [etext] at htext
  rw [← hbody] at qb
  have qall : Quot (formattedHeader ls ++ (body ++ contentFooter)) (formattedHeader ls ++ (b' ++ contentFooter)) := (Quot.header hL).append (qb.append (Quot.lit (by decide)))
  rw [quotations_eq qall] at htext
  refine ⟨_, by rw [← he]; exact htext, ?_⟩
  have e2 : formattedHeader ls ++ (b' ++ contentFooter) = odtHeadStart ++ ((automaticStyles ls ++ (odtHeadEnd ++ (b' ++ bodyEnd))) ++ c!"</office:document-content>\n") := by
    have : contentFooter = bodyEnd ++ c!"</office:document-content>\n" := rfl
    rw [this, formattedHeader_eq]
    generalize c!"</office:document-content>\n" = z
    simp only [List.append_assoc]
  have hcr := qall.2.2
  rw [e2] at hcr ⊢
  exact document_parses ((automatic_even hL).append (body_even hb')) hcr

end Verif
