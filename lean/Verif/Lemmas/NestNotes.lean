/-
Well-formedness of the documents with notes and to-do lists (C31).
-/
import Verif.Spec.NotesWritable
import Verif.Lemmas.NestDoc
import Verif.Lemmas.Notes2

namespace Verif
open Spec Re Template

variable {ls : List Str} {type : Nat}

theorem n3_even {t : Str} (ht : Carriable t) : EvenPart (n3Open ++ (t.flatMap escChar ++ hEnd)) :=
  heading_even (op := c!"text:h text:style-name=\"Heading_20_3\" text:outline-level=\"3\">") (en := c!"/text:h>\n") (e := c!"text:h") (as := [(c!"text:style-name", c!"Heading_20_3"), (c!"text:outline-level", c!"3")]) ht
    (by decide) (by decide) (by decide +kernel) ⟨c!"\n", by decide +kernel⟩

theorem noteScene_even (e : DocEnv) {n : Novel} (hn : Exportable n) (hls : n.languages.getD [] = ls) (hL : ∀ l ∈ ls, LangCode l) (hd : (formats ls).Nodup) (hA : AuthorOk n.authorName)
    {p : Str × Scene} (hp : n.scenes.get? p.1 = some p.2) (hmem : p.1 ∈ narrative n) (hc : SceneWritable ls p)
    {k w l : Nat} {m : Mapping} (hm : (odtManuscript e).sceneMapping n p.1 k w l = .ok m) : EvenPart (subst noteSceneTemplate m) := by
  obtain ⟨ps, hps, hN⟩ := hc.text
  obtain ⟨m', hm', h1, h2, h3⟩ := sceneMapping_values e hn hmem hp k w l
  rw [hm] at hm'
  cases hm'
  obtain ⟨t', ht1, ht2⟩ := conv_title e n hc.title
  have h3' : m.get? c!"SceneContent" = some (formattedConvert (spanReplacements ++ commentReplacements n.authorName) ls (some (rawText ps)) false) := by
    rw [h3, ← hps, ← hls]
    cases hsc : p.2.sceneContent with
    | none => rfl
    | some t => rfl
  rw [ht1] at h1
  rw [subst_note h1 h2 h3']
  exact (n3_even ht2).append (scene_even hc.number hL hd hA hN (.inr rfl))

theorem asideScenes_even {e : DocEnv} {x : Exporter} (hx : AsideDoc e type x) {n : Novel} (hn : Exportable n) (hls : n.languages.getD [] = ls) (hL : ∀ l ∈ ls, LangCode l)
    (hd : (formats ls).Nodup) (hA : AuthorOk n.authorName) (ct : Option Nat) (ne : Bool) : ∀ (ids : List Str) (first : Bool) (k : Counters) (q : List Str × Counters),
    (∀ i ∈ ids, i ∈ narrative n) → (∀ p ∈ asideIn type n ids, SceneWritable ls p) → scenesLoop x n ct ne first k ids = .ok q → EvenPart q.1.flatten := by
  intro ids
  induction ids with
  | nil =>
    intro first k q _ _ h
    cases h
    exact EvenPart.nil
  | cons id ids ih =>
    intro first k q hmem hc h
    obtain ⟨s, hs, _⟩ := hn.scenes id (hmem id (by simp))
    rw [scenesLoop] at h
    rw [Dict.get!_of hs] at h
    simp only [Bind.bind, Except.bind] at h
    rw [asideIn_cons n hs] at hc
    have hmem' : ∀ i ∈ ids, i ∈ narrative n := fun i hi => hmem i (by simp [hi])
    by_cases ht : s.scType = some type
    · rw [if_pos ht] at hc
      rw [hx.sceneYes ct ne first s ht] at h
      simp only at h
      split at h
      · cases h
      · rename_i m hm
        split at h
        · cases h
        · rename_i rest hrest
          cases h
          rw [hx.sceneMap] at hm
          rw [hx.divider, hx.first]
          have e1 : ((if first = true ∨ s.appendToPrev = some true then [] else [[]]) ++ subst (if first = true ∧ ([] : Str) ≠ [] then [] else noteSceneTemplate) m :: rest.1).flatten =
              subst noteSceneTemplate m ++ rest.1.flatten := by
            have e0 : (if first = true ∧ ([] : Str) ≠ [] then [] else noteSceneTemplate) = noteSceneTemplate := if_neg (fun hh => hh.2 rfl)
            rw [e0, List.flatten_append, List.flatten_cons]
            split <;> rfl
          refine e1 ▸ ?_
          exact (noteScene_even e hn hls hL hd hA hs (hmem id (by simp)) (hc (id, s) (by simp)) hm).append (ih _ _ rest hmem' (fun p hp => hc p (by simp [hp])) hrest)
    · rw [if_neg ht] at hc
      rcases hx.sceneNo ct ne first s ht with hn' | hs'
      · rw [hn'] at h
        exact ih _ _ q hmem' hc h
      · rw [hs'] at h
        simp only at h
        split at h
        · cases h
        · rename_i m hm
          split at h
          · cases h
          · rename_i rest hrest
            cases h
            rw [hx.divider, hx.first]
            have e1 : ((if first = true ∨ s.appendToPrev = some true then [] else [[]]) ++ subst (if first = true ∧ ([] : Str) ≠ [] then [] else []) m :: rest.1).flatten = rest.1.flatten := by
              have e0 : (if first = true ∧ ([] : Str) ≠ [] then [] else ([] : Str)) = [] := if_neg (fun hh => hh.2 rfl)
              rw [e0, List.flatten_append, List.flatten_cons]
              split <;> rfl
            exact e1 ▸ ih _ _ rest hmem' hc hrest

theorem asideChapters_even {e : DocEnv} {x : Exporter} (hx : AsideDoc e type x) {n : Novel} (hn : Exportable n) (hls : n.languages.getD [] = ls) (hL : ∀ l ∈ ls, LangCode l)
    (hd : (formats ls).Nodup) (hA : AuthorOk n.authorName) : ∀ (ids : List Str) (c : Nat) (k : Counters) (q : List Str),
    (∀ i ∈ ids, i ∈ n.srtChapters) →
    (∀ id ∈ ids, ∀ ch, n.chapters.get? id = some ch → (ch.chType = some type → ChapterCarried id ch) ∧ ∀ p ∈ asideIn type n ch.srtScenes, SceneWritable ls p) →
    chaptersLoop x n c k ids = .ok q → EvenPart q.flatten := by
  intro ids
  induction ids with
  | nil =>
    intro c k q _ _ h
    cases h
    exact EvenPart.nil
  | cons id ids ih =>
    intro c k q hids hch h
    obtain ⟨ch, hc⟩ := hn.chapters id (hids id (by simp))
    rw [chaptersLoop] at h
    rw [Dict.get!_of hc] at h
    simp only [Bind.bind, Except.bind] at h
    split at h
    · cases h
    rename_i ne hne
    split at h
    · cases h
    rename_i head hhead
    split at h
    · cases h
    rename_i sc hsc
    split at h
    · cases h
    rename_i tail htail
    split at h
    · cases h
    rename_i rest hrest
    cases h
    obtain ⟨h1, h2⟩ := hch id (by simp) ch hc
    have hmem : ∀ i ∈ ch.srtScenes, i ∈ narrative n := by
      intro i hi
      unfold narrative
      rw [List.mem_flatMap]
      exact ⟨id, hids id (by simp), by unfold scenesOf; rw [hc]; exact hi⟩
    have p3 := asideScenes_even hx hn hls hL hd hA ch.chType ne ch.srtScenes true k sc hmem h2 hsc
    have p5 := fun c k q h => ih c k q (fun i hi => hids i (by simp [hi])) (fun i hi => hch i (by simp [hi])) h
    simp only [List.flatten_append]
    by_cases ht : ch.chType = some type
    · have g1 := h1 ht
      rw [hx.headYes ne ch ht] at hhead hrest
      rw [hx.endYes ne ch ht] at htail
      unfold chapterLine at hhead htail
      simp only [Bind.bind, Except.bind] at hhead htail
      obtain ⟨m, t', e1, e2, e3, e4⟩ := chapterMapping_values e hc g1.title (if (chapterTemplate x.toTemplates ch ne).2 = true then (if (chapterTemplate x.toTemplates ch ne).2 = true then c + 1 else c) else 0)
      rw [← hx.chapterMap, hx.headYes ne ch ht] at e1
      rw [e1] at hhead
      rw [hx.headYes ne ch ht, e1] at htail
      cases hhead
      cases htail
      have p2 : ∃ hd, [subst (if ch.chLevel = some 1 then manuscriptTemplates.part else manuscriptTemplates.chapter) m].flatten = secOpen (c!"ChID:" ++ id) ++ hd ∧ EvenPart hd := by
        rw [List.flatten_cons, List.flatten_nil, List.append_nil]
        split
        · rw [subst_part e2 e4]
          exact ⟨_, rfl, h1_even e3⟩
        · rw [subst_chapter e2 e4]
          exact ⟨_, rfl, h2_even e3⟩
      obtain ⟨hd', e5, p2⟩ := p2
      have e6 : [subst secEnd m].flatten = secEnd := by rw [subst_secEnd]; rfl
      have p4 := (section_even (.inr rfl) g1.number (p2.append p3)).append (p5 _ _ rest hrest)
      rw [e5, e6]
      simpa only [List.append_assoc] using p4
    · have ehead : head.flatten = [] := by
        rcases hx.headNo ne ch ht with h0 | h0
        · rw [h0] at hhead
          cases hhead
          rfl
        · rw [h0] at hhead
          unfold chapterLine at hhead
          simp only [Bind.bind, Except.bind] at hhead
          split at hhead
          · cases hhead
          · cases hhead
            rfl
      rw [hx.endNo ne ch ht] at htail
      cases htail
      rw [ehead, List.flatten_nil, List.append_nil, List.nil_append]
      exact p3.append (p5 _ _ rest hrest)

/-- A document with the header of the formatted documents is well-formed if the chapters are. -/
theorem formatted_parses (name path : Str) {x : Exporter} (hx1 : x.headerMapping = (odtManuscript (formattedEnv name path)).headerMapping) (hx2 : x.fileHeader = titleTemplate) (hx3 : x.fileFooter = contentFooter)
    {n : Novel} (hlang : ∀ l ∈ n.languages.getD [], LangCode l) (hauth : AuthorOk n.authorName) (htitle : ∀ t, n.title = some t → Carriable t)
    {chs : List Str} (hchs : getChapters x n = .ok chs) (heven : EvenPart chs.flatten) :
    ∃ text, formattedText x n = .ok text ∧ (parseDoc text).isSome = true := by
  obtain ⟨e, he⟩ : ∃ e, e = formattedEnv name path := ⟨_, rfl⟩
  rw [← he] at hx1
  obtain ⟨ls, hls⟩ : ∃ ls, n.languages.getD [] = ls := ⟨_, rfl⟩
  have hL : ∀ l ∈ ls, LangCode l := by rw [← hls]; exact hlang
  obtain ⟨t1, ht1, ht2⟩ := conv_title e n htitle
  obtain ⟨a1, ha1, ha2⟩ := conv_title e n (author_carriable hauth)
  have hh : ∃ hm, (odtManuscript e).headerMapping n = .ok hm ∧ hm.get? c!"ContentHeader" = some (formattedHeader ls) ∧ hm.get? c!"Title" = some (t1.flatMap escChar) ∧
      hm.get? c!"AuthorName" = some (a1.flatMap escChar) := by
    have h0 : e.formattedBase.header n = .ok _ := rfl
    refine ⟨_, rfl, ?_, ?_, ?_⟩
    · rw [Dict.get?_set_self, he, hls]
      rfl
    · rw [get?_set_other (by decide), ← ht1]
      rfl
    · rw [get?_set_other (by decide), ← ha1]
      rfl
  obtain ⟨hm, hm0, hm1, hm2, hm3⟩ := hh
  have htext : formattedText x n = .ok (quotations ([subst titleTemplate hm] ++ chs ++ [contentFooter]).flatten) := by
    unfold formattedText getFileHeader
    rw [hx1, hm0, hchs, hx2, hx3]
    rfl
  rw [subst_title hm1 hm2 hm3] at htext
  obtain ⟨b', qb, hb'⟩ : EvenPart (((c!"<text:p text:style-name=\"Title\">" ++ (t1.flatMap escChar ++ c!"</text:p>\n")) ++ (c!"<text:p text:style-name=\"Subtitle\">" ++ (a1.flatMap escChar ++ c!"</text:p>\n"))) ++
      chs.flatten) := ((title_even ht2).append (subtitle_even ha2)).append heven
  obtain ⟨body, hbody⟩ : ∃ b, b = ((c!"<text:p text:style-name=\"Title\">" ++ (t1.flatMap escChar ++ c!"</text:p>\n")) ++ (c!"<text:p text:style-name=\"Subtitle\">" ++ (a1.flatMap escChar ++ c!"</text:p>\n"))) ++
        chs.flatten := ⟨_, rfl⟩
  have etext : ([formattedHeader ls ++ ((c!"<text:p text:style-name=\"Title\">" ++ (t1.flatMap escChar ++ c!"</text:p>\n")) ++ (c!"<text:p text:style-name=\"Subtitle\">" ++ (a1.flatMap escChar ++ c!"</text:p>\n")))] ++ chs ++
      [contentFooter]).flatten = formattedHeader ls ++ (body ++ contentFooter) := by
    rw [hbody, List.flatten_append, List.flatten_append, List.flatten_cons, List.flatten_nil, List.append_nil, List.flatten_cons, List.flatten_nil, List.append_nil]
    simp only [List.append_assoc]
  rw [etext] at htext
  rw [← hbody] at qb
  have qall : Quot (formattedHeader ls ++ (body ++ contentFooter)) (formattedHeader ls ++ (b' ++ contentFooter)) := (Quot.header hL).append (qb.append (Quot.lit (by decide)))
  rw [quotations_eq qall] at htext
  refine ⟨_, htext, ?_⟩
  have e2 : formattedHeader ls ++ (b' ++ contentFooter) = odtHeadStart ++ ((automaticStyles ls ++ (odtHeadEnd ++ (b' ++ bodyEnd))) ++ c!"</office:document-content>\n") := by
    have : contentFooter = bodyEnd ++ c!"</office:document-content>\n" := rfl
    rw [this, formattedHeader_eq]
    generalize c!"</office:document-content>\n" = z
    simp only [List.append_assoc]
  have hcr := qall.2.2
  rw [e2] at hcr ⊢
  exact document_parses ((automatic_even hL).append (body_even hb')) hcr

theorem aside_parses (name path : Str) {x : Exporter} (hx : AsideDoc (formattedEnv name path) type x) {n : Novel} (hn : Exportable n) (hw : NotesWritable type n) :
    ∃ text, formattedText x n = .ok text ∧ (parseDoc text).isSome = true := by
  obtain ⟨chs, hchs⟩ := getChapters_total hn (hx.total hn)
  refine formatted_parses name path hx.headerMap hx.header hx.footer hw.languages hw.author hw.title hchs ?_
  refine asideChapters_even hx hn rfl hw.languages (formats_nodup hw.distinct) hw.author n.srtChapters 0 {} chs (fun i h => h) ?_ hchs
  intro id hid ch hch
  refine ⟨?_, ?_⟩
  · intro ht
    exact hw.chapters id (by
      unfold asideChapters
      rw [List.mem_filter, hch]
      exact ⟨hid, by simpa using ht⟩) ch hch
  · intro p hp
    refine hw.scenes p ?_
    unfold asideOf
    rw [List.mem_flatMap]
    exact ⟨id, hid, by rw [hch]; exact hp⟩

end Verif
