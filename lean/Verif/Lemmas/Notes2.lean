/-
Reading the documents with notes and to-do lists again: the whole document.
-/
import Verif.Lemmas.Notes1

namespace Verif
open Spec Re Template

variable {ty : Nat}

theorem asideIn_mem {n : Novel} {ids : List Str} {p : Str × Scene} (h : p ∈ asideIn ty n ids) : n.scenes.get? p.1 = some p.2 := by
  unfold asideIn at h
  rw [List.mem_filter, List.mem_filterMap] at h
  obtain ⟨⟨i, hi, h2⟩, _⟩ := h
  cases hs : n.scenes.get? i with
  | none => rw [hs] at h2; cases h2
  | some s =>
    rw [hs] at h2
    cases h2
    exact hs

theorem asideIn_type {n : Novel} {ids : List Str} {p : Str × Scene} (h : p ∈ asideIn ty n ids) : p.2.scType = some ty := by
  unfold asideIn at h
  simpa using (List.mem_filter.1 h).2

theorem asideOf_mem {n : Novel} {ids : List Str} {p : Str × Scene} (h : p ∈ asideOf ty n ids) : n.scenes.get? p.1 = some p.2 ∧ p.2.scType = some ty := by
  unfold asideOf at h
  rw [List.mem_flatMap] at h
  obtain ⟨i, _, h⟩ := h
  split at h
  · exact ⟨asideIn_mem h, asideIn_type h⟩
  · cases h

theorem asideBack_spec {n : Novel} (ids : List Str) (m : Novel) : ∃ s c, asideBack ty n ids m = { m with scenes := s, chapters := c } ∧ s.keys = m.scenes.keys ∧
    c.keys = m.chapters.keys ∧ (∀ k, s.get? k = if k ∈ (asideOf ty n ids).map Prod.fst then (m.scenes.get? k).map (received ty (Spec.textOf n.scenes k)) else m.scenes.get? k) ∧
    (∀ k, c.get? k = if k ∈ asideChapters ty n ids then (m.chapters.get? k).map (fun ch => { ch with chType := some ty }) else m.chapters.get? k) := by
  induction ids generalizing m with
  | nil => exact ⟨m.scenes, m.chapters, rfl, rfl, rfl, fun k => rfl, fun k => rfl⟩
  | cons id ids ih =>
    unfold asideBack
    cases hch : n.chapters.get? id with
    | none =>
      obtain ⟨s, c, h1, h2, h3, h4, h5⟩ := ih m
      have e1 : asideOf ty n (id :: ids) = asideOf ty n ids := by
        unfold asideOf
        rw [List.flatMap_cons, hch]
        rfl
      have e2 : asideChapters ty n (id :: ids) = asideChapters ty n ids := by
        unfold asideChapters
        rw [List.filter_cons, hch]
        rfl
      rw [e1, e2]
      exact ⟨s, c, h1, h2, h3, h4, h5⟩
    | some ch =>
      simp only
      have e1 : asideOf ty n (id :: ids) = asideIn ty n ch.srtScenes ++ asideOf ty n ids := by
        unfold asideOf
        rw [List.flatMap_cons, hch]
      obtain ⟨m1, hm1⟩ : ∃ m1, m1 = (if ch.chType = some ty then chapterBack ty id m else m) := ⟨_, rfl⟩
      rw [← hm1]
      have hs1 : m1.scenes = m.scenes := by rw [hm1]; split <;> rfl
      have hk1 : m1.chapters.keys = m.chapters.keys := by
        rw [hm1]
        split
        · exact Dict.keys_modify ..
        · rfl
      have hf1 : ∀ s c, ({ m1 with scenes := s, chapters := c } : Novel) = { m with scenes := s, chapters := c } := by
        intro s c
        rw [hm1]
        split <;> rfl
      obtain ⟨s, c, h1, h2, h3, h4, h5⟩ := ih (scenesBack ty (asideIn ty n ch.srtScenes) m1)
      obtain ⟨s1, g1, g2⟩ := scenesBack_frame (type := ty) (asideIn ty n ch.srtScenes) m1
      have g3 := scenesBack_get (type := ty) (asideIn ty n ch.srtScenes) (fun p hp => asideIn_mem hp) m1
      rw [e1]
      refine ⟨s, c, ?_, ?_, ?_, ?_, ?_⟩
      · rw [h1, g1]
        exact hf1 s c
      · rw [h2, g1, ← hs1]
        exact g2
      · rw [h3, g1]
        exact hk1
      · intro k
        rw [h4, g3, hs1, List.map_append]
        by_cases k1 : k ∈ (asideIn ty n ch.srtScenes).map Prod.fst
        · rw [if_pos k1, if_pos (c := k ∈ _ ++ _) (List.mem_append_left _ k1), Option.map_map]
          split
          · rfl
          · rfl
        · rw [if_neg k1]
          by_cases k2 : k ∈ (asideOf ty n ids).map Prod.fst
          · rw [if_pos k2, if_pos (List.mem_append_right _ k2)]
          · rw [if_neg k2, if_neg]
            rw [List.mem_append]
            rintro (h | h)
            · exact k1 h
            · exact k2 h
      · intro k
        rw [h5, g1]
        show (if k ∈ _ then (m1.chapters.get? k).map _ else m1.chapters.get? k) = _
        by_cases ht : ch.chType = some ty
        · rw [if_pos ht] at hm1
          have e2 : asideChapters ty n (id :: ids) = id :: asideChapters ty n ids := by
            unfold asideChapters
            rw [List.filter_cons, hch]
            simp only
            rw [if_pos (by simpa using ht)]
          rw [e2, hm1]
          show (if k ∈ _ then ((m.chapters.modify id _).get? k).map _ else (m.chapters.modify id _).get? k) = _
          rw [Dict.get?_modify]
          by_cases k1 : id = k
          · rw [if_pos k1, if_pos (c := k ∈ id :: _) (by simp [k1]), Option.map_map]
            split
            · rfl
            · rfl
          · rw [if_neg k1]
            by_cases k2 : k ∈ asideChapters ty n ids
            · rw [if_pos k2, if_pos (List.mem_cons_of_mem _ k2)]
            · rw [if_neg k2, if_neg]
              rw [List.mem_cons]
              rintro (h | h)
              · exact k1 h.symm
              · exact k2 h
        · rw [if_neg ht] at hm1
          have e2 : asideChapters ty n (id :: ids) = asideChapters ty n ids := by
            unfold asideChapters
            rw [List.filter_cons, hch]
            simp only
            rw [if_neg (by simpa using ht)]
          rw [e2, hm1]

/-- Where the texts are already there, nothing changes. -/
theorem asideBack_same {n m : Novel} (hs : m.scenes = n.scenes) (hc : m.chapters = n.chapters) (ids : List Str)
    (h2 : ∀ p ∈ asideOf ty n ids, ∃ t, p.2.sceneContent = some t ∧ p.2.wordCount = wordCountOf t ∧ p.2.letterCount = letterCountOf t) :
    asideBack ty n ids m = m := by
  induction ids with
  | nil => rfl
  | cons id ids ih =>
    have e1 : ∀ p ∈ asideOf ty n ids, p ∈ asideOf ty n (id :: ids) := by
      intro p hp
      unfold asideOf at hp ⊢
      rw [List.flatMap_cons]
      exact List.mem_append_right _ hp
    have ih' := ih (fun p hp => h2 p (e1 p hp))
    unfold asideBack
    cases hch : n.chapters.get? id with
    | none => exact ih'
    | some ch =>
      simp only
      have hb : (if ch.chType = some ty then chapterBack ty id m else m) = m := by
        split
        · rename_i ht
          unfold chapterBack
          rw [Dict.modify_same (x := ch) (by rw [hc]; exact hch) (by rw [← ht])]
        · rfl
      rw [hb, scenesBack_same]
      · exact ih'
      · intro p hp
        refine ⟨by rw [hs]; exact asideIn_mem hp, asideIn_type hp, h2 p ?_⟩
        unfold asideOf
        rw [List.flatMap_cons, hch]
        exact List.mem_append_left _ hp

/-- The document, and what reading it does from any state outside of scenes (see `manuscript_document`). -/
theorem aside_document (name path : Str) {x : Exporter} (hx : AsideDoc (formattedEnv name path) ty x) {n m : Novel} (hn : Exportable n) (hf : AsideFits ty n m) :
    ∃ text evs, formattedText x n = .ok text ∧ saxEvents text = some evs ∧
      ∀ r, Outside r → r.chId = none → r.novel.chapters = m.chapters → r.novel.scenes = m.scenes → ∃ langs, (∀ l ∈ langs, l ∈ n.languages.getD []) ∧
        ∃ p, Goes (manuscriptReader ty) {} (rdAt r [] [] []) evs p (rdAt (atNovel r (asideBack ty n n.srtChapters r.novel)) [] [] langs) := by
  obtain ⟨e, he⟩ : ∃ e, e = formattedEnv name path := ⟨_, rfl⟩
  rw [← he] at hx
  obtain ⟨ls, hls⟩ : ∃ ls, n.languages.getD [] = ls := ⟨_, rfl⟩
  have hL : ∀ l ∈ ls, LangCode l := by rw [← hls]; exact hf.languages
  have hd : (formats ls).Nodup := formats_nodup (by rw [← hls]; exact hf.distinct)
  obtain ⟨t1, ht1, ht2⟩ := conv_title e n hf.title
  obtain ⟨a1, ha1, ha2⟩ := conv_title e n (author_carriable hf.author)
  obtain ⟨chs, hchs⟩ := getChapters_total hn (hx.total hn)
  have hchs' := hchs
  unfold getChapters at hchs'
  have hh : ∃ hm, (odtManuscript e).headerMapping n = .ok hm ∧ hm.get? c!"ContentHeader" = some (formattedHeader ls) ∧ hm.get? c!"Title" = some (t1.flatMap escChar) ∧
      hm.get? c!"AuthorName" = some (a1.flatMap escChar) := by
    have h0 : e.formattedBase.header n = .ok _ := rfl
    refine ⟨_, rfl, ?_, ?_, ?_⟩
    · rw [Dict.get?_set_self, he, hls]
      rfl
    · rw [get?_set_other (by decide), ← ht1]
      rfl
    · rw [get?_set_other (by decide), ← ha1]
      rfl
  obtain ⟨hm, hm0, hm1, hm2, hm3⟩ := hh
  have htext : formattedText x n = .ok (quotations ([subst titleTemplate hm] ++ chs ++ [contentFooter]).flatten) := by
    unfold formattedText getFileHeader
    rw [hx.headerMap, hm0, hchs, hx.header, hx.footer]
    rfl
  rw [subst_title hm1 hm2 hm3] at htext
  have key : ∀ r, Outside r → r.chId = none → r.novel.chapters = m.chapters → r.novel.scenes = m.scenes →
      Part ty ls (((c!"<text:p text:style-name=\"Title\">" ++ (t1.flatMap escChar ++ c!"</text:p>\n")) ++ (c!"<text:p text:style-name=\"Subtitle\">" ++ (a1.flatMap escChar ++ c!"</text:p>\n"))) ++
        (chs.flatten ++ contentFooter)) r (atNovel r (asideBack ty n n.srtChapters r.novel)) := by
    intro r hr hr0 hrc hrs
    refine ((Part.title hr ht2).append (Part.subtitle hr ha2)).append ?_
    refine (aside_chapters hx hn hls hL hd hf.author n.srtChapters r _ _ chs hr hr0 (fun i h => h) ?_ hchs').append Part.footer
    intro id hid ch hch
    refine ⟨?_, ?_⟩
    · intro ht
      obtain ⟨g1, g2⟩ := hf.chapters id (by
        unfold asideChapters
        rw [List.mem_filter, hch]
        exact ⟨hid, by simpa using ht⟩) ch hch
      refine ⟨g1, ?_⟩
      unfold TitledIn
      rw [hrc]
      exact g2
    · intro p hp
      have hpe : p ∈ asideOf ty n n.srtChapters := by
        unfold asideOf
        rw [List.mem_flatMap]
        exact ⟨id, hid, by rw [hch]; exact hp⟩
      obtain ⟨g3, g4⟩ := hf.scenes p hpe
      refine ⟨by rw [← hls]; exact g3, ?_⟩
      unfold SceneIn
      rw [hrs]
      exact g4
  obtain ⟨body, hbody⟩ : ∃ b, b = ((c!"<text:p text:style-name=\"Title\">" ++ (t1.flatMap escChar ++ c!"</text:p>\n")) ++ (c!"<text:p text:style-name=\"Subtitle\">" ++ (a1.flatMap escChar ++ c!"</text:p>\n"))) ++
        (chs.flatten ++ contentFooter) := ⟨_, rfl⟩
  have etext : ([formattedHeader ls ++ ((c!"<text:p text:style-name=\"Title\">" ++ (t1.flatMap escChar ++ c!"</text:p>\n")) ++ (c!"<text:p text:style-name=\"Subtitle\">" ++ (a1.flatMap escChar ++ c!"</text:p>\n")))] ++ chs ++
      [contentFooter]).flatten = formattedHeader ls ++ body := by
    rw [hbody, List.flatten_append, List.flatten_append, List.flatten_cons, List.flatten_nil, List.append_nil, List.flatten_cons, List.flatten_nil, List.append_nil]
    simp only [List.append_assoc]
  rw [etext] at htext
  simp only [← hbody] at key
  clear hbody etext
  -- the finished text does not depend on the reader
  obtain ⟨r0, hr0⟩ : ∃ r0 : Rd, r0 = { novel := m } := ⟨_, rfl⟩
  have ho0 : Outside r0 := by
    rw [hr0]
    exact ⟨rfl, rfl, by intro id h; cases h⟩
  obtain ⟨b', qb, _⟩ := key r0 ho0 (by rw [hr0]) (by rw [hr0]) (by rw [hr0])
  have qall : Quot (formattedHeader ls ++ body) (formattedHeader ls ++ b') := (Quot.header hL).append qb
  have hq := quotations_eq qall
  rw [hq] at htext
  have sax : ∀ r, Outside r → r.chId = none → r.novel.chapters = m.chapters → r.novel.scenes = m.scenes → ∃ evs acc, saxRun (.text []) (formattedHeader ls ++ b') = (.text acc, evs) ∧
      ∃ cm langs, (∀ l ∈ langs, l ∈ ls) ∧ Goes (manuscriptReader ty) {} (rdAt r [] [] []) evs (idleP ls cm) (rdAt (atNovel r (asideBack ty n n.srtChapters r.novel)) [] [] langs) := by
    intro r hr hr0 hrc hrs
    obtain ⟨b2, q2, s2⟩ := key r hr hr0 hrc hrs
    have q3 : Quot (formattedHeader ls ++ body) (formattedHeader ls ++ b2) := (Quot.header hL).append q2
    have e3 : formattedHeader ls ++ b2 = formattedHeader ls ++ b' := by rw [← quotations_eq q3, hq]
    have e4 : b2 = b' := List.append_cancel_left e3
    subst e4
    obtain ⟨acc1, f1⟩ := Fed.header (h := manuscriptReader ty) hL (rdAt r [] [] [])
    obtain ⟨cm, acc2, langs, hl, f2⟩ := s2 [] acc1 [] (by intro l hl; cases hl)
    obtain ⟨evs, x1, x2⟩ := f1.append f2
    exact ⟨evs, acc2, x1, cm, langs, hl, x2⟩
  obtain ⟨evs, acc, hx, _⟩ := sax r0 ho0 (by rw [hr0]) (by rw [hr0]) (by rw [hr0])
  refine ⟨formattedHeader ls ++ b', evs ++ saxPend acc, htext, ?_, ?_⟩
  · unfold saxEvents
    rw [normEol_id qall.2.2, hx]
  · intro r hr hr0 hrc hrs
    obtain ⟨evs2, acc2, hx2, cm, langs, hl, hg⟩ := sax r hr hr0 hrc hrs
    rw [hx] at hx2
    injection hx2 with h1 h2
    injection h1 with h1
    subst h1; subst h2
    refine ⟨langs, by rw [hls]; exact hl, idleP ls cm, hg.append (idle_pend cm acc _)⟩

/-- Reading the document into a project. -/
theorem read_aside (name path : Str) {x : Exporter} (hx : AsideDoc (formattedEnv name path) ty x) {n m : Novel} (hn : Exportable n) (hf : AsideFits ty n m) :
    ∃ text evs, formattedText x n = .ok text ∧ saxEvents text = some evs ∧
      ∀ st info a b, stylesCalls st = .ok a → infoCalls info = .ok b → ∃ langs lc cc, (∀ l ∈ langs, l ∈ n.languages.getD []) ∧ CodesFrom st lc cc ∧
        readOdt (manuscriptReader ty) ⟨st, info, evs⟩ { m with languages := some [] } =
          .ok { asideBack ty n n.srtChapters { m with languages := some [], languageCode := lc, countryCode := cc } with languages := some langs } := by
  obtain ⟨text, evs, h1, h2, h3⟩ := aside_document name path hx hn hf
  refine ⟨text, evs, h1, h2, ?_⟩
  intro st info a b ha hb
  obtain ⟨r0, hr0⟩ : ∃ r0 : Rd, r0 = { novel := { m with languages := some [] } } := ⟨_, rfl⟩
  obtain ⟨lc, cc, ra⟩ := styles_calls (type := ty) ha (r := r0) (by rw [hr0])
  have ho : Outside (atCodes r0 lc cc) := by
    rw [hr0]
    exact ⟨rfl, rfl, by intro id h; cases h⟩
  have rb := info_calls (type := ty) hb ho (by rw [hr0]; rfl)
  obtain ⟨langs, hl, p, calls, hp, rc⟩ := h3 (atCodes r0 lc cc) ho (by rw [hr0]; rfl) (by rw [hr0]; rfl) (by rw [hr0]; rfl)
  refine ⟨langs, lc, cc, hl, codes_from ha (by rw [hr0]) ra, ?_⟩
  unfold readOdt feedFile
  rw [ha, hb]
  simp only [Bind.bind, Except.bind]
  rw [hp]
  simp only
  have e : rdAt (atCodes r0 lc cc) [] [] [] = atCodes r0 lc cc := by rw [hr0]; rfl
  rw [e] at rc
  have run := reader_run_append (reader_run_append ra rb) rc
  rw [hr0] at run
  rw [run]
  rfl

end Verif
