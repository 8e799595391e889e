/-
Reading an exported manuscript as a whole.
-/
import Verif.Lemmas.ReadHeader
import Verif.Props.C47_Lists

namespace Verif
open Spec Re Template

variable {type : Nat}

/-! ### What the import does, described without the loops -/

/-- A scene with the given text. -/
def received (type : Nat) (t : Str) (s : Scene) : Scene :=
  { s with scType := some type, sceneContent := some t, wordCount := wordCountOf t, letterCount := letterCountOf t }

theorem received_twice (t : Str) (s : Scene) : received type t (received type t s) = received type t s := rfl

theorem specText_some {d : Dict Scene} {id : Str} {s : Scene} (h : d.get? id = some s) : Spec.textOf d id = s.sceneContent.getD [] := by
  unfold Spec.textOf
  rw [h]
  rfl

theorem sceneBack_get (id t k : Str) (m : Novel) : (sceneBack type id t m).scenes.get? k = if id = k then (m.scenes.get? k).map (received type t) else m.scenes.get? k := by
  show ((m.scenes.modify id _).modify id _).get? k = _
  rw [Dict.get?_modify, Dict.get?_modify]
  by_cases e : id = k
  · rw [if_pos e, if_pos e, if_pos e, Option.map_map]
    rfl
  · rw [if_neg e, if_neg e, if_neg e]

theorem scenesBack_get {n : Novel} (l : List (Str × Scene)) (hl : ∀ p ∈ l, n.scenes.get? p.1 = some p.2) (m : Novel) (k : Str) :
    (scenesBack type l m).scenes.get? k = if k ∈ l.map Prod.fst then (m.scenes.get? k).map (received type (Spec.textOf n.scenes k)) else m.scenes.get? k := by
  induction l generalizing m with
  | nil => rfl
  | cons p l ih =>
    unfold scenesBack
    rw [ih (fun q hq => hl q (by simp [hq])), sceneBack_get, ← specText_some (hl p (by simp))]
    by_cases e : p.1 = k
    · rw [if_pos e, if_pos (c := k ∈ (p :: l).map Prod.fst) (by simp [e])]
      subst e
      split
      · rw [Option.map_map]
        rfl
      · rfl
    · rw [if_neg e]
      have : k ∈ (p :: l).map Prod.fst ↔ k ∈ l.map Prod.fst := by
        simp only [List.map_cons, List.mem_cons]
        constructor
        · rintro (h | h)
          · exact absurd h.symm e
          · exact h
        · exact .inr
      by_cases h2 : k ∈ l.map Prod.fst
      · rw [if_pos h2, if_pos (this.2 h2)]
      · rw [if_neg h2, if_neg (fun h => h2 (this.1 h))]

theorem sceneBack_frame (id t : Str) (m : Novel) : ∃ s, sceneBack type id t m = { m with scenes := s } ∧ s.keys = m.scenes.keys :=
  ⟨_, rfl, by rw [Dict.keys_modify, Dict.keys_modify]⟩

theorem scenesBack_frame (l : List (Str × Scene)) (m : Novel) : ∃ s, scenesBack type l m = { m with scenes := s } ∧ s.keys = m.scenes.keys := by
  induction l generalizing m with
  | nil => exact ⟨m.scenes, rfl, rfl⟩
  | cons p l ih =>
    obtain ⟨s, h1, h2⟩ := ih (sceneBack type p.1 (p.2.sceneContent.getD []) m)
    refine ⟨s, ?_, ?_⟩
    · unfold scenesBack
      rw [h1]
      rfl
    · rw [h2]
      show ((m.scenes.modify p.1 _).modify p.1 _).keys = _
      rw [Dict.keys_modify, Dict.keys_modify]

theorem exportedIn_mem {n : Novel} {ch : Chapter} {p : Str × Scene} (h : p ∈ exportedIn n ch) : n.scenes.get? p.1 = some p.2 := by
  unfold exportedIn at h
  rw [List.mem_filter, List.mem_filterMap] at h
  obtain ⟨⟨i, hi, h2⟩, _⟩ := h
  cases hs : n.scenes.get? i with
  | none => rw [hs] at h2; cases h2
  | some s =>
    rw [hs] at h2
    cases h2
    exact hs

theorem exportedIn_hidden {n : Novel} {ch : Chapter} (h : chapterShown n ch = false) : exportedIn n ch = [] := by
  unfold chapterShown at h
  rw [Bool.and_eq_false_iff] at h
  unfold exportedIn
  rw [List.filter_eq_nil_iff]
  intro p hp
  rcases h with h | h
  · have h' : setAside ch.chType = true := by simpa using h
    unfold forExport
    rw [h']
    simp
  · simp only [Bool.not_eq_false', Bool.and_eq_true, List.all_eq_true] at h
    rw [List.mem_filterMap] at hp
    obtain ⟨i, hi, h2⟩ := hp
    have h3 := h.2 i hi
    cases hs : n.scenes.get? i with
    | none => rw [hs] at h2; cases h2
    | some s =>
      rw [hs] at h2 h3
      cases h2
      simp only [Option.any_some, beq_iff_eq] at h3
      unfold forExport
      rw [h3]
      simp

theorem novelBack_spec {n : Novel} (ids : List Str) (m : Novel) : ∃ s c, novelBack type n ids m = { m with scenes := s, chapters := c } ∧ s.keys = m.scenes.keys ∧
    c.keys = m.chapters.keys ∧ (∀ k, s.get? k = if k ∈ (exported n ids).map Prod.fst then (m.scenes.get? k).map (received type (Spec.textOf n.scenes k)) else m.scenes.get? k) ∧
    (∀ k, c.get? k = if k ∈ shownChapters n ids then (m.chapters.get? k).map (fun ch => { ch with chType := some type }) else m.chapters.get? k) := by
  induction ids generalizing m with
  | nil => exact ⟨m.scenes, m.chapters, rfl, rfl, rfl, fun k => rfl, fun k => rfl⟩
  | cons id ids ih =>
    unfold novelBack
    cases hch : n.chapters.get? id with
    | none =>
      obtain ⟨s, c, h1, h2, h3, h4, h5⟩ := ih m
      have e1 : exported n (id :: ids) = exported n ids := by
        unfold exported
        rw [List.flatMap_cons, hch]
        rfl
      have e2 : shownChapters n (id :: ids) = shownChapters n ids := by
        unfold shownChapters
        rw [List.filter_cons, hch]
        rfl
      rw [e1, e2]
      exact ⟨s, c, h1, h2, h3, h4, h5⟩
    | some ch =>
      simp only
      have e1 : exported n (id :: ids) = exportedIn n ch ++ exported n ids := by
        unfold exported
        rw [List.flatMap_cons, hch]
      by_cases hsh : chapterShown n ch = true
      · rw [if_pos hsh]
        obtain ⟨s, c, h1, h2, h3, h4, h5⟩ := ih (scenesBack type (exportedIn n ch) (chapterBack type id m))
        obtain ⟨s1, g1, g2⟩ := scenesBack_frame (type := type) (exportedIn n ch) (chapterBack type id m)
        have g3 := scenesBack_get (type := type) (exportedIn n ch) (fun p hp => exportedIn_mem hp) (chapterBack type id m)
        have e2 : shownChapters n (id :: ids) = id :: shownChapters n ids := by
          unfold shownChapters
          rw [List.filter_cons, hch]
          simp only
          rw [if_pos hsh]
        rw [e1, e2]
        refine ⟨s, c, ?_, ?_, ?_, ?_, ?_⟩
        · rw [h1, g1]
          rfl
        · rw [h2, g1]
          exact g2
        · rw [h3, g1]
          show (m.chapters.modify id _).keys = _
          rw [Dict.keys_modify]
        · intro k
          rw [h4, g3]
          show (if k ∈ _ then (if _ then (m.scenes.get? k).map _ else m.scenes.get? k).map _ else (if _ then (m.scenes.get? k).map _ else m.scenes.get? k)) = _
          rw [List.map_append]
          by_cases k1 : k ∈ (exportedIn n ch).map Prod.fst
          · rw [if_pos k1, if_pos (c := k ∈ _ ++ _) (List.mem_append_left _ k1), Option.map_map]
            split
            · rfl
            · rfl
          · rw [if_neg k1]
            by_cases k2 : k ∈ (exported n ids).map Prod.fst
            · rw [if_pos k2, if_pos (List.mem_append_right _ k2)]
            · rw [if_neg k2, if_neg]
              rw [List.mem_append]
              rintro (h | h)
              · exact k1 h
              · exact k2 h
        · intro k
          rw [h5, g1]
          show (if k ∈ _ then ((m.chapters.modify id _).get? k).map _ else (m.chapters.modify id _).get? k) = _
          rw [Dict.get?_modify]
          by_cases k1 : id = k
          · rw [if_pos k1, if_pos (c := k ∈ id :: _) (by simp [k1]), Option.map_map]
            split
            · rfl
            · rfl
          · rw [if_neg k1]
            by_cases k2 : k ∈ shownChapters n ids
            · rw [if_pos k2, if_pos (List.mem_cons_of_mem _ k2)]
            · rw [if_neg k2, if_neg]
              rw [List.mem_cons]
              rintro (h | h)
              · exact k1 h.symm
              · exact k2 h
      · rw [if_neg hsh]
        obtain ⟨s, c, h1, h2, h3, h4, h5⟩ := ih m
        have e2 : shownChapters n (id :: ids) = shownChapters n ids := by
          unfold shownChapters
          rw [List.filter_cons, hch]
          simp only
          rw [if_neg hsh]
        rw [e1, e2, exportedIn_hidden (by simpa using hsh), List.nil_append]
        exact ⟨s, c, h1, h2, h3, h4, h5⟩

/-! ### The whole document -/

theorem normEol_id {s : Str} (h : '\r' ∉ s) : normEol s = s := by
  induction s with
  | nil => rfl
  | cons c s ih =>
    simp only [List.mem_cons, not_or] at h
    unfold normEol
    split
    · rename_i e; cases e
    · rename_i e; injection e with e1 e2; exact absurd e1.symm h.1
    · rename_i e; injection e with e1 e2; exact absurd e1.symm h.1
    · rename_i d cs _ _ e
      injection e with e1 e2
      subst e1; subst e2
      rw [ih h.2]

theorem subst_title {m : Mapping} {hd t a : Str} (h1 : m.get? c!"ContentHeader" = some hd) (h2 : m.get? c!"Title" = some t) (h3 : m.get? c!"AuthorName" = some a) :
    subst titleTemplate m = hd ++ ((c!"<text:p text:style-name=\"Title\">" ++ (t ++ c!"</text:p>\n")) ++ (c!"<text:p text:style-name=\"Subtitle\">" ++ (a ++ c!"</text:p>\n"))) := by
  have e : segs titleTemplate = Seg.var c!"ContentHeader" c!"$ContentHeader" :: (c!"<text:p text:style-name=\"Title\">".map Seg.lit ++ (Seg.var c!"Title" c!"$Title" ::
      (c!"</text:p>\n".map Seg.lit ++ (c!"<text:p text:style-name=\"Subtitle\">".map Seg.lit ++ (Seg.var c!"AuthorName" c!"$AuthorName" :: c!"</text:p>\n".map Seg.lit))))) := by decide +kernel
  unfold subst
  rw [e]
  simp only [List.flatMap_append, List.flatMap_cons, render_lits, render, h1, h2, h3, Option.getD_some]
  simp only [List.append_assoc]

theorem author_carriable {author : Option Str} (h : AuthorOk author) : ∀ t, author = some t → Carriable t := by
  intro t e c hc
  subst e
  obtain ⟨h1, h2⟩ := h c hc
  exact ⟨h1, fun e => h2 (by rw [e]; decide)⟩

/-- The document, and what reading it does from any state outside of scenes. -/
theorem manuscript_document (name path : Str) {n m : Novel} (hn : Exportable n) (hi : Inherits n) (hf : ManuscriptFits n m) :
    ∃ text evs, formattedText (odtManuscript (formattedEnv name path)) n = .ok text ∧ saxEvents text = some evs ∧
      ∀ type r, Outside r → r.chId = none → r.novel.chapters = m.chapters → r.novel.scenes = m.scenes → ∃ langs, (∀ l ∈ langs, l ∈ n.languages.getD []) ∧
        ∃ p, Goes (manuscriptReader type) {} (rdAt r [] [] []) evs p (rdAt (atNovel r (novelBack type n n.srtChapters r.novel)) [] [] langs) := by
  obtain ⟨e, he⟩ : ∃ e, e = formattedEnv name path := ⟨_, rfl⟩
  obtain ⟨ls, hls⟩ : ∃ ls, n.languages.getD [] = ls := ⟨_, rfl⟩
  have hL : ∀ l ∈ ls, LangCode l := by rw [← hls]; exact hf.languages
  have hd : (formats ls).Nodup := formats_nodup (by rw [← hls]; exact hf.distinct)
  obtain ⟨t1, ht1, ht2⟩ := conv_title e n hf.title
  obtain ⟨a1, ha1, ha2⟩ := conv_title e n (author_carriable hf.author)
  obtain ⟨chs, hchs⟩ := getChapters_total hn (odtManuscript_total e hn)
  have hchs' : chs = Spec.manuscript (odtManuscript e) n [] n.srtChapters := getChapters_spec (C29_writers e).2.1 hi hchs
  have hh : ∃ hm, (odtManuscript e).headerMapping n = .ok hm ∧ hm.get? c!"ContentHeader" = some (formattedHeader ls) ∧ hm.get? c!"Title" = some (t1.flatMap escChar) ∧
      hm.get? c!"AuthorName" = some (a1.flatMap escChar) := by
    have h0 : e.formattedBase.header n = .ok _ := rfl
    refine ⟨_, rfl, ?_, ?_, ?_⟩
    · rw [Dict.get?_set_self, he, hls]
      rfl
    · rw [get?_set_other (by decide), ← ht1]
      rfl
    · rw [get?_set_other (by decide), ← ha1]
      rfl
  obtain ⟨hm, hm0, hm1, hm2, hm3⟩ := hh
  have htext : formattedText (odtManuscript e) n = .ok (quotations ([subst titleTemplate hm] ++ chs ++ [contentFooter]).flatten) := by
    unfold formattedText getFileHeader
    rw [hm0, hchs]
    rfl
  rw [subst_title hm1 hm2 hm3] at htext
  have key : ∀ type r, Outside r → r.chId = none → r.novel.chapters = m.chapters → r.novel.scenes = m.scenes →
      Part type ls (((c!"<text:p text:style-name=\"Title\">" ++ (t1.flatMap escChar ++ c!"</text:p>\n")) ++ (c!"<text:p text:style-name=\"Subtitle\">" ++ (a1.flatMap escChar ++ c!"</text:p>\n"))) ++
        (chs.flatten ++ contentFooter)) r (atNovel r (novelBack type n n.srtChapters r.novel)) := by
    intro type r hr hr0 hrc hrs
    refine ((Part.title hr ht2).append (Part.subtitle hr ha2)).append ?_
    rw [hchs']
    refine (Part.manuscript e hn hls hL hd hf.author n.srtChapters hr hr0 (fun id h => h) ?_ []).append Part.footer
    intro id hid ch hch hsh
    obtain ⟨g1, g2⟩ := hf.chapters id hid ch hch hsh
    refine ⟨g1, ?_, ?_⟩
    · unfold TitledIn
      rw [hrc]
      exact g2
    · intro p hp
      have hpe : p ∈ exported n n.srtChapters := by
        unfold exported
        rw [List.mem_flatMap]
        exact ⟨id, hid, by rw [hch]; exact hp⟩
      obtain ⟨g3, g4⟩ := hf.scenes p hpe
      refine ⟨by rw [← hls]; exact g3, ?_⟩
      unfold SceneIn
      rw [hrs]
      exact g4
  obtain ⟨body, hbody⟩ : ∃ b, b = ((c!"<text:p text:style-name=\"Title\">" ++ (t1.flatMap escChar ++ c!"</text:p>\n")) ++ (c!"<text:p text:style-name=\"Subtitle\">" ++ (a1.flatMap escChar ++ c!"</text:p>\n"))) ++
        (chs.flatten ++ contentFooter) := ⟨_, rfl⟩
  have etext : ([formattedHeader ls ++ ((c!"<text:p text:style-name=\"Title\">" ++ (t1.flatMap escChar ++ c!"</text:p>\n")) ++ (c!"<text:p text:style-name=\"Subtitle\">" ++ (a1.flatMap escChar ++ c!"</text:p>\n")))] ++ chs ++
      [contentFooter]).flatten = formattedHeader ls ++ body := by
    rw [hbody, List.flatten_append, List.flatten_append, List.flatten_cons, List.flatten_nil, List.append_nil, List.flatten_cons, List.flatten_nil, List.append_nil]
    simp only [List.append_assoc]
  rw [etext] at htext
  simp only [← hbody] at key
  clear hbody etext
  -- the finished text does not depend on the reader
  obtain ⟨r0, hr0⟩ : ∃ r0 : Rd, r0 = { novel := m } := ⟨_, rfl⟩
  have ho0 : Outside r0 := by
    rw [hr0]
    exact ⟨rfl, rfl, by intro id h; cases h⟩
  obtain ⟨b', qb, _⟩ := key 0 r0 ho0 (by rw [hr0]) (by rw [hr0]) (by rw [hr0])
  have qall : Quot (formattedHeader ls ++ body) (formattedHeader ls ++ b') := (Quot.header hL).append qb
  have hq := quotations_eq qall
  rw [hq] at htext
  have sax : ∀ type r, Outside r → r.chId = none → r.novel.chapters = m.chapters → r.novel.scenes = m.scenes → ∃ evs acc, saxRun (.text []) (formattedHeader ls ++ b') = (.text acc, evs) ∧
      ∃ cm langs, (∀ l ∈ langs, l ∈ ls) ∧ Goes (manuscriptReader type) {} (rdAt r [] [] []) evs (idleP ls cm) (rdAt (atNovel r (novelBack type n n.srtChapters r.novel)) [] [] langs) := by
    intro type r hr hr0 hrc hrs
    obtain ⟨b2, q2, s2⟩ := key type r hr hr0 hrc hrs
    have q3 : Quot (formattedHeader ls ++ body) (formattedHeader ls ++ b2) := (Quot.header hL).append q2
    have e3 : formattedHeader ls ++ b2 = formattedHeader ls ++ b' := by rw [← quotations_eq q3, hq]
    have e4 : b2 = b' := List.append_cancel_left e3
    subst e4
    obtain ⟨acc1, f1⟩ := Fed.header (h := manuscriptReader type) hL (rdAt r [] [] [])
    obtain ⟨cm, acc2, langs, hl, f2⟩ := s2 [] acc1 [] (by intro l hl; cases hl)
    obtain ⟨evs, x1, x2⟩ := f1.append f2
    exact ⟨evs, acc2, x1, cm, langs, hl, x2⟩
  obtain ⟨evs, acc, hx, _⟩ := sax 0 r0 ho0 (by rw [hr0]) (by rw [hr0]) (by rw [hr0])
  refine ⟨formattedHeader ls ++ b', evs ++ saxPend acc, by rw [← he]; exact htext, ?_, ?_⟩
  · unfold saxEvents
    rw [normEol_id qall.2.2, hx]
  · intro type r hr hr0 hrc hrs
    obtain ⟨evs2, acc2, hx2, cm, langs, hl, hg⟩ := sax type r hr hr0 hrc hrs
    rw [hx] at hx2
    injection hx2 with h1 h2
    injection h1 with h1
    subst h1; subst h2
    refine ⟨langs, by rw [hls]; exact hl, idleP ls cm, hg.append (idle_pend cm acc _)⟩

end Verif
