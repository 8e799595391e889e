/-
Reading the documents with notes and to-do lists again.
-/
import Verif.Spec.Notes
import Verif.Props.C43_Roundtrip

namespace Verif
open Spec Re Template

variable {ls : List Str} {type : Nat}

/-- A document with the material of one type: what the templates are in each case. -/
structure AsideDoc (e : DocEnv) (type : Nat) (x : Exporter) : Prop where
  chapterMap : x.chapterMapping = (odtManuscript e).chapterMapping
  sceneMap : x.sceneMapping = (odtManuscript e).sceneMapping
  headerMap : x.headerMapping = (odtManuscript e).headerMapping
  header : x.fileHeader = titleTemplate
  footer : x.fileFooter = contentFooter
  divider : x.sceneDivider = []
  first : x.firstScene = []
  sceneYes : ∀ ct ne f (s : Scene), s.scType = some type → sceneTemplate x.toTemplates ct ne f s = some (noteSceneTemplate, false)
  sceneNo : ∀ ct ne f (s : Scene), s.scType ≠ some type → sceneTemplate x.toTemplates ct ne f s = none ∨ sceneTemplate x.toTemplates ct ne f s = some ([], true)
  headYes : ∀ ne (ch : Chapter), ch.chType = some type →
    chapterTemplate x.toTemplates ch ne = (some (if ch.chLevel = some 1 then manuscriptTemplates.part else manuscriptTemplates.chapter), false)
  headNo : ∀ ne (ch : Chapter), ch.chType ≠ some type → (chapterTemplate x.toTemplates ch ne).1 = none ∨ (chapterTemplate x.toTemplates ch ne).1 = some []
  endYes : ∀ ne (ch : Chapter), ch.chType = some type → chapterEndTemplate x.toTemplates ch ne = some secEnd
  endNo : ∀ ne (ch : Chapter), ch.chType ≠ some type → chapterEndTemplate x.toTemplates ch ne = none

theorem odtNotes_aside (e : DocEnv) : AsideDoc e 1 (odtNotes e) where
  chapterMap := rfl
  sceneMap := rfl
  headerMap := rfl
  header := rfl
  footer := rfl
  divider := rfl
  first := rfl
  sceneYes ct ne f s h := by
    unfold sceneTemplate
    rw [h]
    rfl
  sceneNo ct ne f s h := by
    unfold sceneTemplate
    simp only [if_neg h]
    split
    · exact .inl rfl
    · split
      · exact .inl rfl
      · split
        · exact .inl rfl
        · split
          · exact .inl rfl
          · split
            · exact .inl rfl
            · rw [if_neg (fun hh => hh.2.2 rfl)]
              exact .inr rfl
  headYes ne ch h := by
    unfold chapterTemplate
    rw [h]
    by_cases hl : ch.chLevel = some 1
    · simp only [hl]; rfl
    · simp only [if_neg hl]; rfl
  headNo ne ch h := by
    unfold chapterTemplate
    simp only [if_neg h]
    split
    · split <;> exact .inl rfl
    · split
      · exact .inl rfl
      · split
        · exact .inl rfl
        · rw [if_neg (fun hh => hh.2 rfl)]
          exact .inr rfl
  endYes ne ch h := by
    unfold chapterEndTemplate
    rw [h]
    rfl
  endNo ne ch h := by
    unfold chapterEndTemplate
    simp only [if_neg h]
    split
    · rfl
    · split
      · rfl
      · split <;> rfl

theorem odtTodo_aside (e : DocEnv) : AsideDoc e 2 (odtTodo e) where
  chapterMap := rfl
  sceneMap := rfl
  headerMap := rfl
  header := rfl
  footer := rfl
  divider := rfl
  first := rfl
  sceneYes ct ne f s h := by
    unfold sceneTemplate
    rw [h]
    rfl
  sceneNo ct ne f s h := by
    unfold sceneTemplate
    simp only [if_neg h]
    split
    · exact .inl rfl
    · split
      · exact .inl rfl
      · split
        · exact .inl rfl
        · split
          · exact .inl rfl
          · split
            · exact .inl rfl
            · rw [if_neg (fun hh => hh.2.2 rfl)]
              exact .inr rfl
  headYes ne ch h := by
    unfold chapterTemplate
    rw [h]
    by_cases hl : ch.chLevel = some 1
    · simp only [hl]; rfl
    · simp only [if_neg hl]; rfl
  headNo ne ch h := by
    unfold chapterTemplate
    simp only [if_neg h]
    split
    · split <;> exact .inl rfl
    · split
      · exact .inl rfl
      · split
        · exact .inl rfl
        · rw [if_neg (fun hh => hh.2 rfl)]
          exact .inr rfl
  endYes ne ch h := by
    unfold chapterEndTemplate
    rw [h]
    rfl
  endNo ne ch h := by
    unfold chapterEndTemplate
    simp only [if_neg h]
    split
    · rfl
    · split
      · rfl
      · split <;> rfl

theorem AsideDoc.total {e : DocEnv} {x : Exporter} (hx : AsideDoc e type x) {n : Novel} (hn : Exportable n) : TotalMappings x n where
  header := by rw [hx.headerMap]; exact (odtManuscript_total e hn).header
  chapter := by rw [hx.chapterMap]; exact (odtManuscript_total e hn).chapter
  scene := by rw [hx.sceneMap]; exact (odtManuscript_total e hn).scene

/-! ### The parts of the document -/

/-- The beginning of the heading of a scene. -/
def n3Open : Str := c!"<text:h text:style-name=\"Heading_20_3\" text:outline-level=\"3\">"

theorem subst_note {m : Mapping} {t id c : Str} (ht : m.get? c!"Title" = some t) (hid : m.get? c!"ID" = some id) (hc : m.get? c!"SceneContent" = some c) :
    subst noteSceneTemplate m = (n3Open ++ (t ++ hEnd)) ++ (secOpen (c!"ScID:" ++ id) ++ ((pOpen bodyStyle ++ c ++ pEnd) ++ (c!"\n" ++ secEnd))) := by
  have e : segs noteSceneTemplate = n3Open.map Seg.lit ++ (Seg.var c!"Title" c!"$Title" :: (hEnd.map Seg.lit ++
      (c!"<text:section text:style-name=\"Sect1\" text:name=\"".map Seg.lit ++ (c!"ScID:".map Seg.lit ++ (Seg.var c!"ID" c!"$ID" :: (c!"\">\n".map Seg.lit ++
      ((pOpen bodyStyle).map Seg.lit ++ (Seg.var c!"SceneContent" c!"$SceneContent" :: (pEnd.map Seg.lit ++ (c!"\n".map Seg.lit ++ secEnd.map Seg.lit)))))))))) := by decide +kernel
  unfold subst
  rw [e]
  simp only [List.flatMap_append, List.flatMap_cons, render_lits, render, ht, hid, hc, Option.getD_some]
  unfold secOpen
  simp only [List.append_assoc]

theorem Part.n3 {r : Rd} (hr : Outside r) {t : Str} (ht : Carriable t) : Part type ls (n3Open ++ (t.flatMap escChar ++ hEnd)) r r :=
  Part.heading (op := c!"text:h text:style-name=\"Heading_20_3\" text:outline-level=\"3\">") (en := c!"/text:h>\n") (e := c!"text:h") (as := [(c!"text:style-name", c!"Heading_20_3"), (c!"text:outline-level", c!"3")]) (tag := c!"h3") (p1 := fun cm => headP ls cm c!"h3") hr ht
    (by decide) (by decide) (by decide) (by decide +kernel)
    ⟨c!"\n", by decide +kernel⟩ (fun _ => rfl) (fun _ _ => rfl) (fun _ => rfl)

theorem Part.noteScene (e : DocEnv) {n : Novel} (hn : Exportable n) (hls : n.languages.getD [] = ls) (hL : ∀ l ∈ ls, LangCode l) (hd : (formats ls).Nodup) (hA : AuthorOk n.authorName)
    {r : Rd} (hr : Outside r) {p : Str × Scene} (hp : n.scenes.get? p.1 = some p.2) (hmem : p.1 ∈ narrative n) (hc : SceneCarried ls p)
    (hin : SceneIn r.novel p.1) {k w l : Nat} {m : Mapping} (hm : (odtManuscript e).sceneMapping n p.1 k w l = .ok m) :
    Part type ls (subst noteSceneTemplate m) r (atNovel r (sceneBack type p.1 (p.2.sceneContent.getD []) r.novel)) := by
  obtain ⟨ps, hps, hN⟩ := hc.text
  obtain ⟨s0, hs0⟩ := hin
  obtain ⟨m', hm', h1, h2, h3⟩ := sceneMapping_values e hn hmem hp k w l
  rw [hm] at hm'
  cases hm'
  obtain ⟨t', ht1, ht2⟩ := conv_title e n hc.title
  have h3' : m.get? c!"SceneContent" = some (formattedConvert (spanReplacements ++ commentReplacements n.authorName) ls (some (rawText ps)) false) := by
    rw [h3, ← hps, ← hls]
    cases hsc : p.2.sceneContent with
    | none => rfl
    | some t => rfl
  rw [ht1] at h1
  rw [subst_note h1 h2 h3', hps]
  exact (Part.n3 hr ht2).append (Part.scene hr hc.number hs0 hL hd hA hN (.inr rfl))

theorem asideIn_cons (n : Novel) {id : Str} {s : Scene} (hs : n.scenes.get? id = some s) (ids : List Str) :
    asideIn type n (id :: ids) = if s.scType = some type then (id, s) :: asideIn type n ids else asideIn type n ids := by
  unfold asideIn
  rw [List.filterMap_cons, hs]
  simp only [Option.map_some, List.filter_cons, decide_eq_true_eq]

theorem aside_scenes {e : DocEnv} {x : Exporter} (hx : AsideDoc e type x) {n : Novel} (hn : Exportable n) (hls : n.languages.getD [] = ls) (hL : ∀ l ∈ ls, LangCode l)
    (hd : (formats ls).Nodup) (hA : AuthorOk n.authorName) (ct : Option Nat) (ne : Bool) : ∀ (ids : List Str) (r : Rd) (first : Bool) (k : Counters) (q : List Str × Counters),
    Outside r → (∀ i ∈ ids, i ∈ narrative n) → (∀ p ∈ asideIn type n ids, SceneCarried ls p ∧ SceneIn r.novel p.1) → scenesLoop x n ct ne first k ids = .ok q →
    Part type ls q.1.flatten r (atNovel r (scenesBack type (asideIn type n ids) r.novel)) := by
  intro ids
  induction ids with
  | nil =>
    intro r first k q hr _ _ h
    cases h
    exact Part.nil r
  | cons id ids ih =>
    intro r first k q hr hmem hc h
    obtain ⟨s, hs, _⟩ := hn.scenes id (hmem id (by simp))
    unfold scenesLoop at h
    rw [Dict.get!_of hs] at h
    simp only [Bind.bind, Except.bind] at h
    rw [asideIn_cons n hs] at hc ⊢
    have hmem' : ∀ i ∈ ids, i ∈ narrative n := fun i hi => hmem i (by simp [hi])
    by_cases ht : s.scType = some type
    · rw [if_pos ht] at hc ⊢
      rw [hx.sceneYes ct ne first s ht] at h
      simp only at h
      split at h
      · cases h
      · rename_i m hm
        split at h
        · cases h
        · rename_i rest hrest
          cases h
          rw [hx.sceneMap] at hm
          rw [hx.divider, hx.first]
          have e1 : ((if first = true ∨ s.appendToPrev = some true then [] else [[]]) ++ subst (if first = true ∧ ([] : Str) ≠ [] then [] else noteSceneTemplate) m :: rest.1).flatten =
              subst noteSceneTemplate m ++ rest.1.flatten := by
            have e0 : (if first = true ∧ ([] : Str) ≠ [] then [] else noteSceneTemplate) = noteSceneTemplate := if_neg (fun hh => hh.2 rfl)
            rw [e0, List.flatten_append, List.flatten_cons]
            split <;> rfl
          refine e1 ▸ ?_
          obtain ⟨c1, c2⟩ := hc (id, s) (by simp)
          refine (Part.noteScene e hn hls hL hd hA hr hs (hmem id (by simp)) c1 c2 hm).append ?_
          unfold scenesBack
          refine ih (atNovel r (sceneBack type id (s.sceneContent.getD []) r.novel)) _ _ rest (outside_novel hr (fun k hk => hk)) hmem' ?_ hrest
          exact fun p hp => ⟨(hc p (by simp [hp])).1, (hc p (by simp [hp])).2.scene _ _⟩
    · rw [if_neg ht] at hc ⊢
      rcases hx.sceneNo ct ne first s ht with hn' | hs'
      · rw [hn'] at h
        exact ih r _ _ q hr hmem' hc h
      · rw [hs'] at h
        simp only at h
        split at h
        · cases h
        · rename_i m hm
          split at h
          · cases h
          · rename_i rest hrest
            cases h
            rw [hx.divider, hx.first]
            have e1 : ((if first = true ∨ s.appendToPrev = some true then [] else [[]]) ++ subst (if first = true ∧ ([] : Str) ≠ [] then [] else []) m :: rest.1).flatten = rest.1.flatten := by
              have e0 : (if first = true ∧ ([] : Str) ≠ [] then [] else ([] : Str)) = [] := if_neg (fun hh => hh.2 rfl)
              rw [e0, List.flatten_append, List.flatten_cons]
              split <;> rfl
            exact e1 ▸ ih r _ _ rest hr hmem' hc hrest

/-- The project after the document has been read. -/
def asideBack (type : Nat) (n : Novel) : List Str → Novel → Novel
  | [], m => m
  | id :: r, m =>
    match n.chapters.get? id with
    | none => asideBack type n r m
    | some ch => asideBack type n r (scenesBack type (asideIn type n ch.srtScenes) (if ch.chType = some type then chapterBack type id m else m))

theorem aside_chapters {e : DocEnv} {x : Exporter} (hx : AsideDoc e type x) {n : Novel} (hn : Exportable n) (hls : n.languages.getD [] = ls) (hL : ∀ l ∈ ls, LangCode l)
    (hd : (formats ls).Nodup) (hA : AuthorOk n.authorName) : ∀ (ids : List Str) (r : Rd) (c : Nat) (k : Counters) (q : List Str),
    Outside r → r.chId = none → (∀ i ∈ ids, i ∈ n.srtChapters) →
    (∀ id ∈ ids, ∀ ch, n.chapters.get? id = some ch → (ch.chType = some type → ChapterCarried id ch ∧ TitledIn r.novel id) ∧
      ∀ p ∈ asideIn type n ch.srtScenes, SceneCarried ls p ∧ SceneIn r.novel p.1) →
    chaptersLoop x n c k ids = .ok q → Part type ls q.flatten r (atNovel r (asideBack type n ids r.novel)) := by
  intro ids
  induction ids with
  | nil =>
    intro r c k q hr _ _ _ h
    cases h
    exact Part.nil r
  | cons id ids ih =>
    intro r c k q hr hr0 hids hch h
    obtain ⟨ch, hc⟩ := hn.chapters id (hids id (by simp))
    unfold chaptersLoop at h
    rw [Dict.get!_of hc] at h
    simp only [Bind.bind, Except.bind] at h
    split at h
    · cases h
    rename_i ne hne
    split at h
    · cases h
    rename_i head hhead
    split at h
    · cases h
    rename_i sc hsc
    split at h
    · cases h
    rename_i tail htail
    split at h
    · cases h
    rename_i rest hrest
    cases h
    obtain ⟨h1, h2⟩ := hch id (by simp) ch hc
    have hmem : ∀ i ∈ ch.srtScenes, i ∈ narrative n := by
      intro i hi
      unfold narrative
      rw [List.mem_flatMap]
      exact ⟨id, hids id (by simp), by unfold scenesOf; rw [hc]; exact hi⟩
    unfold asideBack
    rw [hc]
    simp only [List.flatten_append]
    by_cases ht : ch.chType = some type
    · rw [if_pos ht]
      obtain ⟨g1, c0, hc0, hc1⟩ := h1 ht
      rw [hx.headYes ne ch ht] at hhead hrest
      rw [hx.endYes ne ch ht] at htail
      unfold chapterLine at hhead htail
      simp only [Bind.bind, Except.bind] at hhead htail
      obtain ⟨m, t', e1, e2, e3, e4⟩ := chapterMapping_values e hc g1.title (if (chapterTemplate x.toTemplates ch ne).2 = true then (if (chapterTemplate x.toTemplates ch ne).2 = true then c + 1 else c) else 0)
      rw [← hx.chapterMap, hx.headYes ne ch ht] at e1
      rw [e1] at hhead
      rw [hx.headYes ne ch ht, e1] at htail
      cases hhead
      cases htail
      obtain ⟨r1, hr1⟩ : ∃ r1, r1 = atChapter (atNovel r (chapterBack type id r.novel)) (some id) := ⟨_, rfl⟩
      have ho1 : Outside r1 := by
        rw [hr1]
        refine ⟨hr.scene, hr.skip, ?_⟩
        intro k hk
        cases hk
        exact TitledIn.chapter ⟨c0, hc0, hc1⟩ id
      have p1 : Part type ls (secOpen (c!"ChID:" ++ id)) r r1 := by
        rw [hr1]
        exact Part.chapterStart hr g1.number hc0
      have p2 : Part type ls [subst (if ch.chLevel = some 1 then manuscriptTemplates.part else manuscriptTemplates.chapter) m].flatten r r1 := by
        rw [List.flatten_cons, List.flatten_nil, List.append_nil]
        split
        · rw [subst_part e2 e4]
          exact p1.append (Part.h1 ho1 e3)
        · rw [subst_chapter e2 e4]
          exact p1.append (Part.h2 ho1 e3)
      have p3 := aside_scenes hx hn hls hL hd hA ch.chType ne ch.srtScenes r1 true k sc ho1 hmem
        (fun p hp => ⟨(h2 p hp).1, by rw [hr1]; exact (h2 p hp).2.chapter id⟩) hsc
      obtain ⟨r2, hr2⟩ : ∃ r2, r2 = atNovel r1 (scenesBack type (asideIn type n ch.srtScenes) r1.novel) := ⟨_, rfl⟩
      rw [← hr2] at p3
      have ho2 : Outside r2 := by
        rw [hr2]
        exact outside_novel ho1 (fun k hk => hk.scenes _)
      have p4 : Part type ls secEnd r2 (atChapter r2 none) := Part.chapterEnd ho2 (id := id) (by rw [hr2, hr1]; rfl)
      have e5 : atChapter r2 none = atNovel r (scenesBack type (asideIn type n ch.srtScenes) (chapterBack type id r.novel)) := by
        rw [hr2, hr1]
        unfold atChapter atNovel
        simp only [hr0]
      rw [e5] at p4
      have p5 : Part type ls [subst secEnd m].flatten r2 (atNovel r (scenesBack type (asideIn type n ch.srtScenes) (chapterBack type id r.novel))) := by
        rw [List.flatten_cons, List.flatten_nil, List.append_nil, subst_secEnd]
        exact p4
      refine ((p2.append p3).append p5).append ?_
      refine ih (atNovel r (scenesBack type (asideIn type n ch.srtScenes) (chapterBack type id r.novel))) _ _ rest ?_ hr0 (fun i hi => hids i (by simp [hi])) ?_ hrest
      · exact outside_novel hr (fun k hk => (hk.chapter id).scenes _)
      · intro i hi c' hc'
        obtain ⟨k1, k2⟩ := hch i (by simp [hi]) c' hc'
        exact ⟨fun h => ⟨(k1 h).1, ((k1 h).2.chapter id).scenes _⟩, fun p hp => ⟨(k2 p hp).1, ((k2 p hp).2.chapter id).scenes _⟩⟩
    · rw [if_neg ht]
      have eh : head.flatten = [] := by
        rcases hx.headNo ne ch ht with e0 | e0
        · rw [e0] at hhead
          cases hhead
          rfl
        · rw [e0] at hhead
          unfold chapterLine at hhead
          simp only [Bind.bind, Except.bind] at hhead
          split at hhead
          · cases hhead
          · cases hhead
            rfl
      have et : tail.flatten = [] := by
        rw [hx.endNo ne ch ht] at htail
        cases htail
        rfl
      rw [eh, et, List.nil_append, List.append_nil]
      refine (aside_scenes hx hn hls hL hd hA ch.chType ne ch.srtScenes r true k sc hr hmem h2 hsc).append ?_
      refine ih (atNovel r (scenesBack type (asideIn type n ch.srtScenes) r.novel)) _ _ rest (outside_novel hr (fun k hk => hk.scenes _)) hr0 (fun i hi => hids i (by simp [hi])) ?_ hrest
      intro i hi c' hc'
      obtain ⟨k1, k2⟩ := hch i (by simp [hi]) c' hc'
      exact ⟨fun h => ⟨(k1 h).1, (k1 h).2.scenes _⟩, fun p hp => ⟨(k2 p hp).1, (k2 p hp).2.scenes _⟩⟩

end Verif
