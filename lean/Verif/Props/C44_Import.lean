/-
C44: importing a work in progress or an outline.
-/
import Verif.Lemmas.Import5
import Verif.Props.C43_Roundtrip
import Verif.Lemmas.Yw7Sections

namespace Verif
open Spec

/-! ### The structure that results from any document -/

theorem entries_narrative {d : Dict Chapter} (h : (Dict.keys d).Nodup) : (Dict.keys d).flatMap (scenesOf d) = d.flatMap (fun p => p.2.srtScenes) := by
  induction d with
  | nil => rfl
  | cons p d ih =>
    obtain ⟨a, b⟩ := p
    have hk : Dict.keys ((a, b) :: d) = a :: Dict.keys d := rfl
    rw [hk, List.nodup_cons] at h
    rw [hk, List.flatMap_cons, List.flatMap_cons, ← ih h.2]
    congr 1
    · unfold scenesOf
      simp [Dict.get?]
    · refine flatMap_congr' ?_
      intro x hx
      unfold scenesOf
      have : a ≠ x := by rintro rfl; exact h.1 hx
      simp [Dict.get?, this]

theorem ids_nodup (k : Nat) : (ids k).Nodup := by
  induction k with
  | zero => exact List.nodup_nil
  | succ k ih =>
    rw [ids_succ, List.nodup_append]
    refine ⟨ih, by simp, ?_⟩
    intro a ha b hb e
    rw [List.mem_singleton.1 hb] at e
    exact ids_fresh k (e ▸ ha)

/-- The project has `k` chapters and `j` scenes, numbered in their order. -/
structure Numbered (n : Novel) (k j : Nat) : Prop where
  chapters : n.chapters.keys = ids k
  srtChapters : n.srtChapters = ids k
  scenes : n.scenes.keys = ids j
  narrative : narrative n = ids j
  chapterTypes : ∀ p ∈ n.chapters, p.2.chType = some 0 ∧ (p.2.chLevel = some 0 ∨ p.2.chLevel = some 1)
  sceneTypes : ∀ p ∈ n.scenes, p.2.scType = some 0 ∧ (p.2.status = some 1 ∨ p.2.status = some 2)
  counts : CountsFit n

theorem Built.numbered {r : Rd} (h : Built r) : Numbered r.novel r.novel.chapters.length r.novel.scenes.length where
  chapters := h.ch
  srtChapters := h.srt.trans h.ch
  scenes := h.sc
  narrative := by
    unfold Spec.narrative
    rw [h.srt, entries_narrative (by rw [h.ch]; exact ids_nodup _)]
    exact h.narr
  chapterTypes p hp := ⟨(h.chs p hp).type, (h.chs p hp).level⟩
  sceneTypes p hp := ⟨(h.scs p hp).type, (h.scs p hp).status⟩
  counts id sc t hs ht := (h.scs (id, sc) (mem_of_get? hs)).fit t ht

theorem Numbered.sound {n : Novel} {k j : Nat} (h : Numbered n k j) : Sound n where
  chKeys := by rw [h.chapters]; exact ids_nodup k
  scKeys := by rw [h.scenes]; exact ids_nodup j
  chNodup := by rw [h.srtChapters]; exact ids_nodup k
  chIn c hc := by rw [h.chapters, ← h.srtChapters]; exact hc
  scNodup := by rw [h.narrative]; exact ids_nodup j
  scIn s hs := by rw [h.scenes, ← h.narrative]; exact hs

/-- The project is empty: nothing has been read into it. -/
structure Empty (n : Novel) : Prop where
  chapters : n.chapters = []
  scenes : n.scenes = []
  srtChapters : n.srtChapters = []

/-- **C44**, for every document: the chapters and scenes are numbered consecutively, in their order; there are as many chapters as
headings of the first and second level. -/
theorem C44_import_structure_partial {f : OdtFile} {n m : Novel} (hn : Empty n) (h : readOdt importReader f n = .ok m) :
    ∃ calls, feedFile f = .ok calls ∧ ∃ j, Numbered m (calls.countP Call.isHead) j := by
  unfold readOdt at h
  obtain ⟨cs, h1, h⟩ := bind_ok h
  obtain ⟨r, h2, h⟩ := bind_ok h
  cases h
  obtain ⟨b, hb⟩ := import_run (built_start hn.chapters hn.scenes hn.srtChapters) h2
  have := hb.built.numbered
  rw [hb.chapters] at this
  rw [show ({ novel := n } : Rd).novel.chapters.length = 0 by rw [hn.chapters]; rfl, Nat.zero_add] at this
  exact ⟨cs, h1, _, this⟩

/-- The same for an outline; there are as many scenes as headings of the third level. -/
theorem C44_outline_structure_partial {f : OdtFile} {n m : Novel} (hn : Empty n) (h : readOdt outlineReader f n = .ok m) :
    ∃ calls, feedFile f = .ok calls ∧ Numbered m (calls.countP Call.isHead) (calls.countP Call.isHead3) := by
  unfold readOdt at h
  obtain ⟨cs, h1, h⟩ := bind_ok h
  obtain ⟨r, h2, h⟩ := bind_ok h
  cases h
  have hb := outline_run (built_start hn.chapters hn.scenes hn.srtChapters) h2
  have := hb.built.numbered
  rw [hb.chapters, hb.scenes] at this
  rw [show ({ novel := n } : Rd).novel.chapters.length = 0 by rw [hn.chapters]; rfl,
    show ({ novel := n } : Rd).novel.scenes.length = 0 by rw [hn.scenes]; rfl, Nat.zero_add, Nat.zero_add] at this
  exact ⟨cs, h1, this⟩

theorem Numbered.hasStatus {n : Novel} {k j : Nat} (h : Numbered n k j) : HasStatus n := by
  intro id hid sc hsc
  rcases (h.sceneTypes (id, sc) (mem_of_get? hsc)).2 with e | e
  · exact e ▸ rfl
  · exact e ▸ rfl

/-- When the scenes of a work in progress are split afterwards, the project is still sound, each scene is listed exactly once, and the
chapters and scenes found before are listed in their order. -/
theorem C44_import_sound {f : OdtFile} {n m : Novel} {b : Bool} (hn : Empty n) (h : readFormatted importReader f n = .ok (m, b)) :
    Sound m ∧ (∀ id ∈ m.scenes.keys, (narrative m).count id = 1) ∧ (∀ id ∈ m.chapters.keys, m.srtChapters.count id = 1) ∧
      ∃ k j, (ids k).Sublist m.srtChapters ∧ (ids j).Sublist (narrative m) ∧ ids k <+: m.chapters.keys ∧ ids j <+: m.scenes.keys := by
  unfold readFormatted at h
  obtain ⟨n1, h1, h⟩ := bind_ok h
  obtain ⟨calls, _, j, hm⟩ := C44_import_structure_partial (n := { n with languages := some [] }) ⟨hn.chapters, hn.scenes, hn.srtChapters⟩ h1
  obtain ⟨n2, b2, e2, hs, _, _⟩ := C08_sound n1 hm.sound hm.hasStatus
  rw [h] at e2
  injection e2 with e2
  obtain ⟨rfl, rfl⟩ := Prod.mk.inj e2
  have hst := C08_structure n1 m b hm.sound hm.hasStatus h
  refine ⟨hs, C08_all_listed n1 m b hm.sound hm.hasStatus ?_ h, ?_, calls.countP Call.isHead, j, ?_, ?_, ?_, ?_⟩
  · intro k hk
    rw [hm.narrative, ← hm.scenes]
    exact hk
  · intro id hid
    have hmem : id ∈ m.srtChapters := by
      by_cases hk : id ∈ n1.chapters.keys
      · refine hst.2.2.1.subset ?_
        rw [hm.srtChapters, ← hm.chapters]
        exact hk
      · exact hst.2.2.2.2.2.1 id hid hk
    have h1 := List.nodup_iff_count.1 hs.chNodup id
    have h2 := List.count_pos_iff.2 hmem
    omega
  · rw [← hm.srtChapters]; exact hst.2.2.1
  · rw [← hm.narrative]; exact hst.2.2.2.1
  · rw [← hm.chapters]; exact hst.1
  · rw [← hm.scenes]; exact hst.2.1

/-! ### Documents of the expected form -/

theorem keys_wipChapters (k j : Nat) (cs : List WipChapter) : Dict.keys (wipChapters k j cs) = idsFrom k cs.length := by
  induction cs generalizing k j with
  | nil => rfl
  | cons c cs ih =>
    rw [wipChapters, List.length_cons, idsFrom_succ, ← ih (k + 1) (j + c.scenes.length)]
    rfl

theorem keys_outlineChapters (k j : Nat) (cs : List OutlineChapter) : Dict.keys (outlineChapters k j cs) = idsFrom k cs.length := by
  induction cs generalizing k j with
  | nil => rfl
  | cons c cs ih =>
    rw [outlineChapters, List.length_cons, idsFrom_succ, ← ih (k + 1) (j + c.scenes.length)]
    rfl

theorem idsFrom_zero (k : Nat) : idsFrom 0 k = ids k := by
  have := ids_idsFrom 0 k
  rw [Nat.zero_add] at this
  exact this

theorem readable_calls {h : Reader} {st : XNode} {info : Option XNode} {n m : Novel} (hr : readOdt h ⟨st, info, []⟩ n = .ok m) :
    ∃ a b, stylesCalls st = .ok a ∧ infoCalls info = .ok b := by
  unfold readOdt feedFile at hr
  obtain ⟨cs, h1, _⟩ := bind_ok hr
  obtain ⟨a, ha, h1⟩ := bind_ok h1
  obtain ⟨b, hb, _⟩ := bind_ok h1
  exact ⟨a, b, ha, hb⟩

theorem mem_numbered {j : Nat} {l : List (List Par)} {p : Str × Scene} (h : p ∈ Spec.numbered j l) : ∃ k, ∃ ps ∈ l, p.2 = wipScene k ps := by
  induction l generalizing j with
  | nil => cases h
  | cons ps l ih =>
    rw [Spec.numbered] at h
    rcases List.mem_cons.1 h with rfl | h
    · exact ⟨_, ps, by simp, rfl⟩
    · obtain ⟨k, qs, hq, e⟩ := ih h
      exact ⟨k, qs, by simp [hq], e⟩

/-- **C44**, work in progress: for a document that consists of headings of the first and second level, plain paragraphs and scene dividers,
reading it into an empty project yields a chapter per heading, and a scene per group of paragraphs, numbered in their order; the text of
each scene consists of all its paragraphs; the comment at its beginning becomes its title. Title, author and description are those of the
document, if it has any. The rest of the project is not touched. The styles and the properties of the document must be readable. -/
theorem C44_import_partial {st : XNode} {info : Option XNode} {n m0 : Novel} (hn : Empty n) (hr : readOdt importReader ⟨st, info, []⟩ n = .ok m0)
    {pre : List Ev} (hpre : ∀ e ∈ pre, Inert e) {cs : List WipChapter} (hc : ∀ c ∈ cs, c.Ok)
    (hj : ∀ c ∈ cs, ∀ ps ∈ c.scenes, Joined (wipText ps)) (hh : ∀ c ∈ cs, ∀ ps ∈ c.scenes, ∀ l ∈ Spec.linesOf (wipText ps), l.head? ≠ some '#') :
    ∃ m, readFormatted importReader ⟨st, info, pre ++ cs.flatMap WipChapter.events⟩ n = .ok (m, false) ∧
      m.srtChapters = ids cs.length ∧ m.chapters = wipChapters 0 0 cs ∧ m.scenes = Spec.numbered 0 (cs.flatMap WipChapter.scenes) ∧
      narrative m = ids (cs.flatMap WipChapter.scenes).length ∧
      m.title = (infoField c!"dc:title" info).or n.title ∧ m.authorName = (infoField c!"meta:initial-creator" info).or n.authorName ∧
      m.desc = (infoField c!"dc:description" info).or n.desc ∧
      { m with chapters := n.chapters, scenes := n.scenes, srtChapters := n.srtChapters, title := n.title, authorName := n.authorName, desc := n.desc, languages := n.languages, languageCode := n.languageCode, countryCode := n.countryCode } = n := by
  obtain ⟨a, b, ha, hb⟩ := readable_calls hr
  obtain ⟨L, lc, cc, hread⟩ := read_document import_imports ha hb { n with languages := some [] } hn.chapters hn.scenes hn.srtChapters
  generalize hn0 : ({ ({ n with languages := some [] } : Novel) with languageCode := lc, countryCode := cc, title := ((infoField c!"dc:title" info).map id).or ({ n with languages := some [] } : Novel).title, authorName := (infoField c!"meta:initial-creator" info).or ({ n with languages := some [] } : Novel).authorName, desc := (infoField c!"dc:description" info).or ({ n with languages := some [] } : Novel).desc } : Novel) = n0 at hread
  have hl : n0.languages = some [] := by rw [← hn0]
  obtain ⟨st1, g1⟩ := Goes.inerts (h := importReader) hpre none [] (wip n0 [] [] L none none false)
  obtain ⟨L2, sc2, chi2, st2, cm2, g2⟩ := chapters_go (n0 := n0) (C := []) (S := []) hc hj hl rfl rfl L none none st1 []
  have hm := hread _ _ _ (g1.append g2)
  generalize hr' : wip n0 ([] ++ wipChapters ([] : Dict Chapter).length ([] : Dict Scene).length cs) ([] ++ Spec.numbered ([] : Dict Scene).length (cs.flatMap WipChapter.scenes)) L2 sc2 chi2 false = r' at hm
  have e1 : r'.novel = { n0 with chapters := wipChapters 0 0 cs, scenes := Spec.numbered 0 (cs.flatMap WipChapter.scenes), srtChapters := ids cs.length } := by
    rw [← hr', ← idsFrom_zero, ← keys_wipChapters 0 0 cs]
    rfl
  obtain ⟨calls, _, j, hnum⟩ := C44_import_structure_partial (n := { n with languages := some [] }) ⟨hn.chapters, hn.scenes, hn.srtChapters⟩ hm
  have hsplit : splitScenes r'.novel = .ok (r'.novel, false) := by
    refine C09_nothing_to_do r'.novel hnum.counts hnum.sound.chIn hnum.sound.scIn ?_
    intro s hs l hl'
    unfold Spec.textOf at hl'
    cases hg : r'.novel.scenes.get? s with
    | none =>
      rw [hg] at hl'
      have : l = [] := by
        have : Spec.linesOf ([] : Str) = [[]] := rfl
        simpa [this] using hl'
      rw [this]
      simp
    | some sc =>
      rw [hg] at hl'
      have hmem := mem_of_get? hg
      rw [e1] at hmem
      obtain ⟨k, ps, hps, e⟩ := mem_numbered hmem
      have e : sc = wipScene k ps := e
      obtain ⟨c, hcm, hps⟩ := List.mem_flatMap.1 hps
      by_cases he : ps.isEmpty = true
      · rw [e] at hl'
        unfold wipScene at hl'
        simp only [he, if_true] at hl'
        have : l = [] := by
          have : Spec.linesOf ([] : Str) = [[]] := rfl
          simpa [this] using hl'
        rw [this]
        simp
      · rw [e] at hl'
        unfold wipScene at hl'
        simp only [he] at hl'
        exact hh c hcm ps hps l hl'
  refine ⟨r'.novel, ?_, ?_⟩
  · unfold readFormatted
    rw [hm]
    exact hsplit
  · have hlen : j = (cs.flatMap WipChapter.scenes).length := by
      have h1 := hnum.scenes
      rw [e1] at h1
      have h2 := congrArg List.length h1
      simpa [Dict.keys, numbered_length, ids] using h2.symm
    have hnar := hnum.narrative
    rw [hlen] at hnar
    refine ⟨by rw [e1], by rw [e1], by rw [e1], hnar, ?_, ?_, ?_, ?_⟩
    · rw [e1, ← hn0]
      simp
    · rw [e1, ← hn0]
    · rw [e1, ← hn0]
    · rw [e1, ← hn0]

/-- **C44**, outline: for a document that consists of headings of the first three levels and plain paragraphs, reading it into an empty
project yields a chapter per heading of the first or second level, a scene per heading of the third level, numbered in their order; the
description of each consists of all paragraphs that follow its heading. -/
theorem C44_outline_partial {st : XNode} {info : Option XNode} {n m0 : Novel} (hn : Empty n) (hr : readOdt outlineReader ⟨st, info, []⟩ n = .ok m0)
    {pre : List Ev} (hpre : ∀ e ∈ pre, Inert e) {cs : List OutlineChapter} (hc : ∀ c ∈ cs, c.Ok) :
    ∃ m, readOdt outlineReader ⟨st, info, pre ++ cs.flatMap OutlineChapter.events⟩ n = .ok m ∧
      m.srtChapters = ids cs.length ∧ m.chapters = outlineChapters 0 0 cs ∧ m.scenes = outlineScenes 0 (cs.flatMap OutlineChapter.scenes) ∧
      narrative m = ids (cs.flatMap OutlineChapter.scenes).length ∧
      m.title = ((infoField c!"dc:title" info).map Str.strip).or n.title ∧ m.authorName = (infoField c!"meta:initial-creator" info).or n.authorName ∧
      m.desc = (infoField c!"dc:description" info).or n.desc ∧
      { m with chapters := n.chapters, scenes := n.scenes, srtChapters := n.srtChapters, title := n.title, authorName := n.authorName, desc := n.desc, languageCode := n.languageCode, countryCode := n.countryCode } = n := by
  obtain ⟨a, b, ha, hb⟩ := readable_calls hr
  obtain ⟨L, lc, cc, hread⟩ := read_document outline_imports ha hb n hn.chapters hn.scenes hn.srtChapters
  generalize hn0 : ({ n with languageCode := lc, countryCode := cc, title := ((infoField c!"dc:title" info).map Str.strip).or n.title, authorName := (infoField c!"meta:initial-creator" info).or n.authorName, desc := (infoField c!"dc:description" info).or n.desc } : Novel) = n0 at hread
  obtain ⟨st1, g1⟩ := Goes.inerts (h := outlineReader) hpre none [] (wip n0 [] [] L none none false)
  obtain ⟨L2, sc2, chi2, st2, g2⟩ := ol_chapters (n0 := n0) (C := []) (S := []) hc rfl rfl L none none st1 []
  have hm := hread _ _ _ (g1.append g2)
  generalize hr' : wip n0 ([] ++ outlineChapters ([] : Dict Chapter).length ([] : Dict Scene).length cs) ([] ++ outlineScenes ([] : Dict Scene).length (cs.flatMap OutlineChapter.scenes)) L2 sc2 chi2 false = r' at hm
  have e1 : r'.novel = { n0 with chapters := outlineChapters 0 0 cs, scenes := outlineScenes 0 (cs.flatMap OutlineChapter.scenes), srtChapters := ids cs.length } := by
    rw [← hr', ← idsFrom_zero, ← keys_outlineChapters 0 0 cs]
    rfl
  obtain ⟨calls, _, hnum⟩ := C44_outline_structure_partial hn hm
  refine ⟨r'.novel, hm, ?_⟩
  have hlen : calls.countP Call.isHead3 = (cs.flatMap OutlineChapter.scenes).length := by
    have h1 := hnum.scenes
    rw [e1] at h1
    have h2 := congrArg List.length h1
    simpa [Dict.keys, outlineScenes_length, ids] using h2.symm
  have hnar := hnum.narrative
  rw [hlen] at hnar
  refine ⟨by rw [e1], by rw [e1], by rw [e1], hnar, ?_, ?_, ?_, ?_⟩
  · rw [e1, ← hn0]
  · rw [e1, ← hn0]
  · rw [e1, ← hn0]
  · rw [e1, ← hn0]

/-! ### Examples -/

/-- A paragraph of the standard style. -/
def stdPar (rs : List Run) : Par := ⟨c!"Standard", rs, [.chars c!"\n"]⟩

/-- A work in progress: a part, and a chapter with two scenes. -/
def exWip : List WipChapter :=
  [⟨⟨1, c!"Part & parcel", []⟩, [], []⟩,
   ⟨⟨2, c!"One", [.chars c!"\n"]⟩, [stdPar [.note c!"N." c!" First ", .plain c!"Hello ", .emph c!"world"], stdPar [.plain c!"Bye"]],
     [(stdPar [.plain c!"* * *"], [stdPar [.strong c!"Next"]])]⟩]

/-- What precedes the first heading. -/
def exPre : List Ev :=
  [.start c!"office:document-content" [], .start c!"style:style" [(c!"style:name", c!"P1"), (c!"style:parent-style-name", c!"Standard")],
   .start c!"style:text-properties" [(c!"fo:color", c!"#000000")], .stop c!"style:text-properties", .stop c!"style:style",
   .start c!"office:body" [], .chars c!"\n"]

theorem exPre_inert : ∀ e ∈ exPre, Inert e := by
  intro e he
  simp only [exPre, List.mem_cons, List.not_mem_nil, or_false] at he
  rcases he with rfl | rfl | rfl | rfl | rfl | rfl | rfl
  · exact .inl (by decide)
  · exact .inr (.inl ⟨rfl, by intro v hv; have : v = c!"Standard" := by { have h : some c!"Standard" = some v := hv; exact (Option.some.inj h).symm }; subst this; decide⟩)
  · exact .inr (.inr ⟨rfl, by decide, by decide, by decide⟩)
  · exact .inr (.inr rfl)
  · exact .inr (.inl rfl)
  · exact .inl (by decide)
  · exact trivial

theorem stdPar_ok (rs : List Run) : (stdPar rs).Ok where
  style := by show PlainStyle c!"Standard"; unfold PlainStyle; decide
  after := by
    intro e he
    simp only [stdPar, List.mem_cons, List.not_mem_nil, or_false] at he
    subst he
    trivial

theorem noStars_of {p : Par} (h : ∀ r ∈ p.runs, Str.contains r.chars c!"* * *" = false) : p.NoStars := by
  intro r hr s hs
  have := (contains_false_iff _ _).1 (h r hr)
  rcases hs with rfl | rfl | rfl <;> exact this

theorem exWip_ok : ∀ c ∈ exWip, c.Ok := by
  intro c hc
  simp only [exWip, List.mem_cons, List.not_mem_nil, or_false] at hc
  rcases hc with rfl | rfl
  · exact ⟨.inl rfl, by simp, by simp, by simp⟩
  · refine ⟨.inr rfl, ?_, ?_, ?_⟩
    · intro e he
      simp only [List.mem_cons, List.not_mem_nil, or_false] at he
      subst he
      trivial
    · intro p hp
      simp only [List.mem_cons, List.not_mem_nil, or_false] at hp
      rcases hp with rfl | rfl <;> exact ⟨stdPar_ok _, noStars_of (by decide)⟩
    · intro m hm
      simp only [List.mem_cons, List.not_mem_nil, or_false] at hm
      subst hm
      refine ⟨⟨stdPar_ok _, _, rfl, List.infix_refl _⟩, ?_⟩
      intro p hp
      simp only [List.mem_cons, List.not_mem_nil, or_false] at hp
      subst hp
      exact ⟨stdPar_ok _, noStars_of (by decide)⟩

/-- The properties of a document. -/
def exInfo : Option XNode :=
  some (.elem c!"office:document-meta" [] [.elem c!"office:meta" [] [.elem c!"dc:title" [] [.text c!"My novel"], .elem c!"meta:initial-creator" [] [.text c!"N. N."]]])

set_option maxRecDepth 100000 in
/-- The example satisfies the hypotheses of the theorem. -/
example : ∃ m, readFormatted importReader ⟨plainStyles, exInfo, exPre ++ exWip.flatMap WipChapter.events⟩ {} = .ok (m, false) ∧
    m.srtChapters = [c!"1", c!"2"] ∧ m.title = some c!"My novel" ∧ m.authorName = some c!"N. N." ∧
    m.chapters.map (fun p => (p.2.title, p.2.srtScenes)) = [(some c!"Part & parcel", []), (some c!"One", [c!"1", c!"2"])] ∧
    m.scenes.map (fun p => (p.1, p.2.title, p.2.sceneContent)) =
      [(c!"1", some c!"First", some c!"Hello [i]world[/i]\nBye"), (c!"2", some c!"Scene 2", some c!"[b]Next[/b]")] := by
  obtain ⟨m, h1, h2, h3, h4, _, h6, h7, _⟩ := C44_import_partial (st := plainStyles) (info := exInfo) (n := {}) ⟨rfl, rfl, rfl⟩ (m0 := { title := some c!"My novel", authorName := some c!"N. N." }) rfl
    exPre_inert exWip_ok (by unfold Joined; decide) (by decide)
  refine ⟨m, h1, h2, h6, h7, ?_, ?_⟩
  · rw [h3]; decide
  · rw [h4]; decide

/-- An outline: a chapter with a description and two scenes. -/
def exOutline : List OutlineChapter :=
  [⟨⟨2, c!"One", []⟩, [stdPar [.plain c!"What ", .emph c!"happens"], stdPar [.plain c!"First."]],
     [⟨⟨3, c!" Scene A ", []⟩, [stdPar [.plain c!"They meet."]]⟩, ⟨⟨3, c!"Scene B", []⟩, []⟩]⟩]

theorem exOutline_ok : ∀ c ∈ exOutline, c.Ok := by
  intro c hc
  simp only [exOutline, List.mem_cons, List.not_mem_nil, or_false] at hc
  subst hc
  refine ⟨.inr rfl, by simp, ?_, ?_⟩
  · intro p hp
    simp only [List.mem_cons, List.not_mem_nil, or_false] at hp
    rcases hp with rfl | rfl <;> exact ⟨stdPar_ok _, by decide, by decide, by decide⟩
  · intro s hs
    simp only [List.mem_cons, List.not_mem_nil, or_false] at hs
    rcases hs with rfl | rfl
    · refine ⟨rfl, by simp, ?_⟩
      intro p hp
      simp only [List.mem_cons, List.not_mem_nil, or_false] at hp
      subst hp
      exact ⟨stdPar_ok _, by decide, by decide, by decide⟩
    · exact ⟨rfl, by simp, by simp⟩

set_option maxRecDepth 100000 in
/-- The example satisfies the hypotheses of the theorem. -/
example : ∃ m, readOdt outlineReader ⟨plainStyles, exInfo, exPre ++ exOutline.flatMap OutlineChapter.events⟩ {} = .ok m ∧
    m.srtChapters = [c!"1"] ∧
    m.chapters.map (fun p => (p.2.title, p.2.desc, p.2.srtScenes)) = [(some c!"One", some c!"What happens\nFirst.\n", [c!"1", c!"2"])] ∧
    m.scenes.map (fun p => (p.2.title, p.2.desc)) = [(some c!"Scene A", some c!"They meet.\n"), (some c!"Scene B", none)] := by
  obtain ⟨m, h1, h2, h3, h4, _⟩ := C44_outline_partial (st := plainStyles) (info := exInfo) (n := {}) ⟨rfl, rfl, rfl⟩ (m0 := { title := some c!"My novel", authorName := some c!"N. N." }) rfl
    exPre_inert exOutline_ok
  refine ⟨m, h1, h2, ?_, ?_⟩
  · rw [h3]; decide
  · rw [h4]; decide

/-! ### The statement in general is false -/

/-- A paragraph of the given style. -/
def parEvents (style x : Str) : List Ev := [.start c!"text:p" [(c!"text:style-name", style)], .chars x, .stop c!"text:p"]

/-- The full statement: the text of every paragraph is in a scene. -/
def C44_statement : Prop := ∀ (a b : List Ev) (style x : Str) (m : Novel) (f : Bool),
  readFormatted importReader ⟨plainStyles, none, a ++ parEvents style x ++ b⟩ {} = .ok (m, f) →
    ∃ id s t, m.scenes.get? id = some s ∧ s.sceneContent = some t ∧ x <:+: t

/-- A heading of the second level. -/
def exHead : List Ev := (⟨2, c!"One", []⟩ : Heading).events

/-- A quotation directly after a heading is lost. -/
theorem C44_false : ¬ C44_statement := by
  intro h
  obtain ⟨id, s, t, h1, _, _⟩ := h exHead [] c!"Quotations" c!"Lost" { chapters := [(c!"1", { title := some c!"One", chType := some 0, chLevel := some 0 })], srtChapters := [c!"1"], languages := some [] } false rfl
  cases h1

/-- The same for a text before the first heading. -/
theorem C44_false_beginning : ∃ m, readFormatted importReader ⟨plainStyles, none, parEvents c!"Standard" c!"Lost" ++ exHead⟩ {} = .ok (m, false) ∧ m.scenes = [] :=
  ⟨_, rfl, rfl⟩

/-- The same for a paragraph that contains the mark of a scene divider. -/
theorem C44_false_stars : ∃ m, readFormatted importReader ⟨plainStyles, none, exHead ++ parEvents c!"Standard" c!"Rated * * * by all"⟩ {} = .ok (m, false) ∧
    m.scenes.map (fun p => p.2.sceneContent) = [none] :=
  ⟨_, rfl, rfl⟩

/-- An empty paragraph of an outline vanishes, and a quotation is merged with the next paragraph. -/
theorem C44_false_outline : ∃ m, readOdt outlineReader ⟨plainStyles, none, exHead ++ parEvents c!"Standard" c!"a" ++ parEvents c!"Standard" c!"" ++ parEvents c!"Quotations" c!"b" ++ parEvents c!"Standard" c!"c"⟩ {} = .ok m ∧
    m.chapters.map (fun p => p.2.desc) = [some c!"a\nbc\n"] :=
  ⟨_, rfl, rfl⟩

end Verif
