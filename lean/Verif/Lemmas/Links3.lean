import Verif.Lemmas.Links2
import Verif.Lemmas.NestDoc
import Verif.Props.C49_Sheets
import Verif.Lemmas.XrefDoc2

namespace Verif
open Spec Template

/-! ### Sections of a text -/

/-- A text of a document that begins and ends outside of tags and has start tags of sections with these names. -/
def Shows (s : Str) (names : List Str) : Prop := ∀ acc, ∃ acc' evs, saxRun (.text acc) s = (.text acc', evs) ∧
  ∀ x ∈ names, ∃ as, Ev.start c!"text:section" as ∈ evs ∧ as.get? c!"text:name" = some x

theorem Shows.nil : Shows [] [] := fun acc => ⟨acc, [], rfl, by simp⟩

theorem Shows.append {s1 s2 : Str} {l1 l2 : List Str} (h1 : Shows s1 l1) (h2 : Shows s2 l2) : Shows (s1 ++ s2) (l1 ++ l2) := by
  intro acc
  obtain ⟨a1, e1, x1, y1⟩ := h1 acc
  obtain ⟨a2, e2, x2, y2⟩ := h2 a1
  refine ⟨a2, e1 ++ e2, saxRun_comp x1 x2, ?_⟩
  intro x hx
  rcases List.mem_append.1 hx with h | h
  · obtain ⟨as, g1, g2⟩ := y1 x h
    exact ⟨as, List.mem_append_left _ g1, g2⟩
  · obtain ⟨as, g1, g2⟩ := y2 x h
    exact ⟨as, List.mem_append_right _ g1, g2⟩

theorem Shows.sub {s : Str} {l l' : List Str} (h : Shows s l) (hl : ∀ x ∈ l', x ∈ l) : Shows s l' := by
  intro acc
  obtain ⟨a, e, x, y⟩ := h acc
  exact ⟨a, e, x, fun z hz => y z (hl z hz)⟩

theorem Shows.bal {s : Str} {a b : List Str} (h : Bal s a b) : Shows s [] := by
  intro acc
  obtain ⟨a, e, x, _⟩ := h acc
  exact ⟨a, e, x, by simp⟩

theorem Shows.section {name : Str} (hn : name.all plainAttr = true) : Shows (secOpen name) [name] := by
  intro acc
  obtain ⟨o, e1, x1⟩ := secOpen_sax hn
  rw [e1]
  refine ⟨c!"\n", saxPend acc ++ [.start c!"text:section" [(c!"text:style-name", c!"Sect1"), (c!"text:name", name)]], ?_, ?_⟩
  · rw [saxRun_lt, x1]
  · intro x hx
    cases List.mem_singleton.1 hx
    exact ⟨_, List.mem_append_right _ (List.mem_singleton.2 rfl), rfl⟩

theorem Shows.secEnd : Shows secEnd [] :=
  Shows.bal (Bal.tag (t := c!"/text:section>\n") (acc' := c!"\n") (evs := [.stop c!"text:section"]) (a := [c!"text:section"]) (a' := []) (by decide +kernel) (by simp [nest]))

/-- A document. -/
theorem Shows.document {s : Str} {l : List Str} (h : Shows s l) (hcr : '\r' ∉ s) : ∀ x ∈ l, HasRegion s x := by
  intro x hx
  obtain ⟨a, e, r, y⟩ := h []
  obtain ⟨as, g1, g2⟩ := y x hx
  refine ⟨e ++ saxPend a, as, ?_, List.mem_append_left _ g1, g2⟩
  unfold saxEvents
  rw [normEol_id hcr, r]

/-! ### The same after the replacement of quotation marks -/

def ShowsPart (s : Str) (l : List Str) : Prop := ∃ t, Quot s t ∧ Shows t l

theorem ShowsPart.even {s : Str} (h : EvenPart s) : ShowsPart s [] := by
  obtain ⟨t, q, b⟩ := h
  exact ⟨t, q, Shows.bal b⟩

theorem ShowsPart.append {s1 s2 : Str} {l1 l2 : List Str} (h1 : ShowsPart s1 l1) (h2 : ShowsPart s2 l2) : ShowsPart (s1 ++ s2) (l1 ++ l2) := by
  obtain ⟨t1, q1, b1⟩ := h1
  obtain ⟨t2, q2, b2⟩ := h2
  exact ⟨t1 ++ t2, q1.append q2, b1.append b2⟩

theorem ShowsPart.section {pre id : Str} (hp : pre = c!"ScID:" ∨ pre = c!"ChID:") (h : NumId id) {mid : Str} {l : List Str} (hm : ShowsPart mid l) :
    ShowsPart (secOpen (pre ++ id) ++ (mid ++ secEnd)) ((pre ++ id) :: l) := by
  obtain ⟨t, q, hb⟩ := hm
  refine ⟨secOpen (pre ++ id) ++ (t ++ secEnd), (secOpen_quot hp h).append (q.append (Quot.lit (by decide))), ?_⟩
  have := (Shows.section (secName_plain hp h)).append (hb.append Shows.secEnd)
  rw [List.append_nil] at this
  exact this

theorem sceneText_shows (e : DocEnv) {ls : List Str} {n : Novel} (hn : Exportable n) (hls : n.languages.getD [] = ls) (hL : ∀ l ∈ ls, LangCode l) (hf : (formats ls).Nodup) (hA : AuthorOk n.authorName)
    {p : Str × Scene} (hp : n.scenes.get? p.1 = some p.2) (hmem : p.1 ∈ narrative n) (hc : SceneWritable ls p) (before : List (Str × Scene)) (first : Bool) :
    ShowsPart (Spec.sceneText (odtManuscript e) n before first p).flatten [c!"ScID:" ++ p.1] := by
  obtain ⟨ps, hps, hN⟩ := hc.text
  obtain ⟨m, hm, h1, h2, h3⟩ := sceneMapping_values e hn hmem hp (before ++ [p]).length (total (·.wordCount) (before ++ [p])) (total (·.letterCount) (before ++ [p]))
  obtain ⟨t', ht1, ht2⟩ := conv_title e n hc.title
  have h3' : m.get? c!"SceneContent" = some (formattedConvert (spanReplacements ++ commentReplacements n.authorName) ls (some (rawText ps)) false) := by
    rw [h3, ← hps, ← hls]
    cases hsc : p.2.sceneContent with
    | none => rfl
    | some t => rfl
  rw [ht1] at h1
  have key : ∀ st, st = indStyle ∨ st = bodyStyle → ShowsPart ((h3Open ++ (t'.flatMap escChar ++ hEnd)) ++ (secOpen (c!"ScID:" ++ p.1) ++
      ((pOpen st ++ formattedConvert (spanReplacements ++ commentReplacements n.authorName) ls (some (rawText ps)) false ++ pEnd) ++ (c!"\n" ++ secEnd)))) [c!"ScID:" ++ p.1] := by
    intro st hst
    have := (ShowsPart.even (h3_even ht2)).append (ShowsPart.section (.inl rfl) hc.number
      (ShowsPart.even ((paragraphs_even hL hf hA hN hst).append (s2 := c!"\n") ⟨c!"\n", Quot.lit (by decide), Bal.plain (by decide) _⟩)))
    rw [List.append_assoc (pOpen st ++ _ ++ pEnd)] at this
    exact this
  unfold Spec.sceneText
  simp only [hm, filled]
  have body : ShowsPart (subst (if (!first && p.2.appendToPrev == some true && decide ((odtManuscript e).appendedScene ≠ [])) = true then (odtManuscript e).appendedScene else (odtManuscript e).scene) m) [c!"ScID:" ++ p.1] := by
    split
    · rw [show (odtManuscript e).appendedScene = manuscriptTemplates.appendedScene from rfl, subst_appended h1 h2 h3']
      exact key _ (.inl rfl)
    · rw [show (odtManuscript e).scene = manuscriptTemplates.scene from rfl, subst_scene h1 h2 h3']
      exact key _ (.inr rfl)
  rw [List.flatten_append]
  have hd : ShowsPart (if (first || p.2.appendToPrev == some true) = true then [] else [(odtManuscript e).sceneDivider]).flatten [] := by
    split
    · exact ShowsPart.even EvenPart.nil
    · rw [List.flatten_cons, List.flatten_nil, List.append_nil]
      exact ShowsPart.even divider_even
  have := hd.append (s2 := subst (if (!first && p.2.appendToPrev == some true && decide ((odtManuscript e).appendedScene ≠ [])) = true then (odtManuscript e).appendedScene else (odtManuscript e).scene) m) body
  rw [List.flatten_singleton]
  exact this

theorem scenesText_shows (e : DocEnv) {ls : List Str} {n : Novel} (hn : Exportable n) (hls : n.languages.getD [] = ls) (hL : ∀ l ∈ ls, LangCode l) (hf : (formats ls).Nodup) (hA : AuthorOk n.authorName)
    (l : List (Str × Scene)) (hp : ∀ p ∈ l, n.scenes.get? p.1 = some p.2 ∧ p.1 ∈ narrative n ∧ SceneWritable ls p) (before : List (Str × Scene)) (first : Bool) :
    ShowsPart (Spec.scenesText (odtManuscript e) n before first l).flatten (l.map fun p => c!"ScID:" ++ p.1) := by
  induction l generalizing before first with
  | nil => exact ShowsPart.even EvenPart.nil
  | cons p l ih =>
    unfold Spec.scenesText
    rw [List.flatten_append]
    obtain ⟨h1, h2, h3⟩ := hp p (by simp)
    exact (sceneText_shows e hn hls hL hf hA h1 h2 h3 before first).append (ih (fun q hq => hp q (by simp [hq])) _ _)

/-- The names of the sections of a chapter. -/
def chapterSections (n : Novel) (id : Str) : List Str :=
  match n.chapters.get? id with
  | none => []
  | some ch => if chapterShown n ch = true then (c!"ChID:" ++ id) :: (exportedIn n ch).map fun p => c!"ScID:" ++ p.1 else []

theorem chapterText_shows (e : DocEnv) {ls : List Str} {n : Novel} (hn : Exportable n) (hls : n.languages.getD [] = ls) (hL : ∀ l ∈ ls, LangCode l) (hf : (formats ls).Nodup) (hA : AuthorOk n.authorName)
    {id : Str} {ch : Chapter} (hid : id ∈ n.srtChapters) (hch : n.chapters.get? id = some ch)
    (hsh : chapterShown n ch = true) (hc : ChapterCarried id ch) (hp : ∀ p ∈ exportedIn n ch, SceneWritable ls p) (before : List Str) :
    ShowsPart (Spec.chapterText (odtManuscript e) n before id).flatten (chapterSections n id) := by
  unfold Spec.chapterText chapterSections
  rw [hch]
  simp only
  rw [if_pos hsh, if_pos hsh]
  obtain ⟨m, t', e1, e2, e3, e4⟩ := chapterMapping_values e hch hc.title
    (if isPart (odtManuscript e).toTemplates ch = true then 0 else (numberedChapters (odtManuscript e).toTemplates n before).length + 1)
  rw [e1]
  simp only [filled]
  have p2 : ∃ hd, subst (if isPart (odtManuscript e).toTemplates ch = true then (odtManuscript e).part else (odtManuscript e).chapter) m = secOpen (c!"ChID:" ++ id) ++ hd ∧ EvenPart hd := by
    split
    · rw [show (odtManuscript e).part = manuscriptTemplates.part from rfl, subst_part e2 e4]
      exact ⟨_, rfl, h1_even e3⟩
    · rw [show (odtManuscript e).chapter = manuscriptTemplates.chapter from rfl, subst_chapter e2 e4]
      exact ⟨_, rfl, h2_even e3⟩
  have hmem : ∀ p ∈ exportedIn n ch, p.1 ∈ narrative n := by
    intro p hp
    unfold exportedIn at hp
    rw [List.mem_filter, List.mem_filterMap] at hp
    obtain ⟨⟨i, hi, h2⟩, _⟩ := hp
    cases hs : n.scenes.get? i with
    | none => rw [hs] at h2; cases h2
    | some s =>
      rw [hs] at h2
      cases h2
      unfold narrative
      rw [List.mem_flatMap]
      exact ⟨id, hid, by unfold scenesOf; rw [hch]; exact hi⟩
  have p3 := scenesText_shows e hn hls hL hf hA (exportedIn n ch) (fun p hq => ⟨exportedIn_mem hq, hmem p hq, hp p hq⟩) (exported n before) true
  have e6 : (if (odtManuscript e).chapterEnd = [] then [] else [subst (odtManuscript e).chapterEnd m]) = [secEnd] := by
    rw [show (odtManuscript e).chapterEnd = secEnd from rfl, if_neg (by decide), subst_secEnd]
  obtain ⟨hd, e7, p2⟩ := p2
  rw [e6, e7, List.flatten_append, List.flatten_append, List.flatten_cons, List.flatten_nil, List.append_nil, List.flatten_cons, List.flatten_nil, List.append_nil]
  have := ShowsPart.section (.inr rfl) hc.number ((ShowsPart.even p2).append p3)
  rw [List.nil_append] at this
  simpa only [List.append_assoc] using this

theorem manuscript_shows (e : DocEnv) {ls : List Str} {n : Novel} (hn : Exportable n) (hls : n.languages.getD [] = ls) (hL : ∀ l ∈ ls, LangCode l) (hf : (formats ls).Nodup) (hA : AuthorOk n.authorName)
    (ids : List Str) (hids : ∀ id ∈ ids, id ∈ n.srtChapters)
    (hch : ∀ id ∈ ids, ∀ ch, n.chapters.get? id = some ch → chapterShown n ch = true → ChapterCarried id ch ∧ ∀ p ∈ exportedIn n ch, SceneWritable ls p) (before : List Str) :
    ShowsPart (Spec.manuscript (odtManuscript e) n before ids).flatten (ids.flatMap (chapterSections n)) := by
  induction ids generalizing before with
  | nil => exact ShowsPart.even EvenPart.nil
  | cons id ids ih =>
    unfold Spec.manuscript
    rw [List.flatten_append, List.flatMap_cons]
    obtain ⟨ch, hc⟩ := hn.chapters id (hids id (by simp))
    refine ShowsPart.append ?_ (ih (fun i hi => hids i (by simp [hi])) (fun i hi => hch i (by simp [hi])) _)
    by_cases hsh : chapterShown n ch = true
    · obtain ⟨h1, h3⟩ := hch id (by simp) ch hc hsh
      exact chapterText_shows e hn hls hL hf hA (hids id (by simp)) hc hsh h1 h3 before
    · have : Spec.chapterText (odtManuscript e) n before id = [] := by
        unfold Spec.chapterText
        rw [hc]
        simp only
        rw [if_neg hsh]
      rw [this]
      have : chapterSections n id = [] := by
        unfold chapterSections
        rw [hc]
        simp only
        rw [if_neg hsh]
      rw [this]
      exact ShowsPart.even EvenPart.nil

end Verif
