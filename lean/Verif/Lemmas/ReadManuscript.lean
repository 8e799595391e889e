/-
Reading an exported manuscript: chapters and scenes.
-/
import Verif.Lemmas.ReadScene
import Verif.Props.C29_Succeeds

namespace Verif
open Spec Re Template

variable {ls : List Str} {author : Option Str} {type : Nat}

/-! ### The filled templates -/

theorem render_lits (m : Mapping) (l : Str) : (l.map Seg.lit).flatMap (render m) = l := by
  induction l with
  | nil => rfl
  | cons c r ih => simp only [List.map_cons, List.flatMap_cons, ih]; rfl

/-- The beginning of a heading. -/
def h1Open : Str := c!"<text:h text:style-name=\"Heading_20_1\" text:outline-level=\"1\">"
/-- See `h1Open`. -/
def h2Open : Str := c!"<text:h text:style-name=\"Heading_20_2\" text:outline-level=\"2\">"
/-- See `h1Open`. -/
def h3Open : Str := c!"<text:h text:style-name=\"Invisible_20_Heading_20_3\" text:outline-level=\"3\">"
/-- The end of a heading. -/
def hEnd : Str := c!"</text:h>\n"

theorem subst_scene {m : Mapping} {t id c : Str} (ht : m.get? c!"Title" = some t) (hid : m.get? c!"ID" = some id) (hc : m.get? c!"SceneContent" = some c) :
    subst manuscriptTemplates.scene m = (h3Open ++ (t ++ hEnd)) ++ (secOpen (c!"ScID:" ++ id) ++ ((pOpen bodyStyle ++ c ++ pEnd) ++ (c!"\n" ++ secEnd))) := by
  have e : segs manuscriptTemplates.scene = h3Open.map Seg.lit ++ (Seg.var c!"Title" c!"$Title" :: (hEnd.map Seg.lit ++
      (c!"<text:section text:style-name=\"Sect1\" text:name=\"".map Seg.lit ++ (c!"ScID:".map Seg.lit ++ (Seg.var c!"ID" c!"$ID" :: (c!"\">\n".map Seg.lit ++
      ((pOpen bodyStyle).map Seg.lit ++ (Seg.var c!"SceneContent" c!"$SceneContent" :: (pEnd.map Seg.lit ++ (c!"\n".map Seg.lit ++ secEnd.map Seg.lit)))))))))) := by decide +kernel
  unfold subst
  rw [e]
  simp only [List.flatMap_append, List.flatMap_cons, render_lits, render, ht, hid, hc, Option.getD_some]
  unfold secOpen
  simp only [List.append_assoc]

theorem subst_appended {m : Mapping} {t id c : Str} (ht : m.get? c!"Title" = some t) (hid : m.get? c!"ID" = some id) (hc : m.get? c!"SceneContent" = some c) :
    subst manuscriptTemplates.appendedScene m = (h3Open ++ (t ++ hEnd)) ++ (secOpen (c!"ScID:" ++ id) ++ ((pOpen indStyle ++ c ++ pEnd) ++ (c!"\n" ++ secEnd))) := by
  have e : segs manuscriptTemplates.appendedScene = h3Open.map Seg.lit ++ (Seg.var c!"Title" c!"$Title" :: (hEnd.map Seg.lit ++
      (c!"<text:section text:style-name=\"Sect1\" text:name=\"".map Seg.lit ++ (c!"ScID:".map Seg.lit ++ (Seg.var c!"ID" c!"$ID" :: (c!"\">\n".map Seg.lit ++
      ((pOpen indStyle).map Seg.lit ++ (Seg.var c!"SceneContent" c!"$SceneContent" :: (pEnd.map Seg.lit ++ (c!"\n".map Seg.lit ++ secEnd.map Seg.lit)))))))))) := by decide +kernel
  unfold subst
  rw [e]
  simp only [List.flatMap_append, List.flatMap_cons, render_lits, render, ht, hid, hc, Option.getD_some]
  unfold secOpen
  simp only [List.append_assoc]

theorem subst_part {m : Mapping} {t id : Str} (ht : m.get? c!"Title" = some t) (hid : m.get? c!"ID" = some id) :
    subst manuscriptTemplates.part m = secOpen (c!"ChID:" ++ id) ++ (h1Open ++ (t ++ hEnd)) := by
  have e : segs manuscriptTemplates.part = (c!"<text:section text:style-name=\"Sect1\" text:name=\"".map Seg.lit ++ (c!"ChID:".map Seg.lit ++ (Seg.var c!"ID" c!"$ID" ::
      (c!"\">\n".map Seg.lit ++ (h1Open.map Seg.lit ++ (Seg.var c!"Title" c!"$Title" :: hEnd.map Seg.lit)))))) := by decide +kernel
  unfold subst
  rw [e]
  simp only [List.flatMap_append, List.flatMap_cons, render_lits, render, ht, hid, Option.getD_some]
  unfold secOpen
  simp only [List.append_assoc]

theorem subst_chapter {m : Mapping} {t id : Str} (ht : m.get? c!"Title" = some t) (hid : m.get? c!"ID" = some id) :
    subst manuscriptTemplates.chapter m = secOpen (c!"ChID:" ++ id) ++ (h2Open ++ (t ++ hEnd)) := by
  have e : segs manuscriptTemplates.chapter = (c!"<text:section text:style-name=\"Sect1\" text:name=\"".map Seg.lit ++ (c!"ChID:".map Seg.lit ++ (Seg.var c!"ID" c!"$ID" ::
      (c!"\">\n".map Seg.lit ++ (h2Open.map Seg.lit ++ (Seg.var c!"Title" c!"$Title" :: hEnd.map Seg.lit)))))) := by decide +kernel
  unfold subst
  rw [e]
  simp only [List.flatMap_append, List.flatMap_cons, render_lits, render, ht, hid, Option.getD_some]
  unfold secOpen
  simp only [List.append_assoc]

theorem subst_secEnd (m : Mapping) : subst secEnd m = secEnd := Template.subst_lit' (by decide) m

/-! ### Headings and dividers -/

/-- In a heading. -/
def headP (ls : List Str) (cm h : Str) : OdtP := { languageTags := langTags 1 ls, comment := cm, heading := some h }

theorem Part.h1 {r : Rd} (hr : Outside r) {t : Str} (ht : Carriable t) : Part type ls (h1Open ++ (t.flatMap escChar ++ hEnd)) r r :=
  Part.heading (op := c!"text:h text:style-name=\"Heading_20_1\" text:outline-level=\"1\">") (en := c!"/text:h>\n") (e := c!"text:h") (as := [(c!"text:style-name", c!"Heading_20_1"), (c!"text:outline-level", c!"1")]) (tag := c!"h1") (p1 := fun cm => headP ls cm c!"h1") hr ht
    (by decide) (by decide) (by decide) (by decide +kernel)
    ⟨c!"\n", by decide +kernel⟩ (fun _ => rfl) (fun _ _ => rfl) (fun _ => rfl)

theorem Part.h2 {r : Rd} (hr : Outside r) {t : Str} (ht : Carriable t) : Part type ls (h2Open ++ (t.flatMap escChar ++ hEnd)) r r :=
  Part.heading (op := c!"text:h text:style-name=\"Heading_20_2\" text:outline-level=\"2\">") (en := c!"/text:h>\n") (e := c!"text:h") (as := [(c!"text:style-name", c!"Heading_20_2"), (c!"text:outline-level", c!"2")]) (tag := c!"h2") (p1 := fun cm => headP ls cm c!"h2") hr ht
    (by decide) (by decide) (by decide) (by decide +kernel)
    ⟨c!"\n", by decide +kernel⟩ (fun _ => rfl) (fun _ _ => rfl) (fun _ => rfl)

theorem Part.h3 {r : Rd} (hr : Outside r) {t : Str} (ht : Carriable t) : Part type ls (h3Open ++ (t.flatMap escChar ++ hEnd)) r r :=
  Part.heading (op := c!"text:h text:style-name=\"Invisible_20_Heading_20_3\" text:outline-level=\"3\">") (en := c!"/text:h>\n") (e := c!"text:h") (as := [(c!"text:style-name", c!"Invisible_20_Heading_20_3"), (c!"text:outline-level", c!"3")]) (tag := c!"h3") (p1 := fun cm => headP ls cm c!"h3") hr ht
    (by decide) (by decide) (by decide) (by decide +kernel)
    ⟨c!"\n", by decide +kernel⟩ (fun _ => rfl) (fun _ _ => rfl) (fun _ => rfl)

theorem Part.divider {r : Rd} (hr : Outside r) : Part type ls starsDivider r r :=
  Part.heading (op := c!"text:p text:style-name=\"Heading_20_4\">") (t := c!"* * *") (en := c!"/text:p>\n") (e := c!"text:p") (as := [(c!"text:style-name", c!"Heading_20_4")]) (tag := c!"h4") (p1 := fun cm => headP ls cm c!"h4") hr (by unfold Carriable; decide)
    (by decide) (by decide) (by decide) (by decide +kernel)
    ⟨c!"\n", by decide +kernel⟩ (fun _ => rfl) (fun _ _ => rfl) (fun _ => rfl)

theorem step_other {st : Str} (hs : st = c!"Title" ∨ st = c!"Subtitle") (cm : Str) :
    (idleP ls cm).step (.start c!"text:p" [(c!"text:style-name", st)]) = .ok (lineP ls cm false [], [.start c!"p" []]) := by
  have e : (langTags 1 ls).get? st = none := by
    rcases hs with rfl | rfl
    · exact langTags_none (ne_langTag (by decide) (by decide)) 1 ls
    · exact langTags_none (ne_langTag (by decide) (by decide)) 1 ls
  show OdtP.startElement (idleP ls cm) c!"text:p" [(c!"text:style-name", st)] = _
  unfold OdtP.startElement
  have e3 : (Dict.get? [(c!"text:style-name", st)] c!"text:style-name").getD [] = st := rfl
  rw [if_pos rfl]
  simp only [e3]
  have e4 : OdtP.startParagraph (idleP ls cm) st = .ok (lineP ls cm false [], [.start c!"p" []]) := by
    unfold OdtP.startParagraph
    have e5 : (idleP ls cm).languageTags.get? st = none := e
    rw [e5]
    rcases hs with rfl | rfl <;> rfl
  rw [e4]
  rcases hs with rfl | rfl <;> rfl

theorem Part.title {r : Rd} (hr : Outside r) {t : Str} (ht : Carriable t) :
    Part type ls (c!"<text:p text:style-name=\"Title\">" ++ (t.flatMap escChar ++ c!"</text:p>\n")) r r :=
  Part.heading (op := c!"text:p text:style-name=\"Title\">") (en := c!"/text:p>\n") (e := c!"text:p") (as := [(c!"text:style-name", c!"Title")]) (tag := c!"p") (p1 := fun cm => lineP ls cm false []) hr ht
    (by decide) (by decide) (by decide) (by decide +kernel)
    ⟨c!"\n", by decide +kernel⟩ (step_other (.inl rfl)) (fun _ _ => rfl) (fun _ => rfl)

theorem Part.subtitle {r : Rd} (hr : Outside r) {t : Str} (ht : Carriable t) :
    Part type ls (c!"<text:p text:style-name=\"Subtitle\">" ++ (t.flatMap escChar ++ c!"</text:p>\n")) r r :=
  Part.heading (op := c!"text:p text:style-name=\"Subtitle\">") (en := c!"/text:p>\n") (e := c!"text:p") (as := [(c!"text:style-name", c!"Subtitle")]) (tag := c!"p") (p1 := fun cm => lineP ls cm false []) hr ht
    (by decide) (by decide) (by decide) (by decide +kernel)
    ⟨c!"\n", by decide +kernel⟩ (step_other (.inr rfl)) (fun _ _ => rfl) (fun _ => rfl)

theorem Part.chapterStart {r : Rd} (hr : Outside r) {id : Str} (hid : NumId id) {c0 : Chapter} (hc : r.novel.chapters.get? id = some c0) :
    Part type ls (secOpen (c!"ChID:" ++ id)) r (atChapter (atNovel r (chapterBack type id r.novel)) (some id)) := by
  refine ⟨_, secOpen_quot (.inr rfl) hid, ?_⟩
  intro cm acc langs hl
  obtain ⟨o, e1, x1⟩ := secOpen_sax (secName_plain (.inr rfl) hid)
  refine ⟨cm, c!"\n", langs, hl, ?_⟩
  rw [e1]
  refine ⟨saxPend acc ++ [.start c!"text:section" [(c!"text:style-name", c!"Sect1"), (c!"text:name", c!"ChID:" ++ id)]], ?_, ?_⟩
  · rw [saxRun_lt, x1]
  · exact (idle_pend cm acc _).append (Goes.one1 rfl (start_chapter hr.scene hid hc [] [] langs))

theorem Part.chapterEnd {r : Rd} (hr : Outside r) {id : Str} (hc : r.chId = some id) : Part type ls secEnd r (atChapter r none) := by
  refine ⟨_, Quot.lit (by decide), ?_⟩
  intro cm acc langs hl
  refine ⟨cm, c!"\n", langs, hl, saxPend acc ++ [.stop c!"text:section"], ?_, (idle_pend cm acc _).append (Goes.one1 rfl (stop_chapter hr.scene hc [] [] langs))⟩
  show saxRun _ ('<' :: c!"/text:section>\n") = _
  rw [saxRun_lt]
  rfl

end Verif
