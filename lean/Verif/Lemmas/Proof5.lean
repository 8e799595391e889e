/-
Headings and scenes of a proof reading document.
-/
import Verif.Lemmas.Proof4

namespace Verif.Proof
open Spec Re Template

variable {ls : List Str} {author : Option Str} {r0 : Rd}

/-- Reading a part of the document between scenes; what is collected there does not matter. -/
def Steps (ls : List Str) (s : Str) (r r' : Rd) : Prop :=
  ∀ cm acc L langs, (∀ l ∈ langs, l ∈ ls) → ∃ cm' acc' L' langs', (∀ l ∈ langs', l ∈ ls) ∧
    Fed proofReader s acc (idleP ls cm) (rdAt r L [] langs) acc' (idleP ls cm') (rdAt r' L' [] langs')

theorem Steps.nil (r : Rd) : Steps ls [] r r := fun cm acc L langs hl => ⟨cm, acc, L, langs, hl, Fed.nil _ _ _ _⟩

theorem Steps.append {s1 s2 : Str} {r r1 r2 : Rd} (h1 : Steps ls s1 r r1) (h2 : Steps ls s2 r1 r2) : Steps ls (s1 ++ s2) r r2 := by
  intro cm acc L langs hl
  obtain ⟨cm1, a1, L1, langs1, hl1, f1⟩ := h1 cm acc L langs hl
  obtain ⟨cm2, a2, L2, langs2, hl2, f2⟩ := h2 cm1 a1 L1 langs1 hl1
  exact ⟨cm2, a2, L2, langs2, hl2, f1.append f2⟩

/-- Outside of scenes. -/
structure Outside (r : Rd) : Prop where
  scene : r.scId = none
  skip : r.skipData = false

theorem outside_data {r : Rd} (h : Outside r) (L : List Str) (lang : Str) (langs : List Str) {s : Str} (hs : NoMark s) :
    proofReader (rdAt r L lang langs) (.data s) = .ok (rdAt r L lang langs) := by
  show Verif.proofData _ s = _
  unfold Verif.proofData
  have e1 : (rdAt r L lang langs).skipData = false := h.skip
  have e2 : (rdAt r L lang langs).scId.isSome = false := by show r.scId.isSome = false; rw [h.scene]; rfl
  have e3 : Str.contains s c!"[ScID" = false := (contains_false_iff s _).2 hs.1
  have e4 : Str.contains s c!"[/ScID" = false := (contains_false_iff s _).2 hs.2
  rw [e1, e3, e4, e2]
  rfl

/-- A heading or a paragraph outside of scenes. -/
theorem Steps.heading {r : Rd} (hr : Outside r) {op e tag en : Str} {as : Dict Str} {p1 : Str → OdtP} {t : Str} (ht : PlainTitle t)
    (x1 : saxRun .lt op = (.text [], [.start e as])) (x2 : ∃ acc, saxRun .lt en = (.text acc, [.stop e]))
    (s1 : ∀ cm, (idleP ls cm).step (.start e as) = .ok (p1 cm, [.start tag []]))
    (s2 : ∀ cm s, (p1 cm).step (.chars s) = .ok (p1 cm, [.data s]))
    (s3 : ∀ cm, (p1 cm).step (.stop e) = .ok (idleP ls cm, [.stop tag]))
    (d1 : ∀ L langs, ∃ L', proofReader (rdAt r L [] langs) (.start tag []) = .ok (rdAt r L' [] langs))
    (d2 : ∀ L langs, ∃ L', proofReader (rdAt r L [] langs) (.stop tag) = .ok (rdAt r L' [] langs)) :
    Steps ls ('<' :: op ++ (t.flatMap escChar ++ '<' :: en)) r r := by
  intro cm acc L langs hl
  obtain ⟨a2, x2⟩ := x2
  obtain ⟨L1, d1⟩ := d1 L langs
  obtain ⟨L2, d2⟩ := d2 L1 langs
  refine ⟨cm, a2, L2, langs, hl, ?_⟩
  have f1 : Fed proofReader ('<' :: op) acc (idleP ls cm) (rdAt r L [] langs) [] (p1 cm) (rdAt r L1 [] langs) :=
    Fed.tag x1 (idle_pend cm acc _) (Goes.one1 (s1 cm) d1)
  have f2 : Fed proofReader (t.flatMap escChar) [] (p1 cm) (rdAt r L1 [] langs) (t.reverse ++ []) (p1 cm) (rdAt r L1 [] langs) :=
    Fed.esc ht.carriable [] _ _
  have g3 : Goes proofReader (p1 cm) (rdAt r L1 [] langs) (saxPend (t.reverse ++ [])) (p1 cm) (rdAt r L1 [] langs) := by
    unfold saxPend
    split
    · exact Goes.nil _ _ _
    · refine Goes.one1 (s2 cm _) (outside_data hr L1 [] langs ?_)
      rw [List.append_nil, List.reverse_reverse]
      exact ht.noMark
  have f3 : Fed proofReader ('<' :: en) (t.reverse ++ []) (p1 cm) (rdAt r L1 [] langs) a2 (idleP ls cm) (rdAt r L2 [] langs) := by
    refine ⟨saxPend (t.reverse ++ []) ++ [.stop e], ?_, g3.append (Goes.one1 (s3 cm) d2)⟩
    rw [saxRun_lt, x2]
  exact f1.append (f2.append f3)

/-- In a heading. -/
def headP (ls : List Str) (cm h : Str) : OdtP := { emTags := emNames ls, strongTags := strongNames ls, languageTags := langTags 1 ls, comment := cm, heading := some h }

/-- The beginning of the heading of a scene. -/
def h3Open : Str := c!"<text:h text:style-name=\"Heading_20_3\" text:outline-level=\"3\">"

theorem Steps.h1 {r : Rd} (hr : Outside r) {t : Str} (ht : PlainTitle t) : Steps ls (h1Open ++ (t.flatMap escChar ++ hEnd)) r r :=
  Steps.heading (op := c!"text:h text:style-name=\"Heading_20_1\" text:outline-level=\"1\">") (en := c!"/text:h>\n") (e := c!"text:h") (as := [(c!"text:style-name", c!"Heading_20_1"), (c!"text:outline-level", c!"1")]) (tag := c!"h1") (p1 := fun cm => headP ls cm c!"h1") hr ht
    (by decide +kernel) ⟨c!"\n", by decide +kernel⟩ (fun _ => rfl) (fun _ _ => rfl) (fun _ => rfl) (fun L _ => ⟨L ++ [c!"# "], rfl⟩) (fun L _ => ⟨L ++ [c!"\n"], rfl⟩)

theorem Steps.h2 {r : Rd} (hr : Outside r) {t : Str} (ht : PlainTitle t) : Steps ls (h2Open ++ (t.flatMap escChar ++ hEnd)) r r :=
  Steps.heading (op := c!"text:h text:style-name=\"Heading_20_2\" text:outline-level=\"2\">") (en := c!"/text:h>\n") (e := c!"text:h") (as := [(c!"text:style-name", c!"Heading_20_2"), (c!"text:outline-level", c!"2")]) (tag := c!"h2") (p1 := fun cm => headP ls cm c!"h2") hr ht
    (by decide +kernel) ⟨c!"\n", by decide +kernel⟩ (fun _ => rfl) (fun _ _ => rfl) (fun _ => rfl) (fun L _ => ⟨L ++ [c!"## "], rfl⟩) (fun L _ => ⟨L ++ [c!"\n"], rfl⟩)

theorem Steps.h3 {r : Rd} (hr : Outside r) {t : Str} (ht : PlainTitle t) : Steps ls (h3Open ++ (t.flatMap escChar ++ hEnd)) r r :=
  Steps.heading (op := c!"text:h text:style-name=\"Heading_20_3\" text:outline-level=\"3\">") (en := c!"/text:h>\n") (e := c!"text:h") (as := [(c!"text:style-name", c!"Heading_20_3"), (c!"text:outline-level", c!"3")]) (tag := c!"h3") (p1 := fun cm => headP ls cm c!"h3") hr ht
    (by decide +kernel) ⟨c!"\n", by decide +kernel⟩ (fun _ => rfl) (fun _ _ => rfl) (fun _ => rfl) (fun L _ => ⟨L, rfl⟩) (fun L _ => ⟨L, rfl⟩)

theorem Steps.title {r : Rd} (hr : Outside r) {t : Str} (ht : PlainTitle t) : Steps ls (c!"<text:p text:style-name=\"Title\">" ++ (t.flatMap escChar ++ c!"</text:p>\n")) r r :=
  Steps.heading (op := c!"text:p text:style-name=\"Title\">") (en := c!"/text:p>\n") (e := c!"text:p") (as := [(c!"text:style-name", c!"Title")]) (tag := c!"p") (p1 := fun cm => lineP ls cm false []) hr ht
    (by decide +kernel) ⟨c!"\n", by decide +kernel⟩ (step_p (by decide)) (fun _ _ => rfl) (fun _ => rfl) (fun L _ => ⟨L, rfl⟩) (fun L _ => ⟨L ++ [c!"\n"], rfl⟩)

theorem Steps.subtitle {r : Rd} (hr : Outside r) {t : Str} (ht : PlainTitle t) : Steps ls (c!"<text:p text:style-name=\"Subtitle\">" ++ (t.flatMap escChar ++ c!"</text:p>\n")) r r :=
  Steps.heading (op := c!"text:p text:style-name=\"Subtitle\">") (en := c!"/text:p>\n") (e := c!"text:p") (as := [(c!"text:style-name", c!"Subtitle")]) (tag := c!"p") (p1 := fun cm => lineP ls cm false []) hr ht
    (by decide +kernel) ⟨c!"\n", by decide +kernel⟩ (step_p (by decide)) (fun _ _ => rfl) (fun _ => rfl) (fun L _ => ⟨L, rfl⟩) (fun L _ => ⟨L ++ [c!"\n"], rfl⟩)

/-! ### Scene markers -/

/-- The beginning of a marker. -/
def markOpen : Str := c!"<text:p text:style-name=\"scene_20_mark\">"
/-- The end of a paragraph with the line break behind it. -/
def markEnd : Str := c!"</text:p>\n"

theorem Fed.mark {s : Str} (hs : s.all plainChar = true) (hne : s ≠ []) {r r' : Rd} {L L' langs : List Str}
    (hd : proofReader (rdAt r L [] langs) (.data s) = .ok (rdAt r' L' [] langs)) (cm acc : Str) :
    Fed proofReader (markOpen ++ (s ++ markEnd)) acc (idleP ls cm) (rdAt r L [] langs) c!"\n" (idleP ls cm) (rdAt r' (L' ++ [c!"\n"]) [] langs) := by
  have f1 : Fed proofReader markOpen acc (idleP ls cm) (rdAt r L [] langs) [] (lineP ls cm false []) (rdAt r L [] langs) := by
    show Fed _ ('<' :: c!"text:p text:style-name=\"scene_20_mark\">") _ _ _ _ _ _
    exact Fed.tag (evs := [.start c!"text:p" [(c!"text:style-name", c!"scene_20_mark")]]) (by decide +kernel) (idle_pend cm acc _) (Goes.one1 (step_p (by decide) cm) (start_p L [] langs))
  have f2 : Fed proofReader s [] (lineP ls cm false []) (rdAt r L [] langs) (s.reverse ++ []) (lineP ls cm false []) (rdAt r L [] langs) := Fed.plain hs [] _ _
  have g3 : Goes proofReader (lineP ls cm false []) (rdAt r L [] langs) (saxPend (s.reverse ++ [])) (lineP ls cm false []) (rdAt r' L' [] langs) := by
    unfold saxPend
    rw [List.append_nil, if_neg (by simpa using hne), List.reverse_reverse]
    exact Goes.one1 rfl hd
  have f3 : Fed proofReader markEnd (s.reverse ++ []) (lineP ls cm false []) (rdAt r L [] langs) c!"\n" (idleP ls cm) (rdAt r' (L' ++ [c!"\n"]) [] langs) := by
    refine ⟨saxPend (s.reverse ++ []) ++ [.stop c!"text:p"], ?_, g3.append (Goes.one1 (c := .stop c!"p") rfl (stop_p L' langs))⟩
    show saxRun _ ('<' :: c!"/text:p>\n") = _
    rw [saxRun_lt]
    rfl
  exact f1.append (f2.append f3)

theorem firstNumber_mark {a id z : Str} (ha : a.all (fun c => !Str.isDig c) = true) (h : NumId id) {c : Char} (hc : Str.isDig c = false) :
    Rd.firstNumber (a ++ (id ++ c :: z)) = .ok id := by
  induction a with
  | nil =>
    cases id with
    | nil => exact absurd rfl h.1
    | cons d r =>
      show (if Str.isDig d then Except.ok _ else _) = _
      rw [if_pos (isDig_digit (h.2 d (by simp)))]
      have h2 : ∀ x ∈ d :: r, Str.isDig x = true := fun x hx => isDig_digit (h.2 x hx)
      show Except.ok ((d :: r ++ c :: z).takeWhile Str.isDig) = _
      rw [List.takeWhile_append_of_pos h2, List.takeWhile_cons, hc]
      simp
  | cons d a ih =>
    rw [List.all_cons, Bool.and_eq_true] at ha
    show (if Str.isDig d then Except.ok _ else _) = _
    have : Str.isDig d = false := by simpa using ha.1
    rw [this]
    exact ih ha.2

/-- The text of a scene comes back. -/
def sceneBack (id t : Str) (n : Novel) : Novel := { n with scenes := n.scenes.modify id (fun s => s.setContent t) }

theorem mark_open {r : Rd} (hr : Outside r) {id : Str} (hid : NumId id) (L langs : List Str) :
    proofReader (rdAt r L [] langs) (.data (c!"[ScID:" ++ (id ++ c!"]"))) = .ok (rdAt (atScene r (some id)) [] [] langs) := by
  show Verif.proofData _ _ = _
  unfold Verif.proofData
  have e1 : (rdAt r L [] langs).skipData = false := hr.skip
  have e2 : Str.contains (c!"[ScID:" ++ (id ++ c!"]")) c!"[ScID" = true := (contains_iff _ _).2 ⟨[], c!":" ++ (id ++ c!"]"), rfl⟩
  have e3 : Rd.firstNumber (c!"[ScID:" ++ (id ++ c!"]")) = .ok id := firstNumber_mark (by decide) hid (by decide)
  rw [if_neg (by rw [e1]; simp), if_pos e2, e3]
  rfl

theorem mark_close {r : Rd} {id : Str} (hsk : r.skipData = false) (hid : r.scId = some id) {s0 : Scene} (hs : r.novel.scenes.get? id = some s0) (hC : ∀ l ∈ ls, LangCode l)
    {ps : List Piece} (hF : Flowing ls ps) (hh : ∀ c r, rawText ps = c :: r → Str.isWs c = false) {L : List Str} (hL : L.flatten = c!"\n" ++ (rawText (spreadText ps) ++ c!"\n")) {langs : List Str}
    (hl : ∀ l ∈ langs, l ∈ ls) (hb : ∀ l, begun ps l → l ∈ langs) :
    proofReader (rdAt r L [] langs) (.data c!"[/ScID]") = .ok (rdAt (atScene (atNovel r (sceneBack id (rawText ps) r.novel)) none) [] [] langs) := by
  have e1 : (rdAt r L [] langs).scId = some id := hid
  have e2 : Str.strip ((rdAt r L [] langs).cleanupScene (rdAt r L [] langs).text) = rawText ps := by
    have : (rdAt r L [] langs).text = c!"\n" ++ (rawText (spreadText ps) ++ c!"\n") := hL
    rw [this]
    exact stored_text hC hF hh rfl hl hb
  have e3 : (rdAt r L [] langs).novel.scenes.has id = true := has_of hs
  have e4 : (rdAt r L [] langs).onScene id (fun s => s.setContent (rawText ps)) =
      .ok (rdAt (atNovel r (sceneBack id (rawText ps) r.novel)) L [] langs) := by
    unfold Rd.onScene
    rw [if_pos e3]
    rfl
  have e5 : (rdAt r L [] langs).skipData = false := hsk
  show Verif.proofData _ _ = _
  unfold Verif.proofData
  rw [e5, show Str.contains c!"[/ScID]" c!"[ScID" = false by decide, show Str.contains c!"[/ScID]" c!"[/ScID" = true by decide, e1]
  simp only [Bool.false_eq_true, if_false, if_true]
  rw [if_pos e3, e2, e4]
  rfl

theorem NumId.plain {id : Str} (h : NumId id) : id.all plainChar = true := by
  rw [List.all_eq_true]
  intro c hc
  have hd := isDig_digit (h.2 c hc)
  unfold Str.isDig at hd
  simp only [Bool.and_eq_true, decide_eq_true_eq] at hd
  unfold plainChar
  have : ∀ d : Char, (d < '0' ∨ '9' < d) → c ≠ d := by
    rintro d hd' rfl
    rcases hd' with h | h
    · exact absurd hd.1 (Char.not_le.2 h)
    · exact absurd hd.2 (Char.not_le.2 h)
  have hx : xmlLegal c = true := by
    have := (digits_plain h.2).1
    rw [List.all_eq_true] at this
    have := this c hc
    unfold plainAttr at this
    simp only [Bool.and_eq_true] at this
    exact this.1.1.1.1.1
  simp [hx, this '<' (by decide), this '&' (by decide), this '\r' (by decide), this '>' (by decide)]

/-- A scene with its markers. -/
theorem Steps.scene {r : Rd} (hr : Outside r) {id : Str} (hid : NumId id) {s0 : Scene} (hs : r.novel.scenes.get? id = some s0) {n : Novel} (hls : n.languages.getD [] = ls)
    (hL : ∀ l ∈ ls, LangCode l) (hd : (formats ls).Nodup) (hA : AuthorOk n.authorName) {ps : List Piece} (hF : Flowing ls ps) (hM : NoMark (rawText ps))
    (hh : ∀ c r, rawText ps = c :: r → Str.isWs c = false) :
    Steps ls ((markOpen ++ ((c!"[ScID:" ++ (id ++ c!"]")) ++ markEnd)) ++ ((pOpen bodyStyle ++ proofConvert n (some (rawText ps)) false ++ pEnd) ++ (c!"\n" ++ (markOpen ++ (c!"[/ScID]" ++ markEnd)))))
      r (atNovel r (sceneBack id (rawText ps) r.novel)) := by
  intro cm acc L langs hl
  have hi : InScene (atScene r (some id)) := ⟨rfl, hr.skip⟩
  have f1 := Fed.mark (ls := ls) (s := c!"[ScID:" ++ (id ++ c!"]")) (by rw [List.all_append, List.all_append, NumId.plain hid]; decide) (by simp) (mark_open hr hid L langs) cm acc
  obtain ⟨cm2, a2, L2, langs2, hl2, f2, e2⟩ := scene_paragraphs hi hls hL hd hA hF hM cm c!"\n" ([] ++ [c!"\n"]) langs hl
  have f3 : Fed proofReader c!"\n" a2 (idleP ls cm2) (rdAt (atScene r (some id)) L2 [] langs2) (c!"\n".reverse ++ a2) (idleP ls cm2) (rdAt (atScene r (some id)) L2 [] langs2) :=
    Fed.plain (by decide) a2 _ _
  have hc := mark_close (r := atScene r (some id)) hr.skip rfl hs hL hF hh (L := L2) (langs := langs2) (by rw [e2]; rfl) hl2.1 (fun l h => hl2.2 l (.inr h))
  have f4 := Fed.mark (ls := ls) (s := c!"[/ScID]") (by decide) (by decide) hc cm2 (c!"\n".reverse ++ a2)
  have e : rdAt (atScene (atNovel (atScene r (some id)) (sceneBack id (rawText ps) (atScene r (some id)).novel)) none) ([] ++ [c!"\n"]) [] langs2 =
      rdAt (atNovel r (sceneBack id (rawText ps) r.novel)) [c!"\n"] [] langs2 := by
    unfold rdAt atNovel atScene sceneBack
    simp only [hr.scene, List.nil_append]
  rw [e] at f4
  exact ⟨cm2, _, _, langs2, hl2.1, f1.append (f2.append (f3.append f4))⟩

end Verif.Proof
