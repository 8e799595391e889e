/-
Scene descriptions: reading.
-/
import Verif.Lemmas.Desc2

namespace Verif
open Spec Re Template

variable {ls : List Str}

/-- The reader of scene descriptions. -/
def sdAt (m : Novel) (s : Dict Scene) (c : Dict Chapter) (L : List Str) (sc ch : Option Str) : Rd :=
  { novel := { m with scenes := s, chapters := c }, lines := L, scId := sc, chId := ch }

theorem modify_congr {α : Type} {d : Dict α} {k : Str} {x : α} (h : d.get? k = some x) {f g : α → α} (e : f x = g x) : d.modify k f = d.modify k g := by
  induction d with
  | nil => rfl
  | cons p d ih =>
    obtain ⟨a, b⟩ := p
    rw [Dict.modify, Dict.modify]
    by_cases ha : a = k
    · rw [if_pos ha, if_pos ha]
      have : b = x := by
        rw [Dict.get?, if_pos ha] at h
        injection h
      rw [this, e]
    · rw [if_neg ha, if_neg ha, ih (by rw [Dict.get?, if_neg ha] at h; exact h)]

theorem sd_sceneStart {m : Novel} {s : Dict Scene} {c : Dict Chapter} {ch : Option Str} {id : Str} (hid : NumId id) (hs : s.has id = true) :
    sceneDescReader (sdAt m s c [] none ch) (.start c!"div" [(c!"id", some (c!"ScID:" ++ id))]) =
      .ok (sdAt m (s.modify id (fun x => { x with scType := some 0 })) c [] (some id) ch) := by
  have h1 : Rd.firstNumber (c!"ScID:" ++ id) = .ok id := firstNumber_id (by decide) hid
  have h4 : sceneDescReader (sdAt m s c [] none ch) (.start c!"div" [(c!"id", some (c!"ScID:" ++ id))]) = Rd.startScene 0 (sdAt m s c [] none ch) (c!"ScID:" ++ id) := rfl
  rw [h4]
  unfold Rd.startScene
  rw [h1]
  show (Rd.ensureScene (sdAt m s c [] (some id) ch) id >>= fun r' => _) = _
  have e : Rd.ensureScene (sdAt m s c [] (some id) ch) id = .ok (sdAt m s c [] (some id) ch) := by
    unfold Rd.ensureScene
    rw [if_pos (c := (sdAt m s c [] (some id) ch).novel.scenes.has id = true) hs]
  rw [e]
  show Rd.onScene (sdAt m s c [] (some id) ch) id _ = _
  unfold Rd.onScene
  rw [if_pos (c := (sdAt m s c [] (some id) ch).novel.scenes.has id = true) hs]
  rfl

theorem sd_collects (m : Novel) (s : Dict Scene) (c : Dict Chapter) (ch : Option Str) (id : Str) : Collects sceneDescReader (sdAt m s c [] (some id) ch) (fun t => t) :=
  ⟨fun _ => rfl, fun _ => rfl, fun _ _ => rfl, rfl⟩

theorem sd_sceneStop {m : Novel} {s : Dict Scene} {c : Dict Chapter} {ch : Option Str} {id : Str} {L : List Str} (hs : s.has id = true) (hL : Str.startsWith L.flatten c!"/*" = false) :
    sceneDescReader (sdAt m s c L (some id) ch) (.stop c!"div") = .ok (sdAt m (s.modify id (fun x => { x with desc := some (Str.rstrip L.flatten) })) c [] none ch) := by
  have h4 : sceneDescReader (sdAt m s c L (some id) ch) (.stop c!"div") = ((sdAt m s c L (some id) ch).onScene id (fun s =>
        { s with title := match (sdSplit L.flatten).1 with | some t => some t | none => s.title, desc := some (sdSplit L.flatten).2 }) >>= fun r' =>
      .ok { r' with lines := [], scId := none }) := rfl
  have h5 : sdSplit L.flatten = (none, Str.rstrip L.flatten) := by
    unfold sdSplit
    rw [hL, if_neg (by decide)]
  rw [h4, h5]
  unfold Rd.onScene
  rw [if_pos (c := (sdAt m s c L (some id) ch).novel.scenes.has id = true) hs]
  rfl

/-- In a chapter with a title, the text of headings and dividers is ignored. -/
theorem sd_ignores {m : Novel} {s : Dict Scene} {c : Dict Chapter} {k : Str} {x : Chapter} (hc : c.get? k = some x) (hx : isBlankField x.title = false) {tag : Str}
    (ht : tag ≠ c!"div" ∧ tag ≠ c!"s") : Ignores sceneDescReader (sdAt m s c [] none (some k)) tag := by
  refine ⟨?_, ?_, ?_⟩
  · show Rd.baseStart 0 (sdAt m s c [] none (some k)) tag [] = _
    unfold Rd.baseStart
    rw [if_neg ht.1, if_neg ht.2]
  · intro t
    show sdData (sdAt m s c [] none (some k)) t = _
    unfold sdData
    rw [if_neg (by simp [sdAt])]
    have e : (sdAt m s c [] none (some k)).novel.chapters.get? k = some x := hc
    show (match (sdAt m s c [] none (some k)).novel.chapters.get? k with | none => _ | some ch => _) = _
    rw [e]
    dsimp only
    rw [hx, if_neg (by decide)]
  · show sdStop (sdAt m s c [] none (some k)) tag = _
    have e : sdStop (sdAt m s c [] none (some k)) tag = if (some k).isSome = true ∧ tag = c!"div" then .ok { sdAt m s c [] none (some k) with chId := none } else .ok (sdAt m s c [] none (some k)) := rfl
    rw [e, if_neg (fun h => ht.1 h.2)]

/-! ### A scene -/

/-- The text of a scene in the document. -/
def sceneSheet (st id title desc : Str) : Str :=
  (h3Open ++ (title ++ hEnd)) ++ (secOpen (c!"ScID:" ++ id) ++ ((pOpen st ++ (desc ++ pEnd)) ++ (c!"\n" ++ secEnd)))

/-- What reading it does to the scene. -/
def sceneDescribed (desc : Str) (x : Scene) : Scene := { x with scType := some 0, desc := some (Str.rstrip desc) }

theorem lines_all (t : Str) : (Spec.linesOf t).flatMap (fun l => l ++ c!"\n") = t ++ c!"\n" := by
  have e : (Spec.linesOf t).flatMap (fun l => l ++ c!"\n") = Str.join c!"\n" (Spec.linesOf t) ++ c!"\n" := joinLines _ (Str.split_ne_nil _ _)
  rw [e]
  unfold Spec.linesOf
  rw [Str.join_split _ (show c!"\n" ≠ [] by decide)]

theorem starts_comment (t : Str) : Str.startsWith (t ++ c!"\n") c!"/*" = Str.startsWith t c!"/*" := by
  cases t with
  | nil => rfl
  | cons a t =>
    cases t with
    | nil =>
      show (('/' == a) && (('*' == '\n') && true)) = (('/' == a) && false)
      cases ('/' == a) <;> rfl
    | cons b t => rfl

theorem Fed.h3Invisible {h : Reader} {r : Rd} (hi : Ignores h r c!"h3") {body x : Str} (hb : Mute h body x) (cm acc : Str) :
    Fed h (h3Open ++ (body ++ hEnd)) acc (idleP ls cm) r c!"\n" (idleP ls cm) r :=
  Fed.ignored (op := c!"text:h text:style-name=\"Invisible_20_Heading_20_3\" text:outline-level=\"3\">") (en := c!"/text:h>\n") (e := c!"text:h")
    (as := [(c!"text:style-name", c!"Invisible_20_Heading_20_3"), (c!"text:outline-level", c!"3")]) (p1 := fun cm => headP ls cm c!"h3") hi (by decide +kernel)
    (x := x.reverse ++ []) (fun p r => hb [] p r) (by decide +kernel) (fun _ => rfl) (fun _ _ => rfl) (fun _ => rfl) cm acc

theorem Fed.stars {h : Reader} {r : Rd} (hi : Ignores h r c!"h4") (cm acc : Str) : Fed h starsDivider acc (idleP ls cm) r c!"\n" (idleP ls cm) r :=
  Fed.ignored (op := c!"text:p text:style-name=\"Heading_20_4\">") (body := c!"* * *") (en := c!"/text:p>\n") (e := c!"text:p") (as := [(c!"text:style-name", c!"Heading_20_4")])
    (p1 := fun cm => headP ls cm c!"h4") hi (by decide +kernel) (x := c!"* * *".reverse ++ []) (fun p r => Fed.plain (by decide) [] p r)
    (by decide +kernel) (fun _ => rfl) (fun _ _ => rfl) (fun _ => rfl) cm acc

theorem Fed.sceneSheet {st : Str} (hst : st = indStyle ∨ st = bodyStyle) {m : Novel} {s : Dict Scene} {c : Dict Chapter} {k id : Str} {x : Chapter} (hc : c.get? k = some x)
    (hx : isBlankField x.title = false) (hid : NumId id) (hs : s.has id = true) {t : Str} (ht : Carriable t) {desc : Option Str} (hd : CarriableO desc)
    (hd2 : Str.startsWith (desc.getD []) c!"/*" = false) (cm acc : Str) :
    Fed sceneDescReader (Verif.sceneSheet st id (t.flatMap escChar) (odtConvert desc false)) acc (idleP ls cm) (sdAt m s c [] none (some k)) c!"\n" (idleP ls cm)
      (sdAt m (s.modify id (sceneDescribed (desc.getD []))) c [] none (some k)) := by
  unfold Verif.sceneSheet
  obtain ⟨L, f1, e1⟩ := Fed.paragraphs (h := sceneDescReader) (ls := ls) (sd_collects m (s.modify id (fun x => { x with scType := some 0 })) c (some k) id) cm c!"\n" hd hst []
  rw [List.flatten_nil, List.nil_append, lines_all] at e1
  refine (Fed.h3Invisible (sd_ignores hc hx (by decide)) (Mute.esc ht) cm acc).append ((Fed.section (secName_plain (.inl rfl) hid) (sd_sceneStart hid hs) cm _).append
    (f1.append ((Fed.newline _ _ _ _).append (Fed.sectionEnd ?_ cm _))))
  have := sd_sceneStop (m := m) (s := s.modify id (fun x => { x with scType := some 0 })) (c := c) (ch := some k) (id := id) (L := L) (by rw [has_modify]; exact hs)
    (by rw [e1, starts_comment]; exact hd2)
  rw [e1, rstrip_nl, modify_modify] at this
  exact this

/-! ### The scenes of a chapter -/

/-- The scenes of a chapter in the document. -/
def sceneSheets : Bool → List (Str × Scene) → Str
  | _, [] => []
  | first, p :: r =>
    (if first || p.2.appendToPrev == some true then [] else starsDivider) ++
    sceneSheet (if !first && p.2.appendToPrev == some true then indStyle else bodyStyle) p.1 ((p.2.title.getD []).flatMap escChar) (odtConvert p.2.desc false) ++
    sceneSheets false r

/-- What reading them does. -/
def scenesDescribed (l : List (Str × Scene)) (s : Dict Scene) : Dict Scene :=
  match l with
  | [] => s
  | p :: r => scenesDescribed r (s.modify p.1 (sceneDescribed (p.2.desc.getD [])))

theorem Fed.sceneSheets {m : Novel} {c : Dict Chapter} {k : Str} {x : Chapter} (hc : c.get? k = some x) (hx : isBlankField x.title = false) (l : List (Str × Scene))
    (hl : ∀ p ∈ l, SceneDescFits p) (first : Bool) (s : Dict Scene) (hs : ∀ p ∈ l, s.has p.1 = true) (cm acc : Str) :
    ∃ acc', Fed sceneDescReader (Verif.sceneSheets first l) acc (idleP ls cm) (sdAt m s c [] none (some k)) acc' (idleP ls cm) (sdAt m (scenesDescribed l s) c [] none (some k)) := by
  induction l generalizing first s acc with
  | nil => exact ⟨acc, Fed.nil _ _ _ _⟩
  | cons p l ih =>
    have hp := hl p (by simp)
    obtain ⟨acc', f2⟩ := ih (fun q hq => hl q (by simp [hq])) false (s.modify p.1 (sceneDescribed (p.2.desc.getD []))) (by
      intro q hq
      rw [has_modify]
      exact hs q (by simp [hq])) c!"\n"
    refine ⟨acc', ?_⟩
    unfold Verif.sceneSheets scenesDescribed
    have f1 : ∀ acc, Fed sceneDescReader (Verif.sceneSheet (if !first && p.2.appendToPrev == some true then indStyle else bodyStyle) p.1 ((p.2.title.getD []).flatMap escChar) (odtConvert p.2.desc false))
        acc (idleP ls cm) (sdAt m s c [] none (some k)) c!"\n" (idleP ls cm) (sdAt m (s.modify p.1 (sceneDescribed (p.2.desc.getD []))) c [] none (some k)) := by
      intro acc
      refine Fed.sceneSheet ?_ hc hx hp.number (hs p (by simp)) (odtConvert_title hp.title).2 hp.desc hp.plain cm acc
      split
      · exact .inl rfl
      · exact .inr rfl
    split
    · rw [List.nil_append]
      exact (f1 acc).append f2
    · rw [List.append_assoc]
      exact (Fed.stars (sd_ignores hc hx (by decide)) cm acc).append ((f1 _).append f2)

/-! ### A chapter -/

/-- What reading the heading does to the chapter. -/
def headChapter (title : Str) (ch : Chapter) : Chapter := { ch with chType := some 0, title := if isBlankField ch.title then some (Str.strip title) else ch.title }

/-- The chapter has a title, or there is one for it. -/
def Named (c : Dict Chapter) (k title : Str) : Prop := ∃ x, c.get? k = some x ∧ (isBlankField x.title = false ∨ Str.strip title ≠ [])

theorem headChapter_titled {title : Str} {x : Chapter} (h : isBlankField x.title = false ∨ Str.strip title ≠ []) : isBlankField (headChapter title x).title = false := by
  unfold headChapter
  dsimp only
  by_cases hb : isBlankField x.title = true
  · rw [if_pos hb]
    rcases h with h | h
    · rw [h] at hb; cases hb
    · unfold isBlankField
      simp [h]
  · rw [if_neg hb]
    simpa using hb

/-- The heading with or without a link. -/
theorem sd_data {m : Novel} {s : Dict Scene} {c : Dict Chapter} {k t : Str} (hn : Named c k t) :
    if t = [] then sdAt m s (c.modify k (fun ch => { ch with title := if isBlankField ch.title then some (Str.strip t) else ch.title })) [] none (some k) = sdAt m s c [] none (some k)
    else sceneDescReader (sdAt m s c [] none (some k)) (.data t) =
      .ok (sdAt m s (c.modify k (fun ch => { ch with title := if isBlankField ch.title then some (Str.strip t) else ch.title })) [] none (some k)) := by
  obtain ⟨x, hc, hx⟩ := hn
  by_cases hb : isBlankField x.title = true
  · have hst : Str.strip t ≠ [] := by
      rcases hx with h | h
      · rw [h] at hb; cases hb
      · exact h
    have ht : t ≠ [] := by
      rintro rfl
      exact hst rfl
    rw [if_neg ht]
    show sdData (sdAt m s c [] none (some k)) t = _
    have e : sdData (sdAt m s c [] none (some k)) t = match c.get? k with
        | none => .error .keyError
        | some ch => if isBlankField ch.title then (sdAt m s c [] none (some k)).onChapter k (fun ch => { ch with title := some (Str.strip t) }) else .ok (sdAt m s c [] none (some k)) := rfl
    rw [e, hc]
    dsimp only
    rw [if_pos hb]
    unfold Rd.onChapter
    rw [if_pos (c := (sdAt m s c [] none (some k)).novel.chapters.has k = true) (has_of hc)]
    have e2 : c.modify k (fun ch => { ch with title := some (Str.strip t) }) = c.modify k (fun ch => { ch with title := if isBlankField ch.title then some (Str.strip t) else ch.title }) := by
      refine modify_congr hc ?_
      rw [if_pos hb]
    rw [← e2]
    rfl
  · have e2 : c.modify k (fun ch => { ch with title := if isBlankField ch.title then some (Str.strip t) else ch.title }) = c := by
      refine Dict.modify_same hc ?_
      rw [if_neg hb]
    rw [e2]
    split
    · rfl
    · exact (sd_ignores (tag := c!"p") hc (by simpa using hb) (by decide)).data t

theorem sd_chapterStart {m : Novel} {s : Dict Scene} {c : Dict Chapter} {k : Str} (hk : NumId k) (hc : c.has k = true) :
    sceneDescReader (sdAt m s c [] none none) (.start c!"div" [(c!"id", some (c!"ChID:" ++ k))]) =
      .ok (sdAt m s (c.modify k (fun x => { x with chType := some 0 })) [] none (some k)) := by
  show Rd.baseStart 0 (sdAt m s c [] none none) c!"div" [(c!"id", some (c!"ChID:" ++ k))] = _
  rw [chapter_div hk]
  unfold typedChapter knownChapter
  rw [if_pos (c := (sdAt m s c [] none none).novel.chapters.has k = true) hc]
  rfl

end Verif
