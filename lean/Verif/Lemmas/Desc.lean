/-
Chapter and part descriptions: the linked heading, the section of a chapter.
-/
import Verif.Lemmas.Sheets2

namespace Verif
open Spec Re Template

variable {ls : List Str} {h : Reader}

/-- The link to the manuscript. -/
def linkOpen (name id : Str) : Str := c!"<text:a xlink:href=\"../" ++ (name ++ (c!"_manuscript.odt#ChID:" ++ (id ++ c!"%7Cregion\">")))

/-- The beginning of a heading. -/
def hOpen (level : Str) : Str :=
  c!"<text:h text:style-name=\"Heading_20_" ++ (level ++ (c!"\" text:outline-level=\"" ++ (level ++ c!"\">")))

/-- A heading with a link. -/
def linkText (level name id title : Str) : Str := hOpen level ++ (linkOpen name id ++ (title ++ (c!"</text:a>" ++ hEnd)))

theorem linkOpen_sax {name id : Str} (hn : LinkName name) (hid : NumId id) : ∃ t v, linkOpen (name.flatMap escChar) id = '<' :: t ∧
    saxRun .lt t = (.text [], [.start c!"text:a" [(c!"xlink:href", v)]]) := by
  have h1 : saxRun .lt c!"text:a xlink:href=\"../" = (.val c!"text:a".reverse [] c!"xlink:href".reverse '"' c!"../".reverse, []) := by decide +kernel
  have h2 := saxRun_valEsc (fun c hc => ⟨(hn c hc).1, (hn c hc).2.1⟩) c!"text:a".reverse [] c!"xlink:href".reverse c!"../".reverse
  have h3 := saxRun_valPlain (s := c!"_manuscript.odt#ChID:") (by decide +kernel) c!"text:a".reverse [] c!"xlink:href".reverse (name.reverse ++ c!"../".reverse)
  have h4 := saxRun_valPlain (s := id) (digits_plain hid.2).1 c!"text:a".reverse [] c!"xlink:href".reverse (c!"_manuscript.odt#ChID:".reverse ++ (name.reverse ++ c!"../".reverse))
  have h5 : ∀ v : Str, saxRun (.val c!"text:a".reverse [] c!"xlink:href".reverse '"' v) c!"%7Cregion\">" =
      (.text [], [.start c!"text:a" [(c!"xlink:href", ((c!"%7Cregion".reverse ++ v)).reverse)]]) := by
    intro v
    rfl
  refine ⟨c!"text:a xlink:href=\"../" ++ (name.flatMap escChar ++ (c!"_manuscript.odt#ChID:" ++ (id ++ c!"%7Cregion\">"))),
    (c!"%7Cregion".reverse ++ (id.reverse ++ (c!"_manuscript.odt#ChID:".reverse ++ (name.reverse ++ c!"../".reverse)))).reverse, rfl, ?_⟩
  rw [saxRun_comp h1 (saxRun_comp h2 (saxRun_comp h3 (saxRun_comp h4 (h5 _))))]
  rfl

theorem hOpen_sax {level : Str} (hl : level = c!"1" ∨ level = c!"2") : ∃ t, hOpen level = '<' :: t ∧ saxRun .lt t =
    (.text [], [.start c!"text:h" [(c!"text:style-name", c!"Heading_20_" ++ level), (c!"text:outline-level", level)]]) := by
  refine ⟨_, rfl, ?_⟩
  rcases hl with rfl | rfl <;> decide +kernel

theorem head_level {level : Str} (hl : level = c!"1" ∨ level = c!"2") (cm : Str) :
    (idleP ls cm).step (.start c!"text:h" [(c!"text:style-name", c!"Heading_20_" ++ level), (c!"text:outline-level", level)]) =
      .ok (headP ls cm ('h' :: level), [.start ('h' :: level) []]) := by
  rcases hl with rfl | rfl <;> rfl

/-- A heading with a link: the reader gets the heading and its text. -/
theorem Fed.linked {level : Str} (hl : level = c!"1" ∨ level = c!"2") {r r1 r2 r3 : Rd} {name id t : Str} (hn : LinkName name) (hid : NumId id) (ht : Carriable t)
    (h1 : h r (.start ('h' :: level) []) = .ok r1) (h2 : if t = [] then r2 = r1 else h r1 (.data t) = .ok r2) (h3 : h r2 (.stop ('h' :: level)) = .ok r3) (cm acc : Str) :
    Fed h (linkText level (name.flatMap escChar) id (t.flatMap escChar)) acc (idleP ls cm) r c!"\n" (idleP ls cm) r3 := by
  obtain ⟨o1, e1, x1⟩ := hOpen_sax hl
  obtain ⟨o2, v, e2, x2⟩ := linkOpen_sax hn hid
  unfold linkText
  rw [e1, e2]
  have f1 : Fed h ('<' :: o1) acc (idleP ls cm) r [] (headP ls cm ('h' :: level)) r1 := Fed.tag x1 (idle_pend cm acc _) (Goes.one1 (head_level hl cm) h1)
  have f2 : Fed h ('<' :: o2) [] (headP ls cm ('h' :: level)) r1 [] (headP ls cm ('h' :: level)) r1 := Fed.tag x2 (Goes.nil _ _ _) (Goes.one0 r1 rfl)
  have f3 := Fed.esc (h := h) ht [] (headP ls cm ('h' :: level)) r1
  have g4 : Goes h (headP ls cm ('h' :: level)) r1 (saxPend (t.reverse ++ [])) (headP ls cm ('h' :: level)) r2 := by
    unfold saxPend
    rw [List.append_nil]
    by_cases he : t = []
    · subst he
      rw [if_pos rfl] at h2
      subst h2
      exact Goes.nil _ _ _
    · rw [if_neg he] at h2
      rw [if_neg (by simpa using he), List.reverse_reverse]
      exact Goes.one1 (c := .data t) rfl h2
  have f4 : Fed h ('<' :: c!"/text:a>") (t.reverse ++ []) (headP ls cm ('h' :: level)) r1 [] (headP ls cm ('h' :: level)) r2 :=
    Fed.tag (evs := [.stop c!"text:a"]) (by decide +kernel) g4 (Goes.one0 r2 rfl)
  have f5 : Fed h ('<' :: c!"/text:h>\n") [] (headP ls cm ('h' :: level)) r2 c!"\n" (idleP ls cm) r3 := by
    refine ⟨saxPend [] ++ [.stop c!"text:h"], ?_, (Goes.nil _ _ _).append (Goes.one1 (c := .stop ('h' :: level)) rfl h3)⟩
    rw [saxRun_lt]
    rfl
  exact f1.append (f2.append (f3.append (f4.append f5)))

/-! ### The section of a chapter -/

/-- The section of a chapter with its description. -/
def descSection (level name id title desc : Str) : Str :=
  secOpen (c!"ChID:" ++ id) ++ (linkText level name id title ++ ((pOpen bodyStyle ++ (desc ++ pEnd)) ++ (c!"\n" ++ secEnd)))

/-- The reader of chapter descriptions. -/
def cd (m : Novel) (L : List Str) (id : Option Str) : Rd := { novel := m, lines := L, chId := id }

/-- The chapter, created if it does not exist. -/
def knownChapter (id : Str) (m : Novel) : Novel :=
  if m.chapters.has id then m else { m with chapters := m.chapters.set id {}, srtChapters := m.srtChapters ++ [id] }

/-- What reading the section of a chapter does to the chapter. -/
def describedChapter (title desc : Str) (ch : Chapter) : Chapter :=
  { ch with chType := some 0, title := if isBlankField ch.title then some (Str.strip title) else ch.title, desc := some desc }

/-- What reading the section of a chapter does. -/
def chapterDescBack (id title desc : Str) (m : Novel) : Novel :=
  { knownChapter id m with chapters := (knownChapter id m).chapters.modify id (describedChapter title desc) }

theorem knownChapter_has (id : Str) (m : Novel) : (knownChapter id m).chapters.has id = true := by
  unfold knownChapter
  split
  · assumption
  · exact has_of (Dict.get?_set_self _ _ _)

theorem has_modify {α : Type} (d : Dict α) (k id : Str) (f : α → α) : (d.modify k f).has id = d.has id := by
  unfold Dict.has
  rw [Dict.get?_modify]
  split
  · rename_i e
    subst e
    cases d.get? k <;> rfl
  · rfl

theorem modify_modify {α : Type} (d : Dict α) (k : Str) (f g : α → α) : (d.modify k f).modify k g = d.modify k (fun x => g (f x)) := by
  induction d with
  | nil => rfl
  | cons p d ih =>
    obtain ⟨a, b⟩ := p
    by_cases e : a = k
    · rw [Dict.modify, if_pos e, Dict.modify, if_pos e, Dict.modify, if_pos e]
    · rw [Dict.modify, if_neg e, Dict.modify, if_neg e, Dict.modify, if_neg e, ih]

theorem cd_collects (m : Novel) (id : Str) : Collects chapterDescReader (cd m [] (some id)) Str.strip := ⟨fun _ => rfl, fun _ => rfl, fun _ _ => rfl, rfl⟩

/-- The type of the chapter is set. -/
def typedChapter (id : Str) (m : Novel) : Novel := { knownChapter id m with chapters := (knownChapter id m).chapters.modify id (fun ch => { ch with chType := some 0 }) }

theorem chapter_div {r : Rd} {id : Str} (hid : NumId id) : Rd.baseStart 0 r c!"div" [(c!"id", some (c!"ChID:" ++ id))] = .ok (atChapter (atNovel r (typedChapter id r.novel)) (some id)) := by
  have h1 : Rd.firstNumber (c!"ChID:" ++ id) = .ok id := firstNumber_id (by decide) hid
  have h4 : Rd.baseStart 0 r c!"div" [(c!"id", some (c!"ChID:" ++ id))] = Rd.startChapter 0 r (c!"ChID:" ++ id) := rfl
  rw [h4]
  unfold Rd.startChapter
  rw [h1]
  show Rd.onChapter (Rd.ensureChapter (atChapter r (some id)) id) id _ = _
  have e : Rd.ensureChapter (atChapter r (some id)) id = atChapter (atNovel r (knownChapter id r.novel)) (some id) := by
    unfold Rd.ensureChapter knownChapter
    by_cases hk : r.novel.chapters.has id = true
    · rw [if_pos hk, if_pos (c := (atChapter r (some id)).novel.chapters.has id = true) hk]
      rfl
    · rw [if_neg hk, if_neg (c := (atChapter r (some id)).novel.chapters.has id = true) hk]
      rfl
  rw [e]
  unfold Rd.onChapter
  rw [if_pos (c := (atChapter (atNovel r (knownChapter id r.novel)) (some id)).novel.chapters.has id = true) (knownChapter_has id r.novel)]
  rfl

theorem cd_start (m : Novel) {id : Str} (hid : NumId id) :
    chapterDescReader (cd m [] none) (.start c!"div" [(c!"id", some (c!"ChID:" ++ id))]) = .ok (cd (typedChapter id m) [] (some id)) := chapter_div hid

/-- The title of the chapter is set if it has none. -/
def titledChapter (id title : Str) (m : Novel) : Novel :=
  { typedChapter id m with chapters := (typedChapter id m).chapters.modify id (fun ch => if isBlankField ch.title then { ch with title := some title } else ch) }

theorem cd_heading (m : Novel) (id : Str) (L : List Str) {level : Str} (hl : level = c!"1" ∨ level = c!"2") :
    chapterDescReader (cd (typedChapter id m) L (some id)) (.stop ('h' :: level)) = .ok (cd (titledChapter id L.flatten m) [] (some id)) := by
  have hk : (typedChapter id m).chapters.has id = true := by
    unfold typedChapter
    rw [has_modify]
    exact knownChapter_has id m
  show cdStop (cd (typedChapter id m) L (some id)) ('h' :: level) = _
  have e : cdStop (cd (typedChapter id m) L (some id)) ('h' :: level) = (do
      let r' ← (cd (typedChapter id m) L (some id)).onChapter id (fun ch => if isBlankField ch.title then { ch with title := some L.flatten } else ch)
      .ok { r' with lines := [] }) := by
    rcases hl with rfl | rfl <;> rfl
  rw [e]
  unfold Rd.onChapter
  rw [if_pos (c := (cd (typedChapter id m) L (some id)).novel.chapters.has id = true) hk]
  rfl

theorem cd_stop (m : Novel) (id title : Str) (L : List Str) :
    chapterDescReader (cd (titledChapter id title m) L (some id)) (.stop c!"div") = .ok (cd { titledChapter id title m with chapters := (titledChapter id title m).chapters.modify id (fun ch => { ch with desc := some (Str.rstrip L.flatten) }) } [] none) := by
  have hk : (titledChapter id title m).chapters.has id = true := by
    unfold titledChapter typedChapter
    rw [has_modify, has_modify]
    exact knownChapter_has id m
  show cdStop (cd (titledChapter id title m) L (some id)) c!"div" = _
  have e : cdStop (cd (titledChapter id title m) L (some id)) c!"div" = (do
      let r' ← (cd (titledChapter id title m) L (some id)).onChapter id (fun ch => { ch with desc := some (Str.rstrip L.flatten) })
      .ok { r' with lines := [], chId := none }) := rfl
  rw [e]
  unfold Rd.onChapter
  rw [if_pos (c := (cd (titledChapter id title m) L (some id)).novel.chapters.has id = true) hk]
  rfl

theorem chapterDescBack_eq (id title desc : Str) (m : Novel) :
    ({ titledChapter id (Str.strip title) m with chapters := (titledChapter id (Str.strip title) m).chapters.modify id (fun ch => { ch with desc := some desc }) } : Novel) = chapterDescBack id title desc m := by
  unfold titledChapter typedChapter chapterDescBack
  dsimp only
  rw [modify_modify, modify_modify]
  congr 2
  funext ch
  unfold describedChapter
  dsimp only
  split <;> rfl

/-- Reading the section of a chapter. -/
theorem Fed.chapterSheet {level : Str} (hl : level = c!"1" ∨ level = c!"2") (m : Novel) {name id t : Str} (hn : LinkName name) (hid : NumId id) (ht : Carriable t) {desc : Option Str}
    (hd : CarriableO desc) (cm acc : Str) :
    Fed chapterDescReader (descSection level (name.flatMap escChar) id (t.flatMap escChar) (odtConvert desc false)) acc (idleP ls cm) (cd m [] none) c!"\n" (idleP ls cm)
      (cd (chapterDescBack id t (tidy (desc.getD [])) m) [] none) := by
  unfold descSection
  obtain ⟨L, f1, e1⟩ := Fed.paragraphs (h := chapterDescReader) (ls := ls) (cd_collects (titledChapter id (Str.strip t) m) id) cm c!"\n" hd (st := bodyStyle) (.inr rfl) []
  have fh : Fed chapterDescReader (linkText level (name.flatMap escChar) id (t.flatMap escChar)) c!"\n" (idleP ls cm) (cd (typedChapter id m) [] (some id)) c!"\n" (idleP ls cm)
      (cd (titledChapter id (Str.strip t) m) [] (some id)) := by
    refine Fed.linked hl (r1 := cd (typedChapter id m) [] (some id)) (r2 := cd (typedChapter id m) (if t = [] then [] else [Str.strip t]) (some id)) hn hid ht ?_ ?_ ?_ cm _
    · rcases hl with rfl | rfl <;> rfl
    · by_cases he : t = []
      · rw [if_pos he, if_pos he]
      · rw [if_neg he, if_neg he]
        rfl
    · rw [cd_heading m id _ hl]
      by_cases he : t = []
      · subst he
        rfl
      · rw [if_neg he, List.flatten_singleton]
  refine (Fed.section (secName_plain (.inr rfl) hid) (cd_start m hid) cm acc).append (fh.append (f1.append ((Fed.newline _ _ _ _).append (Fed.sectionEnd ?_ cm _))))
  have := cd_stop m id (Str.strip t) L
  have e2 := rstrip_lines (desc.getD [])
  rw [List.flatten_nil, List.nil_append] at e1
  rw [e1, e2, chapterDescBack_eq] at this
  exact this

end Verif
