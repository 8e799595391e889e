/-
Chapter and part descriptions: the documents.
-/
import Verif.Lemmas.Desc

namespace Verif
open Spec Re Template

variable {ls : List Str}

/-! ### Writing -/

theorem subst_linked {level : Str} (hl : level = c!"1" ∨ level = c!"2") {m : Mapping} {t id d name : Str} (h1 : m.get? c!"Title" = some t) (h2 : m.get? c!"ID" = some id)
    (h3 : m.get? c!"Desc" = some d) (h4 : m.get? c!"ProjectName" = some name) :
    subst (chSection ++ linkedHeading level ++ c!"<text:p text:style-name=\"Text_20_body\">$Desc</text:p>\n" ++ sectionEnd) m = descSection level name id t d := by
  have e : segs (chSection ++ linkedHeading level ++ c!"<text:p text:style-name=\"Text_20_body\">$Desc</text:p>\n" ++ sectionEnd) =
      c!"<text:section text:style-name=\"Sect1\" text:name=\"".map Seg.lit ++ (c!"ChID:".map Seg.lit ++ (Seg.var c!"ID" c!"$ID" :: (c!"\">\n".map Seg.lit ++
      (c!"<text:h text:style-name=\"Heading_20_".map Seg.lit ++ (level.map Seg.lit ++ (c!"\" text:outline-level=\"".map Seg.lit ++ (level.map Seg.lit ++ (c!"\">".map Seg.lit ++
      (c!"<text:a xlink:href=\"../".map Seg.lit ++ (Seg.var c!"ProjectName" c!"${ProjectName}" :: (c!"_manuscript.odt#ChID:".map Seg.lit ++ (Seg.var c!"ID" c!"$ID" :: (c!"%7Cregion\">".map Seg.lit ++
      (Seg.var c!"Title" c!"$Title" :: (c!"</text:a>".map Seg.lit ++ (hEnd.map Seg.lit ++
      ((pOpen bodyStyle).map Seg.lit ++ (Seg.var c!"Desc" c!"$Desc" :: (pEnd.map Seg.lit ++ (c!"\n".map Seg.lit ++ secEnd.map Seg.lit)))))))))))))))))))) := by
    rcases hl with rfl | rfl <;> decide +kernel
  unfold subst
  rw [e]
  simp only [List.flatMap_append, List.flatMap_cons, render_lits, render, h1, h2, h3, h4, Option.getD_some]
  unfold descSection secOpen linkText hOpen linkOpen
  simp only [List.append_assoc]

theorem subst_h1 {m : Mapping} {t : Str} (h1 : m.get? c!"Title" = some t) :
    subst c!"<text:h text:style-name=\"Heading_20_1\" text:outline-level=\"1\">$Title</text:h>\n" m = h1Open ++ (t ++ hEnd) := by
  have e : segs c!"<text:h text:style-name=\"Heading_20_1\" text:outline-level=\"1\">$Title</text:h>\n" = h1Open.map Seg.lit ++ (Seg.var c!"Title" c!"$Title" :: hEnd.map Seg.lit) := by
    decide +kernel
  unfold subst
  rw [e]
  simp only [List.flatMap_append, List.flatMap_cons, render_lits, render, h1, Option.getD_some]

/-- The text of a described chapter in the document. -/
def chapterBlock (level name id : Str) (ch : Chapter) : Str :=
  descSection level (name.flatMap escChar) id ((ch.title.getD []).flatMap escChar) (odtConvert ch.desc false)

/-- What a document of descriptions contains for a chapter. -/
def descPart (parts : Bool) (name : Str) (n : Novel) (id : Str) : Str :=
  match n.chapters.get? id with
  | none => []
  | some ch =>
    if chapterShown n ch = true then
      if parts then (if ch.chLevel = some 1 then chapterBlock c!"1" name id ch else [])
      else (if ch.chLevel = some 1 then h1Open ++ ((ch.title.getD []).flatMap escChar ++ hEnd) else chapterBlock c!"2" name id ch)
    else []

/-- The exporter. -/
def descExporter (parts : Bool) (e : DocEnv) : Exporter := if parts then odtPartDesc e else odtChapterDesc e

theorem scenesText_empty {x : Exporter} (h1 : x.scene = []) (h2 : x.appendedScene = []) (h3 : x.sceneDivider = []) {n : Novel} {before : List (Str × Scene)} {first : Bool}
    (l : List (Str × Scene)) : (scenesText x n before first l).flatten = [] := by
  induction l generalizing before first with
  | nil => rfl
  | cons p l ih =>
    unfold scenesText
    rw [List.flatten_append, ih, List.append_nil]
    unfold sceneText
    rw [h1, h2, h3]
    simp [filled_nil]

theorem convert_name {name : Str} (h : LinkName name) : odtConvert (some name) true = name.flatMap escChar := by
  cases name with
  | nil => rfl
  | cons c r => exact odtConvert_quick _

theorem desc_mapping (name path : Str) {n : Novel} {id : Str} {ch : Chapter} (hc : n.chapters.get? id = some ch) (k : Nat) :
    (plainEnv name path).plainBase.chapter n id k = .ok [(c!"ID", id), (c!"ChapterNumber", dispNumber k), (c!"Title", odtConvert ch.title true),
    (c!"Desc", odtConvert ch.desc false), (c!"ProjectName", odtConvert (some name) true),
    (c!"ProjectPath", path), (c!"Language", pyStr n.languageCode), (c!"Country", pyStr n.countryCode)] := by
  unfold Base.chapter
  rw [Dict.get!_of hc]
  rfl

theorem desc_chapter (parts : Bool) (name path : Str) (hname : LinkName name) {n : Novel} {id : Str} (before : List Str)
    (hf : ∀ ch, n.chapters.get? id = some ch → chapterShown n ch = true → DescFits id ch) :
    (chapterText (descExporter parts (plainEnv name path)) n before id).flatten = descPart parts name n id := by
  unfold chapterText descPart
  cases hc : n.chapters.get? id with
  | none => rfl
  | some ch =>
    dsimp only
    by_cases hs : chapterShown n ch = true
    · rw [if_pos hs, if_pos hs]
      have hfit := hf ch hc hs
      have ht := (odtConvert_title hfit.title).1
      have e1 : (descExporter parts (plainEnv name path)).chapterMapping = (plainEnv name path).plainBase.chapter := by cases parts <;> rfl
      have e2 : (descExporter parts (plainEnv name path)).chapterEnd = [] := by cases parts <;> rfl
      have e3 : isPart (descExporter parts (plainEnv name path)).toTemplates ch = (ch.chLevel == some 1) := by
        unfold isPart
        cases parts
        · have : (descExporter false (plainEnv name path)).part ≠ [] := by
            show chapterDescTemplates.part ≠ []
            decide
          simp only [this, ne_eq, not_false_eq_true, decide_true, Bool.and_true]
          rw [Bool.eq_iff_iff]
          simp
        · have : (descExporter true (plainEnv name path)).part ≠ [] := by
            show partDescTemplates.part ≠ []
            decide +kernel
          simp only [this, ne_eq, not_false_eq_true, decide_true, Bool.and_true]
          rw [Bool.eq_iff_iff]
          simp
      rw [e1, e2, if_pos rfl, List.append_nil, List.flatten_append, scenesText_empty (by cases parts <;> rfl) (by cases parts <;> rfl) (by cases parts <;> rfl),
        List.append_nil, List.flatten_singleton, e3, desc_mapping name path hc]
      unfold filled
      dsimp only
      by_cases hp : ch.chLevel = some 1
      · have hb : (ch.chLevel == some 1) = true := by simpa using hp
        simp only [hb, ↓reduceIte]
        cases parts
        · rw [if_neg (by decide), if_pos hp, ← ht]
          exact subst_h1 rfl
        · rw [if_pos rfl, if_pos hp]
          unfold chapterBlock
          rw [← ht, ← convert_name hname]
          exact subst_linked (level := c!"1") (.inl rfl) rfl rfl rfl rfl
      · have hb : (ch.chLevel == some 1) = false := by simpa using hp
        simp only [hb, Bool.false_eq_true, ↓reduceIte]
        cases parts
        · rw [if_neg (by decide), if_neg hp]
          unfold chapterBlock
          rw [← ht, ← convert_name hname]
          exact subst_linked (level := c!"2") (.inr rfl) rfl rfl rfl rfl
        · rw [if_pos rfl, if_neg hp]
          rfl
    · rw [if_neg hs, if_neg hs]
      rfl

theorem desc_manuscript (parts : Bool) (name path : Str) (hname : LinkName name) {n : Novel} (ids before : List Str)
    (hf : ∀ id ∈ ids, ∀ ch, n.chapters.get? id = some ch → chapterShown n ch = true → DescFits id ch) :
    (manuscript (descExporter parts (plainEnv name path)) n before ids).flatten = ids.flatMap (descPart parts name n) := by
  induction ids generalizing before with
  | nil => rfl
  | cons id ids ih =>
    unfold manuscript
    rw [List.flatten_append, List.flatMap_cons, ih _ (fun i hi => hf i (by simp [hi])), desc_chapter parts name path hname before (hf id (by simp))]

/-! ### Reading -/

/-- Reading the descriptions of the listed chapters. -/
def descsBack (d : Dict Chapter) : List Str → Novel → Novel
  | [], m => m
  | id :: ids, m => descsBack d ids (chapterDescBack id (((d.get? id).bind (·.title)).getD []) (tidy (((d.get? id).bind (·.desc)).getD [])) m)

theorem cd_deaf (m : Novel) : Deaf chapterDescReader { novel := m } := by
  refine ⟨?_, fun _ => rfl, fun _ _ => rfl⟩
  intro t as h1 h2
  show Rd.baseStart 0 { novel := m } t as = _
  unfold Rd.baseStart
  rw [if_neg h1, if_neg h2]

theorem Fed.h1 {h : Reader} {r : Rd} (hi : Ignores h r c!"h1") {body x : Str} (hb : Mute h body x) (cm acc : Str) :
    Fed h (h1Open ++ (body ++ hEnd)) acc (idleP ls cm) r c!"\n" (idleP ls cm) r :=
  Fed.ignored (op := c!"text:h text:style-name=\"Heading_20_1\" text:outline-level=\"1\">") (en := c!"/text:h>\n") (e := c!"text:h")
    (as := [(c!"text:style-name", c!"Heading_20_1"), (c!"text:outline-level", c!"1")]) (p1 := fun cm => headP ls cm c!"h1") hi (by decide +kernel)
    (x := x.reverse ++ []) (fun p r => hb [] p r) (by decide +kernel) (fun _ => rfl) (fun _ _ => rfl) (fun _ => rfl) cm acc

theorem Fed.descs (parts : Bool) {name : Str} (hname : LinkName name) {n : Novel} (ids : List Str)
    (hf : ∀ id ∈ ids, ∀ ch, n.chapters.get? id = some ch → chapterShown n ch = true → DescFits id ch) (m : Novel) (cm acc : Str) :
    ∃ acc', Fed chapterDescReader (ids.flatMap (descPart parts name n)) acc (idleP ls cm) (cd m [] none) acc' (idleP ls cm)
      (cd (descsBack n.chapters (described parts n ids) m) [] none) := by
  induction ids generalizing m acc with
  | nil => exact ⟨acc, Fed.nil _ _ _ _⟩
  | cons id ids ih =>
    have ihs := ih (fun i hi => hf i (by simp [hi]))
    rw [List.flatMap_cons]
    unfold described
    rw [List.filter_cons]
    have skip : ∀ acc1, Fed chapterDescReader (descPart parts name n id) acc (idleP ls cm) (cd m [] none) acc1 (idleP ls cm) (cd m [] none) →
        ∃ acc', Fed chapterDescReader (descPart parts name n id ++ ids.flatMap (descPart parts name n)) acc (idleP ls cm) (cd m [] none) acc' (idleP ls cm)
          (cd (descsBack n.chapters (described parts n ids) m) [] none) := by
      intro acc1 f
      obtain ⟨acc', g⟩ := ihs m acc1
      exact ⟨acc', f.append g⟩
    have take : ∀ ch, n.chapters.get? id = some ch → Fed chapterDescReader (descPart parts name n id) acc (idleP ls cm) (cd m [] none) c!"\n" (idleP ls cm)
        (cd (chapterDescBack id (ch.title.getD []) (tidy (ch.desc.getD [])) m) [] none) →
        ∃ acc', Fed chapterDescReader (descPart parts name n id ++ ids.flatMap (descPart parts name n)) acc (idleP ls cm) (cd m [] none) acc' (idleP ls cm)
          (cd (descsBack n.chapters (id :: described parts n ids) m) [] none) := by
      intro ch hc f
      obtain ⟨acc', g⟩ := ihs (chapterDescBack id (ch.title.getD []) (tidy (ch.desc.getD [])) m) c!"\n"
      refine ⟨acc', f.append ?_⟩
      unfold descsBack
      rw [hc]
      exact g
    cases hc : n.chapters.get? id with
    | none =>
      rw [if_neg (by simp)]
      refine skip acc ?_
      unfold descPart
      rw [hc]
      exact Fed.nil _ _ _ _
    | some ch =>
      dsimp only
      by_cases hs : chapterShown n ch = true
      · have hfit := hf id (by simp) ch hc hs
        have hct := (odtConvert_title hfit.title).2
        by_cases hp : ch.chLevel = some 1
        · cases parts
          · rw [if_neg (by simp [hp])]
            refine skip c!"\n" ?_
            unfold descPart
            rw [hc]
            dsimp only
            rw [if_pos hs, if_neg (by decide), if_pos hp]
            exact Fed.h1 ((cd_deaf m).ignores (by decide)) (Mute.esc hct) cm acc
          · rw [if_pos (by simp [hp, hs])]
            refine take ch hc ?_
            unfold descPart
            rw [hc]
            dsimp only
            rw [if_pos hs, if_pos rfl, if_pos hp]
            exact Fed.chapterSheet (.inl rfl) m hname hfit.number hct hfit.desc cm acc
        · cases parts
          · rw [if_pos (by simp [hp, hs])]
            refine take ch hc ?_
            unfold descPart
            rw [hc]
            dsimp only
            rw [if_pos hs, if_neg (by decide), if_neg hp]
            exact Fed.chapterSheet (.inr rfl) m hname hfit.number hct hfit.desc cm acc
          · rw [if_neg (by simp [hp])]
            refine skip acc ?_
            unfold descPart
            rw [hc]
            dsimp only
            rw [if_pos hs, if_pos rfl, if_neg hp]
            exact Fed.nil _ _ _ _
      · rw [if_neg (by simp [hs])]
        refine skip acc ?_
        unfold descPart
        rw [hc]
        dsimp only
        rw [if_neg hs]
        exact Fed.nil _ _ _ _

/-! ### What reading does -/

theorem describedChapter_eq (d : Dict Chapter) (id : Str) (ch : Chapter) :
    describedChapter (((d.get? id).bind (·.title)).getD []) (tidy (((d.get? id).bind (·.desc)).getD [])) ch = withDescription ((d.get? id).getD {}) ch := by
  cases hc : d.get? id <;> unfold describedChapter withDescription isBlankField lacksTitle tidyDesc <;>
    cases ht : ch.title with
    | none => rfl
    | some t => cases t <;> rfl

theorem withDescription_twice (x ch : Chapter) : withDescription x (withDescription x ch) = withDescription x ch := by
  unfold withDescription lacksTitle
  cases ht : ch.title with
  | none => simp
  | some t => cases t <;> simp

theorem chapterDescBack_get (id title desc : Str) (m : Novel) (k : Str) :
    (chapterDescBack id title desc m).chapters.get? k = if id = k then some (describedChapter title desc ((m.chapters.get? k).getD {})) else m.chapters.get? k := by
  unfold chapterDescBack
  dsimp only
  rw [Dict.get?_modify]
  unfold knownChapter
  by_cases hk : id = k
  · subst hk
    rw [if_pos rfl, if_pos rfl]
    by_cases hh : m.chapters.has id = true
    · rw [if_pos hh]
      unfold Dict.has at hh
      cases h : m.chapters.get? id with
      | none => rw [h] at hh; cases hh
      | some x => rfl
    · rw [if_neg hh]
      unfold Dict.has at hh
      dsimp only
      rw [Dict.get?_set_self]
      cases h : m.chapters.get? id with
      | none => rfl
      | some x => rw [h] at hh; exact absurd rfl hh
  · rw [if_neg hk, if_neg hk]
    split
    · rfl
    · dsimp only
      rw [Dict.get?_set_ne _ _ hk]

theorem descsBack_get (d : Dict Chapter) (ids : List Str) (m : Novel) (k : Str) :
    (descsBack d ids m).chapters.get? k = if k ∈ ids then some (withDescription ((d.get? k).getD {}) ((m.chapters.get? k).getD {})) else m.chapters.get? k := by
  induction ids generalizing m with
  | nil => rfl
  | cons id ids ih =>
    unfold descsBack
    rw [ih, chapterDescBack_get]
    by_cases hk : id = k
    · subst hk
      rw [if_pos rfl, if_pos (c := id ∈ id :: ids) (by simp), describedChapter_eq, Option.getD_some, withDescription_twice]
      split <;> rfl
    · rw [if_neg hk]
      by_cases h2 : k ∈ ids
      · rw [if_pos h2, if_pos (by simp [h2])]
      · rw [if_neg h2, if_neg (by simp [h2, Ne.symm hk])]

theorem descsBack_frame (d : Dict Chapter) (ids : List Str) (m : Novel) (hk : ∀ id ∈ ids, m.chapters.has id = true) :
    ∃ d', descsBack d ids m = { m with chapters := d' } ∧ d'.keys = m.chapters.keys := by
  induction ids generalizing m with
  | nil => exact ⟨m.chapters, rfl, rfl⟩
  | cons id ids ih =>
    unfold descsBack
    have e : knownChapter id m = m := by
      unfold knownChapter
      rw [if_pos (hk id (by simp))]
    unfold chapterDescBack
    rw [e]
    obtain ⟨d', h1, h2⟩ := ih { m with chapters := m.chapters.modify id (describedChapter (((d.get? id).bind (·.title)).getD []) (tidy (((d.get? id).bind (·.desc)).getD []))) } (by
      intro i hi
      dsimp only
      rw [has_modify]
      exact hk i (by simp [hi]))
    refine ⟨d', h1, ?_⟩
    rw [h2, Dict.keys_modify]

theorem descsBack_same (ids : List Str) (m : Novel) (hk : ∀ id ∈ ids, ∃ ch, m.chapters.get? id = some ch ∧ withDescription ch ch = ch) : descsBack m.chapters ids m = m := by
  induction ids with
  | nil => rfl
  | cons id ids ih =>
    unfold descsBack
    obtain ⟨ch, h1, h2⟩ := hk id (by simp)
    have e : knownChapter id m = m := by
      unfold knownChapter
      rw [if_pos (has_of h1)]
    have e2 : chapterDescBack id (((m.chapters.get? id).bind (·.title)).getD []) (tidy (((m.chapters.get? id).bind (·.desc)).getD [])) m = m := by
      unfold chapterDescBack
      rw [e, Dict.modify_same h1 (by rw [describedChapter_eq, h1]; exact h2)]
    rw [e2]
    exact ih (fun i hi => hk i (by simp [hi]))

theorem descPart_cr (parts : Bool) {name : Str} (hname : LinkName name) {n : Novel} (ids : List Str)
    (hf : ∀ id ∈ ids, ∀ ch, n.chapters.get? id = some ch → chapterShown n ch = true → DescFits id ch) : '\r' ∉ ids.flatMap (descPart parts name n) := by
  have hn : '\r' ∉ name.flatMap escChar := by
    refine escs_cr ?_
    intro hm
    exact (hname _ hm).2.2 rfl
  rw [List.mem_flatMap]
  rintro ⟨id, hid, hm⟩
  unfold descPart at hm
  cases hc : n.chapters.get? id with
  | none =>
    rw [hc] at hm
    cases hm
  | some ch =>
    rw [hc] at hm
    dsimp only at hm
    by_cases hs : chapterShown n ch = true
    · have hfit := hf id hid ch hc hs
      have h1 := esc_cr (odtConvert_title hfit.title).2
      have h2 := odtConvert_cr hfit.desc
      have h3 := num_cr hfit.number
      have hb : ∀ level, level = c!"1" ∨ level = c!"2" → '\r' ∉ chapterBlock level name id ch := by
        intro level hl
        have h0 : '\r' ∉ level := by rcases hl with rfl | rfl <;> decide
        unfold chapterBlock descSection secOpen linkText hOpen linkOpen pOpen
        simp only [List.mem_append, not_or]
        refine ⟨⟨⟨by decide, by decide, h3⟩, by decide⟩, ⟨⟨by decide, h0, by decide, h0, by decide⟩, ⟨by decide, hn, by decide, h3, by decide⟩, h1, by decide, by decide⟩,
          ⟨⟨⟨by decide, by decide⟩, by decide⟩, h2, by decide⟩, by decide, by decide⟩
      rw [if_pos hs] at hm
      split at hm
      · split at hm
        · exact hb _ (.inl rfl) hm
        · cases hm
      · split at hm
        · simp only [List.mem_append] at hm
          rcases hm with hm | hm | hm
          · exact absurd hm (by decide)
          · exact h1 hm
          · exact absurd hm (by decide)
        · exact hb _ (.inr rfl) hm
    · rw [if_neg hs] at hm
      cases hm

end Verif
