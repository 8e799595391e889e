/-
C67: a project that is exported to a document and written back from the unmodified document is the same project, from project file to project file.
-/
import Verif.Lemmas.Travel4
import Verif.Lemmas.Travel5
import Verif.Props.C47_Lists
import Verif.Props.C49_Sheets
import Verif.Props.C50_Descriptions
import Verif.Props.C66_Notes
import Verif.Props.C54_Proof

namespace Verif
open Spec

namespace Machine

variable {w : Machine} {base s : Str} {x : Elem} {n : Novel} {fs : FS}

theorem text_of_file {f : OdtFile} {a : Str} (h : w.odtFile a = .ok f) (sfx : Str) (m : Novel) : w.readText sfx a m =
    (let plain (h : Reader) : Except Exc (Novel × Bool) := (readOdt h f m).map fun m => (m, false)
    if sfx = c!"_proof" then readFormatted proofReader f m
    else if sfx = c!"_manuscript" then readFormatted (manuscriptReader 0) f m
    else if sfx = c!"_notes" then readFormatted (manuscriptReader 1) f m
    else if sfx = c!"_todo" then readFormatted (manuscriptReader 2) f m
    else if sfx = c!"_scenes" then plain sceneDescReader
    else if sfx = c!"_chapters" then plain chapterDescReader
    else if sfx = c!"_parts" then plain chapterDescReader
    else if sfx = c!"_characters" then plain charactersReader
    else if sfx = c!"_items" then plain (worldReader itemKind)
    else if sfx = c!"_locations" then plain (worldReader locationKind)
    else if Str.contains ((w.unzip a c!"content.xml").getD []) c!"Heading_20_3" then plain outlineReader
    else readFormatted importReader f m) := by
  unfold readText
  rw [h]
  rfl

theorem sheet_of_file {t : Str} {root : XNode} {a : Str} (h : w.unzip a c!"content.xml" = some t) (hp : parseDoc t = some root) (sfx : Str) (m : Novel) : w.readSheet sfx a m =
    ((if sfx = c!"_charlist" then readCharList root m
    else if sfx = c!"_loclist" then readLocList root m
    else if sfx = c!"_itemlist" then readItemList root m
    else if sfx = c!"_scenelist" then readSceneList root m
    else .error .attributeError) >>= fun m => .ok (m, false)) := by
  unfold readSheet
  rw [h]
  simp only [need, Bind.bind, Except.bind, hp]
  by_cases h1 : sfx = c!"_charlist"
  · rw [if_pos h1, if_pos h1]
  rw [if_neg h1, if_neg h1]
  by_cases h1 : sfx = c!"_loclist"
  · rw [if_pos h1, if_pos h1]
  rw [if_neg h1, if_neg h1]
  by_cases h1 : sfx = c!"_itemlist"
  · rw [if_pos h1, if_pos h1]
  rw [if_neg h1, if_neg h1]
  by_cases h1 : sfx = c!"_scenelist"
  · rw [if_pos h1, if_pos h1]
  rw [if_neg h1, if_neg h1]

/-! ### Reading does not depend on the languages the project had before -/

theorem readFormatted_langs (h : Reader) (f : OdtFile) (m : Novel) (ls : Option (List Str)) : readFormatted h f { m with languages := ls } = readFormatted h f m := rfl

theorem formatted_langs {rd : Reader} {f : OdtFile} {n1 : Novel} (e : n1 = { n with languages := some (n.languages.getD []) })
    (h : ∃ langs lc cc, langs.Nodup ∧ (∀ l ∈ langs, l ∈ n1.languages.getD []) ∧ CodesFrom f.styles lc cc ∧
      readFormatted rd f n1 = .ok ({ n1 with languages := some langs, languageCode := lc, countryCode := cc }, false)) :
    ∃ langs lc cc, langs.Nodup ∧ (∀ l ∈ langs, l ∈ n.languages.getD []) ∧ CodesFrom f.styles lc cc ∧
      readFormatted rd f n = .ok ({ n with languages := some langs, languageCode := lc, countryCode := cc }, false) := by
  subst e
  exact h

theorem styles_ok (w : Machine) (n : Novel) : ∃ a, stylesCalls (w.styles n) = .ok a := by
  unfold styles
  exact odtStylesTree_calls _ _

theorem info_ok (w : Machine) (n : Novel) : ∃ b, infoCalls (some (w.info n)) = .ok b := by
  unfold info
  exact metaTree_calls _ _ _ _

theorem elemText_textNode (t : Str) (as : List (Str × Str)) (s : Str) : elemText (.elem t as (textNode s.reverse)) = s := by
  unfold elemText textNode
  by_cases h : s = []
  · subst h; rfl
  · rw [if_neg (by simpa using h)]
    exact List.reverse_reverse s

/-- The only data among the calls for `meta.xml` is the title. -/
theorem metaCalls_data {root m : XNode} {title : Str} (h1 : XNode.find c!"office:meta" root.kids = some m)
    (h2 : XNode.find c!"dc:title" m.kids = some (.elem c!"dc:title" [] (textNode title.reverse))) {b : List Call} (h : metaCalls root = .ok b) : ∀ s, Call.data s ∈ b → s = title := by
  unfold metaCalls at h
  rw [h1] at h
  dsimp only at h
  injection h with h
  rw [← h]
  intro s hs
  simp only [List.mem_append] at hs
  rcases hs with (hs | hs) | hs
  · unfold metaField at hs
    rw [h2] at hs
    dsimp only at hs
    rw [elemText_textNode] at hs
    by_cases ht : title = []
    · rw [if_pos ht] at hs; cases hs
    · rw [if_neg ht] at hs
      simpa using hs
  · split at hs <;> simp at hs
  · split at hs <;> simp at hs

theorem info_data (w : Machine) (n : Novel) {b : List Call} (h : infoCalls (some (w.info n)) = .ok b) : ∀ s, Call.data s ∈ b → s = n.title.getD c!"None" :=
  metaCalls_data (root := w.info n) rfl rfl h

theorem exportable_langs (h : Exportable n) (ls : Option (List Str)) : Exportable { n with languages := ls } := ⟨h.chapters, h.scenes⟩

end Machine

open Machine

variable {w : Machine} {base s : Str} {x : Elem} {n : Novel} {fs : FS}

theorem Spec.GoodFile.read (g : GoodFile w s x n) : NovelFromFile n := by
  have h := g.opens
  unfold loadFile at h
  split at h
  · cases h
  · split at h
    · cases h
    · rename_i hr
      injection h with h
      injection h with h1 h2
      subst h2
      exact readTree_from hr

theorem Spec.GoodFile.exportable (g : GoodFile w s x n) (hk : KnownStatus n) : Exportable n := g.read.exportable g.settled.ids.sound hk

/-! ### Documents with formatted text -/

/-- **C67, manuscript**: a project with a language is exported to a manuscript, and the unmodified manuscript is written back: the project file is then
the one that opening and saving the project gives. (The texts must be carriable, as in `C48_unmodified_partial`.) -/
theorem C67_manuscript_partial (h : Departure w (odt c!"_manuscript") base s fs) (g : GoodFile w s x n) (hf : MetadataFit w.now (w.sysLng, w.sysCtr) n)
    (hl : n.languageCode ≠ none) (hk : KnownStatus n) (hm : ManuscriptFits n n)
    (h2 : ∀ p ∈ exported n n.srtChapters, p.2.sceneContent.isSome = true)
    (h3 : ∀ s ∈ narrative n, ∀ l ∈ Spec.linesOf (Spec.textOf n.scenes s), l.head? ≠ some '#') :
    ComesBack w (odt c!"_manuscript") base s n fs := by
  have e := settled_withLanguages g.settled.project
  obtain ⟨t, evs, g1, g2, g3⟩ := C48_unmodified_partial w.name w.path { n with languages := some (n.languages.getD []) } (exportable_langs (g.exportable hk) _) g.read.inherits
    ⟨hm.languages, hm.distinct, hm.author, hm.title, fun id h ch hc hs => ⟨(hm.chapters id h ch hc hs).1, (hm.chapters id h ch hc hs).2⟩, fun p hp => ⟨(hm.scenes p hp).1, (hm.scenes p hp).2⟩⟩
    g.read.counts g.read.shown (fun p hp => ⟨g.read.exported p hp, h2 p hp⟩) h3
  obtain ⟨a, ha⟩ := styles_ok w n
  obtain ⟨b, hb⟩ := info_ok w n
  refine formatted_back h g hf hl rfl (t := t) ?_ g2 (fun a hx => ?_) (formatted_langs (f := ⟨w.styles n, some (w.info n), evs⟩) rfl (g3 (w.styles n) (some (w.info n)) a b ha hb))
  · show formattedText _ n.withLanguages = _
    rw [e]
    exact g1
  · show w.readText c!"_manuscript" a n = _
    rw [text_of_file hx]
    dsimp only
    rw [if_neg (by decide), if_pos rfl]

/-- A project without a language gets the language of the system: the novel that is read from its unmodified manuscript has it (and is the same otherwise). -/
theorem C67_language_added_partial (g : GoodFile w s x n) (hl : n.languageCode = none) (hs : w.sysLng ≠ [] ∧ w.sysCtr ≠ []) (hk : KnownStatus n) (hm : ManuscriptFits n n)
    (h2 : ∀ p ∈ exported n n.srtChapters, p.2.sceneContent.isSome = true)
    (h3 : ∀ s ∈ narrative n, ∀ l ∈ Spec.linesOf (Spec.textOf n.scenes s), l.head? ≠ some '#') :
    ∃ t evs langs, w.content (odt c!"_manuscript") n = .ok t ∧ saxEvents t = some evs ∧
      ∀ a, w.odtFile a = .ok ⟨w.styles n, some (w.info n), evs⟩ →
        w.parse (odt c!"_manuscript") a (some x, n) = .ok ((some x, { n with languages := some langs, languageCode := some w.sysLng, countryCode := some w.sysCtr }), false) := by
  have e := settled_withLanguages g.settled.project
  obtain ⟨t, evs, g1, g2, g3⟩ := C48_unmodified_partial w.name w.path { n with languages := some (n.languages.getD []) } (exportable_langs (g.exportable hk) _) g.read.inherits
    ⟨hm.languages, hm.distinct, hm.author, hm.title, fun id h ch hc hs => ⟨(hm.chapters id h ch hc hs).1, (hm.chapters id h ch hc hs).2⟩, fun p hp => ⟨(hm.scenes p hp).1, (hm.scenes p hp).2⟩⟩
    g.read.counts g.read.shown (fun p hp => ⟨g.read.exported p hp, h2 p hp⟩) h3
  obtain ⟨a, ha⟩ := styles_ok w n
  obtain ⟨b, hb⟩ := info_ok w n
  obtain ⟨langs, lc, cc, k1, k2, k3, k4⟩ := formatted_langs (f := ⟨w.styles n, some (w.info n), evs⟩) rfl (g3 (w.styles n) (some (w.info n)) a b ha hb)
  have hst : w.styles n = odtStylesTree w.sysLng w.sysCtr := by
    unfold styles documentLocale
    rw [hl]
  obtain ⟨rfl, rfl⟩ := k3 w.sysLng w.sysCtr (by dsimp only; rw [hst]; exact odtStylesTree_locale _ _) hs.1 hs.2
  refine ⟨t, evs, langs, ?_, g2, fun a hx => parse_odt rfl a ?_⟩
  · show formattedText _ n.withLanguages = _
    rw [e]
    exact g1
  · show w.readText c!"_manuscript" a n = _
    rw [text_of_file hx]
    dsimp only
    rw [if_neg (by decide), if_pos rfl]
    exact k4

/-- **C67, proof reading**: the same for the document for proof reading. -/
theorem C67_proof_partial (h : Departure w (odt c!"_proof") base s fs) (g : GoodFile w s x n) (hf : MetadataFit w.now (w.sysLng, w.sysCtr) n)
    (hl : n.languageCode ≠ none) (hk : KnownStatus n) (hm : ProofFits n n)
    (h2 : ∀ p ∈ exported n n.srtChapters, p.2.sceneContent.isSome = true)
    (h3 : ∀ s ∈ narrative n, ∀ l ∈ Spec.linesOf (Spec.textOf n.scenes s), l.head? ≠ some '#') :
    ComesBack w (odt c!"_proof") base s n fs := by
  have e := settled_withLanguages g.settled.project
  obtain ⟨t, evs, g1, g2, g3⟩ := C54_unmodified_partial w.name w.path { n with languages := some (n.languages.getD []) } (exportable_langs (g.exportable hk) _) g.read.inherits
    ⟨hm.languages, hm.distinct, hm.author, hm.title, hm.chapters, fun p hp => ⟨(hm.scenes p hp).1, (hm.scenes p hp).2⟩⟩
    g.read.counts h2 h3
  obtain ⟨a, ha⟩ := styles_ok w n
  obtain ⟨b, hb⟩ := info_ok w n
  have hmark : ∀ s, Call.data s ∈ b → ¬ c!"[ScID" <:+: s ∧ ¬ c!"[/ScID" <:+: s := by
    intro u hu
    rw [info_data w n hb u hu]
    cases ht : n.title with
    | none => decide
    | some t =>
      have hp := hm.title t ht
      exact ⟨hp.unmarked, fun hx => hp.plain '/' (by decide) (List.IsInfix.trans (by decide) hx)⟩
  refine formatted_back h g hf hl rfl (t := t) ?_ g2 (fun a hx => ?_) (formatted_langs (f := ⟨w.styles n, some (w.info n), evs⟩) rfl (g3 (w.styles n) (some (w.info n)) a b ha hb hmark))
  · show proofText _ n.withLanguages = _
    rw [e]
    exact g1
  · show w.readText c!"_proof" a n = _
    rw [text_of_file hx]
    dsimp only
    rw [if_pos rfl]

/-- **C67, notes**: the same for the document with the notes. -/
theorem C67_notes_partial (h : Departure w (odt c!"_notes") base s fs) (g : GoodFile w s x n) (hf : MetadataFit w.now (w.sysLng, w.sysCtr) n)
    (hl : n.languageCode ≠ none) (hk : KnownStatus n) (hm : AsideFits 1 n n)
    (h2 : ∀ p ∈ asideOf 1 n n.srtChapters, p.2.sceneContent.isSome = true)
    (h3 : ∀ s ∈ narrative n, ∀ l ∈ Spec.linesOf (Spec.textOf n.scenes s), l.head? ≠ some '#') :
    ComesBack w (odt c!"_notes") base s n fs := by
  have e := settled_withLanguages g.settled.project
  obtain ⟨t, evs, g1, g2, g3⟩ := (C66_unmodified_partial w.name w.path { n with languages := some (n.languages.getD []) } (exportable_langs (g.exportable hk) _) g.read.counts h3).1
    ⟨hm.languages, hm.distinct, hm.author, hm.title, fun id h ch hc => ⟨(hm.chapters id h ch hc).1, (hm.chapters id h ch hc).2⟩, fun p hp => ⟨(hm.scenes p hp).1, (hm.scenes p hp).2⟩⟩ h2
  obtain ⟨a, ha⟩ := styles_ok w n
  obtain ⟨b, hb⟩ := info_ok w n
  refine formatted_back h g hf hl rfl (t := t) ?_ g2 (fun a hx => ?_) (formatted_langs (f := ⟨w.styles n, some (w.info n), evs⟩) rfl (g3 (w.styles n) (some (w.info n)) a b ha hb))
  · show formattedText _ n.withLanguages = _
    rw [e]
    exact g1
  · show w.readText c!"_notes" a n = _
    rw [text_of_file hx]
    dsimp only
    rw [if_neg (by decide), if_neg (by decide), if_pos rfl]

/-- **C67, to-do lists**: the same for the document with the to-do lists. -/
theorem C67_todo_partial (h : Departure w (odt c!"_todo") base s fs) (g : GoodFile w s x n) (hf : MetadataFit w.now (w.sysLng, w.sysCtr) n)
    (hl : n.languageCode ≠ none) (hk : KnownStatus n) (hm : AsideFits 2 n n)
    (h2 : ∀ p ∈ asideOf 2 n n.srtChapters, p.2.sceneContent.isSome = true)
    (h3 : ∀ s ∈ narrative n, ∀ l ∈ Spec.linesOf (Spec.textOf n.scenes s), l.head? ≠ some '#') :
    ComesBack w (odt c!"_todo") base s n fs := by
  have e := settled_withLanguages g.settled.project
  obtain ⟨t, evs, g1, g2, g3⟩ := (C66_unmodified_partial w.name w.path { n with languages := some (n.languages.getD []) } (exportable_langs (g.exportable hk) _) g.read.counts h3).2
    ⟨hm.languages, hm.distinct, hm.author, hm.title, fun id h ch hc => ⟨(hm.chapters id h ch hc).1, (hm.chapters id h ch hc).2⟩, fun p hp => ⟨(hm.scenes p hp).1, (hm.scenes p hp).2⟩⟩ h2
  obtain ⟨a, ha⟩ := styles_ok w n
  obtain ⟨b, hb⟩ := info_ok w n
  refine formatted_back h g hf hl rfl (t := t) ?_ g2 (fun a hx => ?_) (formatted_langs (f := ⟨w.styles n, some (w.info n), evs⟩) rfl (g3 (w.styles n) (some (w.info n)) a b ha hb))
  · show formattedText _ n.withLanguages = _
    rw [e]
    exact g1
  · show w.readText c!"_todo" a n = _
    rw [text_of_file hx]
    dsimp only
    rw [if_neg (by decide), if_neg (by decide), if_neg (by decide), if_pos rfl]

/-! ### Documents with descriptions -/

/-- **C67, chapter descriptions**: a project is exported to a document with the chapter descriptions, and this is written back. -/
theorem C67_chapters_partial (h : Departure w (odt c!"_chapters") base s fs) (g : GoodFile w s x n) (hf : MetadataFit w.now (w.sysLng, w.sysCtr) n)
    (hk : KnownStatus n) (hname : LinkName w.name) (ht : TitleFits n) (hm : ChaptersFit n)
    (hd : ∀ id ∈ described false n n.srtChapters, ∀ ch, n.chapters.get? id = some ch → ch.title.isSome = true ∧ tidyDesc ch.desc = ch.desc) :
    ComesBack w (odt c!"_chapters") base s n fs := by
  obtain ⟨t, evs, g1, g2, g3⟩ := C50_chapters_unmodified_partial false w.name w.path n hname (g.exportable hk) g.read.there g.read.inherits ht hm
    (fun id hid ch hc => ⟨g.read.described _ id hid ch hc, hd id hid ch hc⟩)
  obtain ⟨a, ha⟩ := styles_ok w n
  obtain ⟨b, hb⟩ := info_ok w n
  refine text_back h g hf rfl (t := t) g1 g2 (fun a hx => ?_)
  show w.readText c!"_chapters" a n = _
  rw [text_of_file hx]
  dsimp only
  rw [if_neg (by decide), if_neg (by decide), if_neg (by decide), if_neg (by decide), if_neg (by decide), if_pos rfl, g3 _ _ _ _ ha hb]
  rfl

/-- **C67, part descriptions**: the same for the document with the part descriptions. -/
theorem C67_parts_partial (h : Departure w (odt c!"_parts") base s fs) (g : GoodFile w s x n) (hf : MetadataFit w.now (w.sysLng, w.sysCtr) n)
    (hk : KnownStatus n) (hname : LinkName w.name) (ht : TitleFits n) (hm : ChaptersFit n)
    (hd : ∀ id ∈ described true n n.srtChapters, ∀ ch, n.chapters.get? id = some ch → ch.title.isSome = true ∧ tidyDesc ch.desc = ch.desc) :
    ComesBack w (odt c!"_parts") base s n fs := by
  obtain ⟨t, evs, g1, g2, g3⟩ := C50_chapters_unmodified_partial true w.name w.path n hname (g.exportable hk) g.read.there g.read.inherits ht hm
    (fun id hid ch hc => ⟨g.read.described _ id hid ch hc, hd id hid ch hc⟩)
  obtain ⟨a, ha⟩ := styles_ok w n
  obtain ⟨b, hb⟩ := info_ok w n
  refine text_back h g hf rfl (t := t) g1 g2 (fun a hx => ?_)
  show w.readText c!"_parts" a n = _
  rw [text_of_file hx]
  dsimp only
  rw [if_neg (by decide), if_neg (by decide), if_neg (by decide), if_neg (by decide), if_neg (by decide), if_neg (by decide), if_pos rfl, g3 _ _ _ _ ha hb]
  rfl

/-- **C67, scene descriptions**: the same for the document with the scene descriptions. -/
theorem C67_scenes_partial (h : Departure w (odt c!"_scenes") base s fs) (g : GoodFile w s x n) (hf : MetadataFit w.now (w.sysLng, w.sysCtr) n)
    (hk : KnownStatus n) (hname : LinkName w.name) (ht : TitleFits n) (hm : ScenesFit n n)
    (hd : ∀ p ∈ exported n n.srtChapters, ∃ d, p.2.desc = some d ∧ Str.rstrip d = d)
    (hc : ∀ id ∈ shownChapters n n.srtChapters, ∀ ch, n.chapters.get? id = some ch → lacksTitle ch.title = false) :
    ComesBack w (odt c!"_scenes") base s n fs := by
  obtain ⟨t, evs, g1, g2, g3⟩ := C50_scenes_unmodified_partial w.name w.path n hname (g.exportable hk) g.read.there g.read.inherits ht hm
    (fun p hp => ⟨g.read.exported p hp, hd p hp⟩) (fun id hid ch hch => ⟨g.read.shown id hid ch hch, hc id hid ch hch⟩)
  obtain ⟨a, ha⟩ := styles_ok w n
  obtain ⟨b, hb⟩ := info_ok w n
  refine text_back h g hf rfl (t := t) g1 g2 (fun a hx => ?_)
  show w.readText c!"_scenes" a n = _
  rw [text_of_file hx]
  dsimp only
  rw [if_neg (by decide), if_neg (by decide), if_neg (by decide), if_neg (by decide), if_pos rfl, g3 _ _ _ _ ha hb]
  rfl

/-- **C67, characters**: the same for the character sheets. -/
theorem C67_characters_partial (h : Departure w (odt c!"_characters") base s fs) (g : GoodFile w s x n) (hf : MetadataFit w.now (w.sysLng, w.sysCtr) n)
    (hk : KnownStatus n) (ht : TitleFits n) (hm : PersonsFit n.srtCharacters n.characters)
    (hd : ∀ id ∈ n.srtCharacters, ∃ c, n.characters.get? id = some c ∧ tidyDesc c.desc = c.desc ∧ tidyDesc c.bio = c.bio ∧ tidyDesc c.goals = c.goals ∧ tidyDesc c.notes = c.notes) :
    ComesBack w (odt c!"_characters") base s n fs := by
  obtain ⟨t, g1⟩ := (C49_written (plainEnv w.name w.path) n (g.exportable hk) g.read.there).1
  obtain ⟨evs, g2, g3⟩ := C49_characters_unmodified_partial w.name w.path n t g1 ht hm hd
  obtain ⟨a, ha⟩ := styles_ok w n
  obtain ⟨b, hb⟩ := info_ok w n
  refine text_back h g hf rfl (t := t) g1 g2 (fun a hx => ?_)
  show w.readText c!"_characters" a n = _
  rw [text_of_file hx]
  dsimp only
  rw [if_neg (by decide), if_neg (by decide), if_neg (by decide), if_neg (by decide), if_neg (by decide), if_neg (by decide), if_neg (by decide), if_pos rfl, g3 _ _ _ _ ha hb]
  rfl

/-- **C67, items**: the same for the item sheets. -/
theorem C67_items_partial (h : Departure w (odt c!"_items") base s fs) (g : GoodFile w s x n) (hf : MetadataFit w.now (w.sysLng, w.sysCtr) n)
    (hk : KnownStatus n) (ht : TitleFits n) (hm : ElementsFit n.srtItems n.items) (hd : TidyElements n.srtItems n.items) :
    ComesBack w (odt c!"_items") base s n fs := by
  obtain ⟨t, g1⟩ := (C49_written (plainEnv w.name w.path) n (g.exportable hk) g.read.there).2.2
  obtain ⟨evs, g2, g3⟩ := C49_items_unmodified_partial w.name w.path n t g1 ht hm hd
  obtain ⟨a, ha⟩ := styles_ok w n
  obtain ⟨b, hb⟩ := info_ok w n
  refine text_back h g hf rfl (t := t) g1 g2 (fun a hx => ?_)
  show w.readText c!"_items" a n = _
  rw [text_of_file hx]
  dsimp only
  rw [if_neg (by decide), if_neg (by decide), if_neg (by decide), if_neg (by decide), if_neg (by decide), if_neg (by decide), if_neg (by decide), if_neg (by decide), if_pos rfl, g3 _ _ _ _ ha hb]
  rfl

/-- **C67, locations**: the same for the location sheets. -/
theorem C67_locations_partial (h : Departure w (odt c!"_locations") base s fs) (g : GoodFile w s x n) (hf : MetadataFit w.now (w.sysLng, w.sysCtr) n)
    (hk : KnownStatus n) (ht : TitleFits n) (hm : ElementsFit n.srtLocations n.locations) (hd : TidyElements n.srtLocations n.locations) :
    ComesBack w (odt c!"_locations") base s n fs := by
  obtain ⟨t, g1⟩ := (C49_written (plainEnv w.name w.path) n (g.exportable hk) g.read.there).2.1
  obtain ⟨evs, g2, g3⟩ := C49_locations_unmodified_partial w.name w.path n t g1 ht hm hd
  obtain ⟨a, ha⟩ := styles_ok w n
  obtain ⟨b, hb⟩ := info_ok w n
  refine text_back h g hf rfl (t := t) g1 g2 (fun a hx => ?_)
  show w.readText c!"_locations" a n = _
  rw [text_of_file hx]
  dsimp only
  rw [if_neg (by decide), if_neg (by decide), if_neg (by decide), if_neg (by decide), if_neg (by decide), if_neg (by decide), if_neg (by decide), if_neg (by decide), if_neg (by decide), if_pos rfl, g3 _ _ _ _ ha hb]
  rfl

/-! ### Spreadsheets -/

theorem ods_mappings {e : DocEnv} {t : Templates} (hn : Exportable n) : TotalMappings (odsWriter e t) n where
  header := ⟨_, rfl⟩
  chapter id hid k := by
    obtain ⟨ch, hc⟩ := hn.chapters id hid
    exact e.odsBase.chapter_total hc k
  scene id hid k w l := e.odsBase.scene_total hn hid k w l

theorem ods_total {e : DocEnv} {x : Exporter} (ha : AllThere n) (hn : Exportable n) (hm : TotalMappings x n) (h1 : x.characterMapping = e.odsBase.character)
    (h2 : x.locationMapping = e.odsBase.location) (h3 : x.itemMapping = e.odsBase.item) (h4 : x.noteMapping = e.odsBase.note) : ∃ t, getText x n = .ok t := by
  refine getText_total hn hm ?_ ?_ ?_ ?_
  · rw [h1]; exact fun id hid => character_total e.odsBase (ha.characters id hid)
  · rw [h2]; exact fun id hid => location_total e.odsBase (ha.locations id hid)
  · rw [h3]; exact fun id hid => item_total e.odsBase (ha.items id hid)
  · rw [h4]; exact fun id hid => note_total e.odsBase (ha.notes id hid)

/-- The spreadsheets are written for every consistent project. -/
theorem C67_lists_written (e : DocEnv) (n : Novel) (hn : Exportable n) (ha : AllThere n) :
    (∃ t, getText (odsCharList e) n = .ok t) ∧ (∃ t, getText (odsLocList e) n = .ok t) ∧ (∃ t, getText (odsItemList e) n = .ok t) ∧ (∃ t, getText (odsSceneList e) n = .ok t) := by
  refine ⟨ods_total (e := e) ha hn (ods_mappings hn) rfl rfl rfl rfl, ods_total (e := e) ha hn (ods_mappings hn) rfl rfl rfl rfl, ods_total (e := e) ha hn (ods_mappings hn) rfl rfl rfl rfl,
    ods_total (e := e) ha hn ⟨⟨_, rfl⟩, (ods_mappings (e := e) (t := {}) hn).chapter, ?_⟩ rfl rfl rfl rfl⟩
  intro id hid k w l
  obtain ⟨m, hm⟩ := e.odsBase.scene_total hn hid k w l
  obtain ⟨s, hs, _⟩ := hn.scenes id hid
  show ∃ m, (e.odsBase.scene n id k w l >>= fun m => (n.scenes.get! id >>= fun s => _)) = _
  rw [hm, Dict.get!_of hs]
  exact ⟨_, rfl⟩

/-- **C67, character list**: a project is exported to a character list, and the unmodified list is written back. -/
theorem C67_charlist_partial (h : Departure w (ods c!"_charlist") base s fs) (g : GoodFile w s x n) (hk : KnownStatus n)
    (hid : ∀ id ∈ n.srtCharacters, id ≠ [] ∧ ∀ c ∈ id, Digit c)
    (hx : ∀ id ∈ n.srtCharacters, ∀ c, n.characters.get? id = some c → CharCarriable c ∧ CharKept c) :
    ComesBack w (ods c!"_charlist") base s n fs := by
  obtain ⟨t, g1⟩ := (C67_lists_written (plainEnv w.name w.path) n (g.exportable hk) g.read.there).1
  obtain ⟨root, g2, g3⟩ := C47_characters_partial g1 hid hx
  refine sheet_back h g rfl (t := t) g1 (fun a hx => ?_)
  show w.readSheet c!"_charlist" a n = _
  rw [sheet_of_file hx g2, if_pos rfl, g3]
  rfl

/-- **C67, location list**: the same for the location list. -/
theorem C67_loclist_partial (h : Departure w (ods c!"_loclist") base s fs) (g : GoodFile w s x n) (hk : KnownStatus n)
    (hid : ∀ id ∈ n.srtLocations, id ≠ [] ∧ ∀ c ∈ id, Digit c)
    (hx : ∀ id ∈ n.srtLocations, ∀ w, n.locations.get? id = some w → WorldCarriable w ∧ WorldKept w) :
    ComesBack w (ods c!"_loclist") base s n fs := by
  obtain ⟨t, g1⟩ := (C67_lists_written (plainEnv w.name w.path) n (g.exportable hk) g.read.there).2.1
  obtain ⟨root, g2, g3⟩ := C47_locations_partial g1 hid hx
  refine sheet_back h g rfl (t := t) g1 (fun a hx => ?_)
  show w.readSheet c!"_loclist" a n = _
  rw [sheet_of_file hx g2, if_neg (by decide), if_pos rfl, g3]
  rfl

/-- **C67, item list**: the same for the item list. -/
theorem C67_itemlist_partial (h : Departure w (ods c!"_itemlist") base s fs) (g : GoodFile w s x n) (hk : KnownStatus n)
    (hid : ∀ id ∈ n.srtItems, id ≠ [] ∧ ∀ c ∈ id, Digit c)
    (hx : ∀ id ∈ n.srtItems, ∀ w, n.items.get? id = some w → WorldCarriable w ∧ WorldKept w) :
    ComesBack w (ods c!"_itemlist") base s n fs := by
  obtain ⟨t, g1⟩ := (C67_lists_written (plainEnv w.name w.path) n (g.exportable hk) g.read.there).2.2.1
  obtain ⟨root, g2, g3⟩ := C47_items_partial g1 hid hx
  refine sheet_back h g rfl (t := t) g1 (fun a hx => ?_)
  show w.readSheet c!"_itemlist" a n = _
  rw [sheet_of_file hx g2, if_neg (by decide), if_neg (by decide), if_pos rfl, g3]
  rfl

/-- **C67, scene list**: the same for the scene list. -/
theorem C67_scenelist_partial (h : Departure w (ods c!"_scenelist") base s fs) (g : GoodFile w s x n) (hk : KnownStatus n)
    (hl : LinkTarget w.path w.name)
    (hf : CarriableO n.fieldTitle1 ∧ CarriableO n.fieldTitle2 ∧ CarriableO n.fieldTitle3 ∧ CarriableO n.fieldTitle4)
    (hx : ∀ p ∈ exported n n.srtChapters, (p.1 ≠ [] ∧ ∀ c ∈ p.1, Digit c) ∧ SceneCarriable n p.2 ∧ SceneKept p.2) :
    ComesBack w (ods c!"_scenelist") base s n fs := by
  obtain ⟨t, g1⟩ := (C67_lists_written (plainEnv w.name w.path) n (g.exportable hk) g.read.there).2.2.2
  obtain ⟨root, g2, g3⟩ := C47_scenes_partial g1 g.read.inherits hl hf hx
  refine sheet_back h g rfl (t := t) g1 (fun a hx => ?_)
  show w.readSheet c!"_scenelist" a n = _
  rw [sheet_of_file hx g2, if_neg (by decide), if_neg (by decide), if_neg (by decide), if_pos rfl, g3]
  rfl

/-! ### The same file -/

/-- A project file that opening and saving does not change comes back as it is. -/
theorem C67_same_file {c : DocClass} (h : ComesBack w c base s n fs) (hs : resaved w.lib w.sysLng w.sysCtr s = some s) :
    (run w.program yw7Converter (base ++ c.ending) none (run w.program yw7Converter (base ++ c!".yw7") c.suffix fs []).2.1 []).2.1 (base ++ c!".yw7") = some s := by
  obtain ⟨fs1, fs2, s', x', h1, h2, h3, h4, _⟩ := h
  rw [h1]
  dsimp only
  rw [h2]
  dsimp only
  rw [h3]
  rw [hs] at h4
  exact h4.symm

end Verif
