/-
C66: the documents with the notes and the to-do lists bring exactly these texts back.
-/
import Verif.Lemmas.Notes2

namespace Verif
open Spec Re

variable {ty : Nat}

theorem aside_received (name path : Str) {x : Exporter} (hx : AsideDoc (formattedEnv name path) ty x) (n m : Novel) (hn : Exportable n) (hf : AsideFits ty n m) :
    ∃ text evs, formattedText x n = .ok text ∧ saxEvents text = some evs ∧
      ∀ st info a b, stylesCalls st = .ok a → infoCalls info = .ok b →
        ∃ m', readOdt (manuscriptReader ty) ⟨st, info, evs⟩ { m with languages := some [] } = .ok m' ∧ AsideReceived ty n m m' := by
  obtain ⟨text, evs, h1, h2, h3⟩ := read_aside name path hx hn hf
  refine ⟨text, evs, h1, h2, ?_⟩
  intro st info a b ha hb
  obtain ⟨langs, lc, cc, hl, _, e⟩ := h3 st info a b ha hb
  refine ⟨_, e, ?_⟩
  obtain ⟨s, c, g1, g2, g3, g4, g5⟩ := asideBack_spec (ty := ty) (n := n) n.srtChapters { m with languages := some [], languageCode := lc, countryCode := cc }
  rw [g1]
  constructor
  · intro p hp s0 hs0
    refine ⟨_, rfl, ?_⟩
    show s.get? p.1 = _
    rw [g4, if_pos (List.mem_map_of_mem hp)]
    show (m.scenes.get? p.1).map _ = _
    rw [hs0, specText_some (asideOf_mem hp).1]
    rfl
  · intro id hid
    show s.get? id = _
    rw [g4, if_neg hid]
  · intro id hid c0 hc0
    show c.get? id = _
    rw [g5, if_pos hid]
    show (m.chapters.get? id).map _ = _
    rw [hc0]
    rfl
  · intro id hid
    show c.get? id = _
    rw [g5, if_neg hid]
  · exact g2
  · exact g3
  · rfl
  · exact ⟨langs, rfl, hl⟩

theorem aside_unmodified (name path : Str) {x : Exporter} (hx : AsideDoc (formattedEnv name path) ty x) (n : Novel) (hn : Exportable n) (hf : AsideFits ty n n) (hcf : CountsFit n)
    (h2 : ∀ p ∈ asideOf ty n n.srtChapters, p.2.sceneContent.isSome = true)
    (h3 : ∀ s ∈ narrative n, ∀ l ∈ Spec.linesOf (Spec.textOf n.scenes s), l.head? ≠ some '#') :
    ∃ text evs, formattedText x n = .ok text ∧ saxEvents text = some evs ∧
      ∀ st info a b, stylesCalls st = .ok a → infoCalls info = .ok b →
        ∃ langs lc cc, langs.Nodup ∧ (∀ l ∈ langs, l ∈ n.languages.getD []) ∧ CodesFrom st lc cc ∧
          readFormatted (manuscriptReader ty) ⟨st, info, evs⟩ n = .ok ({ n with languages := some langs, languageCode := lc, countryCode := cc }, false) := by
  obtain ⟨text, evs, g1, g2, g3⟩ := read_aside name path hx hn hf
  refine ⟨text, evs, g1, g2, ?_⟩
  intro st info a b ha hb
  obtain ⟨langs, lc, cc, hl, hk, e⟩ := g3 st info a b ha hb
  refine ⟨langs, lc, cc, readOdt_once manuscript_once rfl e, hl, hk, ?_⟩
  unfold readFormatted
  rw [e]
  have es : asideBack ty n n.srtChapters { n with languages := some [], languageCode := lc, countryCode := cc } =
      { n with languages := some [], languageCode := lc, countryCode := cc } := by
    refine asideBack_same (n := n) (m := { n with languages := some [], languageCode := lc, countryCode := cc }) rfl rfl _ ?_
    intro p hp
    have k2 := h2 p hp
    cases ht : p.2.sceneContent with
    | none => rw [ht] at k2; cases k2
    | some t => exact ⟨t, rfl, hcf p.1 p.2 t (asideOf_mem hp).1 ht⟩
  rw [es]
  show splitScenes { n with languages := some langs, languageCode := lc, countryCode := cc } = _
  refine C09_nothing_to_do { n with languages := some langs, languageCode := lc, countryCode := cc } hcf ?_ ?_ h3
  · intro c hc
    obtain ⟨ch, hch⟩ := hn.chapters c hc
    exact (Dict.mem_keys_iff n.chapters c).2 ⟨ch, hch⟩
  · intro s hs
    obtain ⟨sc, hsc, _⟩ := hn.scenes s hs
    exact (Dict.mem_keys_iff n.scenes s).2 ⟨sc, hsc⟩

/-- **C66**: the document with the notes of a project, read into any project with these chapters and scenes, brings the texts of all notes
scenes, exactly as they were, and changes nothing else: scenes of other types, also those beside the notes in the same chapters, are not in
the document. Missing: texts that are not in normal form (`C66_false`). -/
theorem C66_notes_partial (name path : Str) (n m : Novel) (hn : Exportable n) (hf : AsideFits 1 n m) :
    ∃ text evs, formattedText (odtNotes (formattedEnv name path)) n = .ok text ∧ saxEvents text = some evs ∧
      ∀ st info a b, stylesCalls st = .ok a → infoCalls info = .ok b →
        ∃ m', readOdt (manuscriptReader 1) ⟨st, info, evs⟩ { m with languages := some [] } = .ok m' ∧ AsideReceived 1 n m m' :=
  aside_received name path (odtNotes_aside _) n m hn hf

/-- **C66**: the same for the document with the to-do lists. -/
theorem C66_todo_partial (name path : Str) (n m : Novel) (hn : Exportable n) (hf : AsideFits 2 n m) :
    ∃ text evs, formattedText (odtTodo (formattedEnv name path)) n = .ok text ∧ saxEvents text = some evs ∧
      ∀ st info a b, stylesCalls st = .ok a → infoCalls info = .ok b →
        ∃ m', readOdt (manuscriptReader 2) ⟨st, info, evs⟩ { m with languages := some [] } = .ok m' ∧ AsideReceived 2 n m m' :=
  aside_received name path (odtTodo_aside _) n m hn hf

/-- **C66**: exporting the notes of a project and importing the unmodified document changes nothing but the language settings, and likewise
for the to-do lists. Missing: texts that are not in normal form; heading lines in scene texts (C09). -/
theorem C66_unmodified_partial (name path : Str) (n : Novel) (hn : Exportable n) (hcf : CountsFit n)
    (h3 : ∀ s ∈ narrative n, ∀ l ∈ Spec.linesOf (Spec.textOf n.scenes s), l.head? ≠ some '#') :
    (AsideFits 1 n n → (∀ p ∈ asideOf 1 n n.srtChapters, p.2.sceneContent.isSome = true) →
      ∃ text evs, formattedText (odtNotes (formattedEnv name path)) n = .ok text ∧ saxEvents text = some evs ∧
        ∀ st info a b, stylesCalls st = .ok a → infoCalls info = .ok b →
          ∃ langs lc cc, langs.Nodup ∧ (∀ l ∈ langs, l ∈ n.languages.getD []) ∧ CodesFrom st lc cc ∧
            readFormatted (manuscriptReader 1) ⟨st, info, evs⟩ n = .ok ({ n with languages := some langs, languageCode := lc, countryCode := cc }, false)) ∧
    (AsideFits 2 n n → (∀ p ∈ asideOf 2 n n.srtChapters, p.2.sceneContent.isSome = true) →
      ∃ text evs, formattedText (odtTodo (formattedEnv name path)) n = .ok text ∧ saxEvents text = some evs ∧
        ∀ st info a b, stylesCalls st = .ok a → infoCalls info = .ok b →
          ∃ langs lc cc, langs.Nodup ∧ (∀ l ∈ langs, l ∈ n.languages.getD []) ∧ CodesFrom st lc cc ∧
            readFormatted (manuscriptReader 2) ⟨st, info, evs⟩ n = .ok ({ n with languages := some langs, languageCode := lc, countryCode := cc }, false)) :=
  ⟨fun hf h2 => aside_unmodified name path (odtNotes_aside _) n hn hf hcf h2 h3, fun hf h2 => aside_unmodified name path (odtTodo_aside _) n hn hf hcf h2 h3⟩

/-! ### Examples -/

/-- A project with a chapter of notes, and notes and a to-do list in another chapter. -/
def exNotes : Novel :=
  { title := some c!"A & B", authorName := some c!"N. N.", languages := some [c!"de-DE"], languageCode := some c!"en", countryCode := some c!"US",
    chapters := [(c!"1", { title := some c!"Notes <1>", chLevel := some 1, chType := some 1, srtScenes := [c!"3"] }),
                 (c!"2", { title := some c!"First", chLevel := some 0, chType := some 0, srtScenes := [c!"1", c!"2", c!"4"] })],
    scenes := [(c!"1", ({ title := some c!"One", scType := some 0, status := some 1 } : Scene).setContent c!"Text"),
               (c!"2", ({ title := some c!"Two", scType := some 1, status := some 2 } : Scene).setContent exText),
               (c!"3", ({ title := some c!"Three", scType := some 1, status := some 1 } : Scene).setContent c!""),
               (c!"4", ({ title := some c!"Four", scType := some 2, status := some 1 } : Scene).setContent c!"")],
    srtChapters := [c!"1", c!"2"] }

/-- Its notes and to-do lists. -/
example : (asideOf 1 exNotes exNotes.srtChapters).map Prod.fst = [c!"3", c!"2"] ∧ asideChapters 1 exNotes exNotes.srtChapters = [c!"1"] ∧
    (asideOf 2 exNotes exNotes.srtChapters).map Prod.fst = [c!"4"] ∧ asideChapters 2 exNotes exNotes.srtChapters = [] := by decide

/-- It can be exported. -/
theorem exNotes_exportable : Exportable exNotes where
  chapters id hid := by
    simp only [exNotes, List.mem_cons, List.not_mem_nil, or_false] at hid
    rcases hid with rfl | rfl <;> exact ⟨_, rfl⟩
  scenes id hid := by
    have : narrative exNotes = [c!"3", c!"1", c!"2", c!"4"] := by decide
    rw [this] at hid
    simp only [List.mem_cons, List.not_mem_nil, or_false] at hid
    rcases hid with rfl | rfl | rfl | rfl
    · exact ⟨_, rfl, ⟨1, by decide, rfl⟩, (by intro l h; cases h), (by intro l h; cases h)⟩
    · exact ⟨_, rfl, ⟨1, by decide, rfl⟩, (by intro l h; cases h), (by intro l h; cases h)⟩
    · exact ⟨_, rfl, ⟨2, by decide, rfl⟩, (by intro l h; cases h), (by intro l h; cases h)⟩
    · exact ⟨_, rfl, ⟨1, by decide, rfl⟩, (by intro l h; cases h), (by intro l h; cases h)⟩

/-- The empty text can be carried. -/
theorem empty_flowing (ls : List Str) : Flowing ls [] := flowing_of (by simp) trivial rfl (by decide)

/-- The notes of the example can be carried by a document. -/
theorem exNotes_fits : AsideFits 1 exNotes exNotes where
  languages l hl := by
    have : l = c!"de-DE" := by simpa [exNotes] using hl
    subst this
    exact ⟨c!"de", c!"DE", by decide⟩
  distinct := by decide
  author := by unfold AuthorOk; decide
  title t ht := by cases ht; unfold Carriable; decide
  chapters id hid ch hch := by
    have e : asideChapters 1 exNotes exNotes.srtChapters = [c!"1"] := by decide
    rw [e] at hid
    simp only [List.mem_cons, List.not_mem_nil, or_false] at hid
    subst hid
    cases hch
    exact ⟨⟨⟨by decide, by unfold Digit; decide⟩, by intro t ht; cases ht; unfold Carriable; decide⟩, ⟨_, rfl, rfl⟩⟩
  scenes p hp := by
    have e : asideOf 1 exNotes exNotes.srtChapters = [(c!"3", ({ title := some c!"Three", scType := some 1, status := some 1 } : Scene).setContent c!""),
      (c!"2", ({ title := some c!"Two", scType := some 1, status := some 2 } : Scene).setContent exText)] := by decide
    rw [e] at hp
    simp only [List.mem_cons, List.not_mem_nil, or_false] at hp
    rcases hp with rfl | rfl
    · exact ⟨⟨⟨by decide, by unfold Digit; decide⟩, by intro t ht; cases ht; unfold Carriable; decide, ⟨[], rfl, empty_flowing _⟩⟩, ⟨_, rfl⟩⟩
    · exact ⟨⟨⟨by decide, by unfold Digit; decide⟩, by intro t ht; cases ht; unfold Carriable; decide, ⟨exPieces, rfl, exPieces_flowing⟩⟩, ⟨_, rfl⟩⟩

/-- The example can be exported and imported again without a change. -/
example : ∃ text evs, formattedText (odtNotes (formattedEnv c!"prj" c!"/p")) exNotes = .ok text ∧ saxEvents text = some evs ∧
    ∀ st info a b, stylesCalls st = .ok a → infoCalls info = .ok b →
      ∃ langs lc cc, langs.Nodup ∧ (∀ l ∈ langs, l ∈ exNotes.languages.getD []) ∧ CodesFrom st lc cc ∧ readFormatted (manuscriptReader 1) ⟨st, info, evs⟩ exNotes = .ok ({ exNotes with languages := some langs, languageCode := lc, countryCode := cc }, false) := by
  refine (C66_unmodified_partial c!"prj" c!"/p" exNotes exNotes_exportable ?_ ?_).1 exNotes_fits ?_
  · intro id sc t hs ht
    have hk : id ∈ exNotes.scenes.keys := (Dict.mem_keys_iff _ _).2 ⟨_, hs⟩
    have : exNotes.scenes.keys = [c!"1", c!"2", c!"3", c!"4"] := by decide
    rw [this] at hk
    simp only [List.mem_cons, List.not_mem_nil, or_false] at hk
    rcases hk with rfl | rfl | rfl | rfl <;> cases hs <;> cases ht <;> exact ⟨rfl, rfl⟩
  · decide
  · decide

/-! ### Counterexamples -/

/-- A project with one scene of notes, in a chapter of notes with the given title. -/
def oneNote (title : Option Str) (text : Str) : Novel :=
  { title := some c!"T", authorName := some c!"N. N.", languages := some [],
    chapters := [(c!"1", { title := title, chLevel := some 0, chType := some 1, srtScenes := [c!"1"] })],
    scenes := [(c!"1", ({ title := some c!"S", scType := some 1, status := some 1 } : Scene).setContent text)],
    srtChapters := [c!"1"] }

/-- The title of the chapter and the text of the scene after export and import. -/
def noteBack (title : Option Str) (text : Str) : Option (Option Str × Option Str) :=
  match formattedText (odtNotes (formattedEnv c!"prj" c!"/p")) (oneNote title text) with
  | .error _ => none
  | .ok doc => match saxEvents doc with
    | none => none
    | some evs => match readFormatted (manuscriptReader 1) ⟨plainStyles, none, evs⟩ (oneNote title text) with
      | .error _ => none
      | .ok p => some ((p.1.chapters.get? c!"1").bind (·.title), (p.1.scenes.get? c!"1").bind (·.sceneContent))

set_option maxRecDepth 100000 in
/-- The path that is refuted below is one that works for other texts. -/
example : noteBack (some c!"C") c!"a [b]b[/b]\n> c" = some (some c!"C", some c!"a [b]b[/b]\n> c") := by decide +kernel

set_option maxRecDepth 100000 in
/-- **C66** is false of the code without conditions: of a comment with two lines only the first one remains, and a chapter without title gets
the title of its first scene. -/
theorem C66_false :
    noteBack (some c!"C") c!"a/*one\ntwo*/b" = some (some c!"C", some c!"a/*one*/b") ∧
    noteBack none c!"a" = some (some c!"S", some c!"a") := by
  refine ⟨?_, ?_⟩ <;> decide +kernel

end Verif
