/-
C31 for the documents with the notes and the to-do lists.
-/
import Verif.Lemmas.NestNotes
import Verif.Props.C31_Balanced

namespace Verif
open Spec

/-- **C31** for the document with the notes (partial, like `C31_balanced_partial`): it is well-formed. -/
theorem C31_notes_partial (name path : Str) (n : Novel) (hn : Exportable n) (hw : NotesWritable 1 n) :
    ∃ text root, formattedText (odtNotes (formattedEnv name path)) n = .ok text ∧ parseDoc text = some root := by
  obtain ⟨text, h1, h2⟩ := aside_parses name path (odtNotes_aside _) hn hw
  obtain ⟨root, hr⟩ := Option.isSome_iff_exists.1 h2
  exact ⟨text, root, h1, hr⟩

/-- **C31** for the document with the to-do lists (partial, like `C31_balanced_partial`): it is well-formed. -/
theorem C31_todo_partial (name path : Str) (n : Novel) (hn : Exportable n) (hw : NotesWritable 2 n) :
    ∃ text root, formattedText (odtTodo (formattedEnv name path)) n = .ok text ∧ parseDoc text = some root := by
  obtain ⟨text, h1, h2⟩ := aside_parses name path (odtTodo_aside _) hn hw
  obtain ⟨root, hr⟩ := Option.isSome_iff_exists.1 h2
  exact ⟨text, root, h1, hr⟩

/-! ### Example: unbalanced marks in a note and in a to-do list -/

/-- A project with the unbalanced text `exUnbalanced` in an aside chapter of the given type, and a scene of this type in an ordinary chapter. -/
def exAside (type : Nat) : Novel :=
  { title := some c!"A & B", authorName := some c!"N. N.", languages := some [c!"de-DE"], languageCode := some c!"en", countryCode := some c!"US",
    chapters := [(c!"1", { title := some c!"Part <1>", chLevel := some 0, chType := some 0, srtScenes := [c!"2"] }),
                 (c!"2", { title := some c!"Aside", chLevel := some 0, chType := some type, srtScenes := [c!"1"] })],
    scenes := [(c!"1", { ({ title := some c!"One", scType := some type, status := some 1 } : Scene).setContent (rawText exUnbalanced) with desc := some c!"d" }),
               (c!"2", ({ title := some c!"Two", scType := some type, status := some 2 } : Scene).setContent c!"")],
    srtChapters := [c!"1", c!"2"] }

/-- It can be exported. -/
theorem exAside_exportable (type : Nat) : Exportable (exAside type) where
  chapters id hid := by
    simp only [exAside, List.mem_cons, List.not_mem_nil, or_false] at hid
    rcases hid with rfl | rfl <;> exact ⟨_, rfl⟩
  scenes id hid := by
    have : narrative (exAside type) = [c!"2", c!"1"] := rfl
    rw [this] at hid
    simp only [List.mem_cons, List.not_mem_nil, or_false] at hid
    rcases hid with rfl | rfl
    · exact ⟨_, rfl, ⟨2, by decide, rfl⟩, (by intro l h; cases h), (by intro l h; cases h)⟩
    · exact ⟨_, rfl, ⟨1, by decide, rfl⟩, (by intro l h; cases h), (by intro l h; cases h)⟩

/-- See `exAside_exportable`. -/
theorem exAside_writable {type : Nat} (ht : type = 1 ∨ type = 2) : NotesWritable type (exAside type) where
  languages l hl := by
    have : l = c!"de-DE" := by simpa [exAside] using hl
    subst this
    exact ⟨c!"de", c!"DE", by decide⟩
  distinct := by rcases ht with rfl | rfl <;> decide
  author := by show AuthorOk (some c!"N. N."); unfold AuthorOk; decide
  title t ht := by cases ht; unfold Carriable; decide
  chapters id hid ch hch := by
    have hid : id ∈ (exAside type).srtChapters := (List.mem_filter.1 hid).1
    simp only [exAside, List.mem_cons, List.not_mem_nil, or_false] at hid
    rcases hid with rfl | rfl <;> cases hch
    · exact ⟨⟨by decide, by unfold Digit; decide⟩, by intro t ht; cases ht; unfold Carriable; decide⟩
    · exact ⟨⟨by decide, by unfold Digit; decide⟩, by intro t ht; cases ht; unfold Carriable; decide⟩
  scenes p hp := by
    have e : asideOf type (exAside type) (exAside type).srtChapters = (exAside type).scenes.reverse := by
      rcases ht with rfl | rfl <;> decide
    rw [e] at hp
    rcases ht with rfl | rfl <;>
    simp only [exAside, List.reverse_cons, List.reverse_nil, List.nil_append, List.cons_append, List.mem_cons, List.not_mem_nil, or_false] at hp <;>
    rcases hp with rfl | rfl
    all_goals first
    | refine ⟨⟨by decide, by unfold Digit; decide⟩, by intro t ht; cases ht; unfold Carriable; decide, ⟨[], rfl, ?_⟩⟩
      exact { ok := by simp, neighbours := trivial, lines := by decide, used := by decide, ending := by decide, plain := by decide }
    | exact ⟨⟨by decide, by unfold Digit; decide⟩, by intro t ht; cases ht; unfold Carriable; decide, ⟨exUnbalanced, rfl, exUnbalanced_mendable⟩⟩

/-- The documents of the examples are well-formed. -/
example : (∃ text root, formattedText (odtNotes (formattedEnv c!"prj" c!"/p")) (exAside 1) = .ok text ∧ parseDoc text = some root) ∧
    (∃ text root, formattedText (odtTodo (formattedEnv c!"prj" c!"/p")) (exAside 2) = .ok text ∧ parseDoc text = some root) :=
  ⟨C31_notes_partial c!"prj" c!"/p" _ (exAside_exportable 1) (exAside_writable (.inl rfl)), C31_todo_partial c!"prj" c!"/p" _ (exAside_exportable 2) (exAside_writable (.inr rfl))⟩

end Verif
