/-
Specification: which scenes must have a state with a name, so that a document can be made (C73).
-/
import Verif.Spec.Notes
import Verif.Spec.Converter
import Verif.Props.C10_Xref

namespace Verif.Spec

/-- The scene has a state that has a name: 0 to 5 (no state, outline, draft, first edit, second edit, done); Python also accepts the numbers -6 to -1. -/
def NamedState (s : Scene) : Prop := ∃ i : Int, s.status = some i ∧ -6 ≤ i ∧ i < 6

/-- The scene is in the cross reference: a character, a location, an item or a tag of the scene is listed. -/
def CrossReferenced (s : Scene) : Prop := s.characters.getD [] ≠ [] ∨ s.locations.getD [] ≠ [] ∨ s.items.getD [] ≠ [] ∨ s.tags.getD [] ≠ []

/-- The scenes the program looks at when it makes a document with the suffix `c`: the exported scenes for every document - whatever it shows -, in addition the notes or the to-do scenes for the
documents with notes or to-do lists. For the cross reference, all scenes with references or tags. -/
def Visited (suffix : Str) (n : Novel) (p : Str × Scene) : Prop :=
  if suffix = c!"_xref" then p.1 ∈ narrative n ∧ n.scenes.get? p.1 = some p.2 ∧ CrossReferenced p.2
  else p ∈ exported n n.srtChapters ∨ (suffix = c!"_notes" ∧ p ∈ asideOf 1 n n.srtChapters) ∨ (suffix = c!"_todo" ∧ p ∈ asideOf 2 n n.srtChapters)

end Verif.Spec
