/-
Specification: projects that can be saved.
-/
import Verif.Spec.Settled

namespace Verif.Spec
open Xml

/-- Three parts with colons between them. -/
def ThreeParts (t : Str) : Prop := ∃ a b c : Str, t = a ++ ':' :: (b ++ ':' :: c) ∧ ':' ∉ a ∧ ':' ∉ b ∧ ':' ∉ c

/-- A start that can be saved: there is a date and a time, or there is no time, or neither a day nor a time, or the time has the form hours:minutes:seconds. -/
def SavableStart (date time day : Option Str) : Prop :=
  (date.isSome ∧ time.isSome) ∨ time = none ∨ (time = some [] ∧ (day = none ∨ day = some [])) ∨ ∃ t, time = some t ∧ ThreeParts t

/-- A novel that can be saved: what is listed exists, IDs are not repeated, the types are the four codes, the starts can be saved. -/
structure Savable (n : Novel) : Prop where
  scKeys : n.scenes.keys.Nodup
  chapters : ∀ id ∈ n.srtChapters, ∃ c, n.chapters.get? id = some c ∧ c.chType.getD 0 ≤ 3
  locations : ∀ id ∈ n.srtLocations, (n.locations.get? id).isSome
  items : ∀ id ∈ n.srtItems, (n.items.get? id).isSome
  characters : ∀ id ∈ n.srtCharacters, (n.characters.get? id).isSome
  notes : ∀ id ∈ n.srtPrjNotes, (n.projectNotes.get? id).isSome
  scenes : ∀ p ∈ n.scenes, p.2.scType.getD 0 ≤ 3 ∧ SavableStart p.2.date p.2.time p.2.day

/-- A project tree one can save to: all sections exist; each list has only entries of its own kind; the scenes and the chapters have IDs;
the project variables are regular. -/
structure SavableTree (rk : List Elem) : Prop where
  sections : ∀ t ∈ [c!"PROJECT", c!"LOCATIONS", c!"ITEMS", c!"CHARACTERS", c!"SCENES", c!"CHAPTERS"], (find t rk).isSome
  entries : ∀ p ∈ [(c!"SCENES", c!"SCENE"), (c!"CHAPTERS", c!"CHAPTER")], ∀ s, find p.1 rk = some s → ∀ e ∈ s.kids, e.tag = p.2 ∧ ∃ id, Verif.textOf c!"ID" e.kids = some id
  vars : ∀ s, find c!"PROJECTVARS" rk = some s → ∀ e ∈ s.kids, VarElement e

end Verif.Spec
