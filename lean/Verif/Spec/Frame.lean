/-
What the import of a document may change in a project (C35): elements are addressed by the names of the sections of the document.
-/
import Verif.Py.XTree
import Verif.Model.Novel

namespace Verif.Spec

/-- The names of the sections of a document. -/
def sectionNames : List Ev → List Str
  | [] => []
  | .start t as :: r => (if t = c!"text:section" then (as.get? c!"text:name").toList else []) ++ sectionNames r
  | _ :: r => sectionNames r

/-- The first number in the name of a section. -/
def idOf (name : Str) : Str :=
  (name.dropWhile (fun c => !(decide ('0' ≤ c) && decide (c ≤ '9')))).takeWhile (fun c => decide ('0' ≤ c) && decide (c ≤ '9'))

/-- The document has a section for the element with the given ID (a number). -/
def Occurs (mark : Str) (x : List Ev) (id : Str) : Prop := ∃ name ∈ sectionNames x, mark <+: name ∧ idOf name = id ∧ id ≠ []

/-- From `n` to `m`, only the scenes in `occS` and the chapters in `occC` have changed, in the ways `SR` and `CR` allow; new scenes and
chapters are among them too; new chapters are appended; nothing else has changed, except perhaps the languages of the document. -/
structure OnlyChanged (occS occC : Str → Prop) (SR : Scene → Scene → Prop) (CR : Chapter → Chapter → Prop) (n m : Novel) : Prop where
  scenes : ∀ id s, n.scenes.get? id = some s → ∃ s', m.scenes.get? id = some s' ∧ (s' = s ∨ (occS id ∧ SR s s'))
  newScenes : ∃ new, m.scenes.keys = n.scenes.keys ++ new ∧ ∀ id ∈ new, occS id ∧ n.scenes.get? id = none
  chapters : ∀ id c, n.chapters.get? id = some c → ∃ c', m.chapters.get? id = some c' ∧ (c' = c ∨ (occC id ∧ CR c c'))
  newChapters : ∃ new, m.chapters.keys = n.chapters.keys ++ new ∧ ∀ id ∈ new, occC id ∧ n.chapters.get? id = none
  order : ∃ new, m.srtChapters = n.srtChapters ++ new ∧ ∀ id ∈ new, occC id ∧ n.chapters.get? id = none
  rest : { m with scenes := [], chapters := [], srtChapters := [], languages := none, languageCode := none, countryCode := none } =
    { n with scenes := [], chapters := [], srtChapters := [], languages := none, languageCode := none, countryCode := none }

/-- A scene whose text has been read from a manuscript: the text with the numbers of words and letters, the title and the type. -/
def TextRead (type : Nat) (s s' : Scene) : Prop :=
  ∃ title content words letters k, s' = { s with title := title, sceneContent := content, wordCount := words, letterCount := letters, scType := k } ∧
    (k = s.scType ∨ k = some type) ∧
    ((content = s.sceneContent ∧ words = s.wordCount ∧ letters = s.letterCount) ∨
      ∃ t, content = some t ∧ words = wordCountOf t ∧ letters = letterCountOf t)

/-- A scene whose description has been read. -/
def DescRead (s s' : Scene) : Prop :=
  ∃ title d k, s' = { s with title := title, desc := d, scType := k } ∧ (k = s.scType ∨ k = some 0)

/-- A scene of which only the type has been set. -/
def TypeRead (s s' : Scene) : Prop := ∃ k, s' = { s with scType := k } ∧ (k = s.scType ∨ k = some 0)

/-- A chapter in a document with scenes: scenes the project did not have are appended; the type is set; a title is only set if there is
none. -/
def ChapterRead (blank : Option Str → Prop) (new : Str → Prop) (type : Nat) (c c' : Chapter) : Prop :=
  ∃ t k l, c' = { c with title := t, chType := k, srtScenes := c.srtScenes ++ l } ∧ (blank c.title ∨ t = c.title) ∧
    (k = c.chType ∨ k = some type) ∧ ∀ id ∈ l, new id

/-- A chapter in a document with descriptions of chapters. -/
def ChapterDescRead (blank : Option Str → Prop) (new : Str → Prop) (c c' : Chapter) : Prop :=
  ∃ t d k l, c' = { c with title := t, desc := d, chType := k, srtScenes := c.srtScenes ++ l } ∧ (blank c.title ∨ t = c.title) ∧
    (k = c.chType ∨ k = some 0) ∧ ∀ id ∈ l, new id

/-- The scenes the document has but the project does not. -/
def NewScene (x : List Ev) (n : Novel) (id : Str) : Prop := Occurs c!"ScID" x id ∧ n.scenes.get? id = none

end Verif.Spec
