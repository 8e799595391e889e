/-
C22: the structure of a saved project equals the structure of the novel; and the whole-project form of
the theorems about scenes and chapters.
-/
import Verif.Lemmas.Yw7Project
import Verif.Props.C17_DateTime

namespace Verif
open Xml Elem Spec

theorem keys_prepareNovel (n : Novel) : (prepareNovel n).scenes.keys = n.scenes.keys := by
  unfold prepareNovel Novel.getLanguages
  split <;> simp [Dict.keys, List.map_map, Function.comp_def]

theorem get?_map_value {α β : Type} (f : α → β) (d : Dict α) (x : Str) :
    Dict.get? (List.map (fun p => (p.1, f p.2)) d) x = (d.get? x).map f := by
  induction d with
  | nil => rfl
  | cons p r ih =>
    obtain ⟨k, v⟩ := p
    simp only [List.map_cons, Dict.get?]
    split
    · rfl
    · exact ih

theorem get?_prepareNovel (n : Novel) (id : Str) :
    (prepareNovel n).scenes.get? id = (n.scenes.get? id).map syncScene := by
  unfold prepareNovel Novel.getLanguages
  split <;> exact get?_map_value syncScene n.scenes id

theorem prepareNovel_fields (n : Novel) : (prepareNovel n).chapters = n.chapters ∧
    (prepareNovel n).srtChapters = n.srtChapters ∧
    (prepareNovel n).locations = n.locations ∧ (prepareNovel n).srtLocations = n.srtLocations ∧
    (prepareNovel n).items = n.items ∧ (prepareNovel n).srtItems = n.srtItems ∧
    (prepareNovel n).characters = n.characters ∧ (prepareNovel n).srtCharacters = n.srtCharacters ∧
    (prepareNovel n).projectNotes = n.projectNotes ∧ (prepareNovel n).srtPrjNotes = n.srtPrjNotes := by
  unfold prepareNovel Novel.getLanguages
  split <;> simp

/-- What is read back from a saved project, section by section. `rk` are the children of the root of the
old tree. -/
structure ReadBack (lib : PyLib) (n : Novel) (rk : List Elem) (m : Novel) : Prop where
  locations : m.srtLocations = n.srtLocations ∧ m.locations.keys = n.srtLocations ∧
    ∀ id ∈ n.srtLocations, ∃ w ks, n.locations.get? id = some w ∧
      ReloadedL (buildWorld w [leaf c!"ID" (some id)]) ks ∧ m.locations.get? id = some (readWorld ks)
  items : m.srtItems = n.srtItems ∧ m.items.keys = n.srtItems ∧
    ∀ id ∈ n.srtItems, ∃ w ks, n.items.get? id = some w ∧
      ReloadedL (buildWorld w [leaf c!"ID" (some id)]) ks ∧ m.items.get? id = some (readWorld ks)
  characters : m.srtCharacters = n.srtCharacters ∧ m.characters.keys = n.srtCharacters ∧
    ∀ id ∈ n.srtCharacters, ∃ w ks, n.characters.get? id = some w ∧
      ReloadedL (buildCharacter w [leaf c!"ID" (some id)]) ks ∧ m.characters.get? id = some (readCharacter ks)
  notes : m.srtPrjNotes = n.srtPrjNotes ∧ m.projectNotes.keys = n.srtPrjNotes ∧
    ∀ id ∈ n.srtPrjNotes, ∃ w ks, n.projectNotes.get? id = some w ∧
      ReloadedL (buildNote w [leaf c!"ID" (some id)]) ks ∧
      m.projectNotes.get? id = some { title := textOf c!"Title" ks, desc := textOf c!"Desc" ks }
  scenes : m.scenes.keys = n.scenes.keys ∧
    ∀ id s, n.scenes.get? id = some s → ∃ old out ks x, OldEntry rk c!"SCENES" id old ∧
      sceneOut (syncScene s) old = .ok out ∧ ReloadedL out ks ∧
      readScene lib n.srtCharacters n.srtLocations n.srtItems ks = .ok x ∧
      m.scenes.get? id = some (match governing m id with
        | none => x
        | some ch => { x with scType := typeOf m ch })
  chapters : m.srtChapters = n.srtChapters ∧ m.chapters.keys = n.srtChapters ∧
    ∀ id ∈ n.srtChapters, ∃ c old out ks, n.chapters.get? id = some c ∧ OldEntry rk c!"CHAPTERS" id old ∧
      buildChapter c old = .ok out ∧ ReloadedL out ks ∧
      m.chapters.get? id = some (readChapter n.scenes.keys ks)

theorem governing_congr {n m : Novel} (h1 : n.srtChapters = m.srtChapters) (h2 : n.chapters = m.chapters)
    (id : Str) : governing n id = governing m id := by
  unfold governing nonNormal
  rw [h1, h2]

theorem projectTree_newRoot : ProjectTree newRoot.kids := by
  refine ⟨?_, ?_, ?_, ?_, by decide⟩
  · intro p hp s hs e he
    simp only [sectionTags, List.mem_cons, List.not_mem_nil, or_false] at hp
    rcases hp with rfl | rfl | rfl | rfl | rfl | rfl <;> (cases hs; cases he)
  · intro t ht s hs e he
    simp only [List.mem_cons, List.not_mem_nil, or_false] at ht
    rcases ht with rfl | rfl <;> (cases hs; cases he)
  · intro s hs e he; cases hs; cases he
  · intro s hs e he; cases hs; cases he

/-- Reading back a saved project. -/
theorem readBack (lib : PyLib) (sl sc : Str) (n m : Novel) (tree : Option Elem) (out x : Elem)
    (ht : ProjectTree (tree.getD newRoot).kids) (hn : GoodIds n)
    (hw : writeTree sl sc n tree = .ok out) (hr : Reloaded out x) (hm : readTree lib x = .ok m) :
    ReadBack lib n (tree.getD newRoot).kids m := by
  unfold writeTree at hw
  simp only at hw
  generalize tree.getD newRoot = root at ht hw ⊢
  cases hb : buildRoot sl sc (prepareNovel n) root.kids with
  | error e => rw [hb] at hw; cases hw
  | ok rk =>
  rw [hb] at hw
  simp only [Except.ok.injEq] at hw
  subst hw
  have hr' := (reloaded_indent 0 _ _ hr).kids
  rw [Elem.kids_mapKids'] at hr'
  obtain ⟨_, bL, bI, bC, ⟨q1, q2, bN1, bN2, bN3⟩, _, bS, bH⟩ := buildRoot_ok hb
  obtain ⟨p1, p2, p3, p4, p5, p6, p7, p8, p9, p10⟩ := prepareNovel_fields n
  unfold readTree readRoot at hm
  simp only [bind, Except.bind] at hm
  cases hp : find c!"PROJECT" x.kids with
  | none => rw [hp] at hm; cases hm
  | some pe =>
  rw [hp] at hm; simp only at hm
  cases hl : readSection c!"LOCATIONS" (fun ks => .ok (readWorld ks)) (readProject lib {} pe.kids).locations x.kids with
  | error e => rw [hl] at hm; cases hm
  | ok l =>
  rw [hl] at hm; simp only at hm
  cases hi : readSection c!"ITEMS" (fun ks => .ok (readWorld ks)) (readProject lib {} pe.kids).items x.kids with
  | error e => rw [hi] at hm; cases hm
  | ok i =>
  rw [hi] at hm; simp only at hm
  cases hc : readSection c!"CHARACTERS" (fun ks => .ok (readCharacter ks)) (readProject lib {} pe.kids).characters x.kids with
  | error e => rw [hc] at hm; cases hm
  | ok c =>
  rw [hc] at hm; simp only at hm
  cases hs : readSection c!"SCENES" (readScene lib c.1 l.1 i.1) (readProject lib {} pe.kids).scenes x.kids with
  | error e => rw [hs] at hm; cases hm
  | ok s =>
  rw [hs] at hm; simp only at hm
  cases hh : readSection c!"CHAPTERS" (fun ks => .ok (readChapter s.2.keys ks)) (readProject lib {} pe.kids).chapters x.kids with
  | error e => rw [hh] at hm; cases hm
  | ok h =>
  rw [hh] at hm; simp only at hm
  obtain ⟨e1, e2, e3⟩ := C39_effect _ _ hm
  simp only at e2 e3
  rw [p3, p4] at bL
  rw [p5, p6] at bI
  rw [p7, p8] at bC
  obtain ⟨l1, l2, l3⟩ := world_section sel_ID_buildWorld hn.locations
    (fun s hs => ht.entries (c!"LOCATIONS", c!"LOCATION") (by simp [sectionTags]) s hs) bL hr' hl
  obtain ⟨i1, i2, i3⟩ := world_section sel_ID_buildWorld hn.items
    (fun s hs => ht.entries (c!"ITEMS", c!"ITEM") (by simp [sectionTags]) s hs) bI hr' hi
  obtain ⟨c1, c2, c3⟩ := world_section sel_ID_buildCharacter hn.characters
    (fun s hs => ht.entries (c!"CHARACTERS", c!"CHARACTER") (by simp [sectionTags]) s hs) bC hr' hc
  have hnn := notes_section (n := prepareNovel n) (rk := q1) (rk2 := q2) (out := rk) (r := x.kids)
    (by rw [p10]; exact hn.notes)
    (fun s hs => by
      rw [find_of_sel_eq bN2] at hs
      exact ht.entries (c!"PROJECTNOTES", c!"PROJECTNOTE") (by simp [sectionTags]) s hs)
    (by rw [bN2]; exact ht.notesOnce) bN1 bN3 hr'
  rw [p9, p10] at hnn
  obtain ⟨s1, s2⟩ := scenes_section (lib := lib) (a := c.1) (b := l.1) (c := i.1) (n := prepareNovel n) (by rw [keys_prepareNovel]; exact hn.sound.scKeys)
    (by rw [keys_prepareNovel]; exact hn.scenes)
    (fun s hs => ht.entries (c!"SCENES", c!"SCENE") (by simp [sectionTags]) s hs)
    (ht.ids c!"SCENES" (by simp)) bS hr' hs
  rw [keys_prepareNovel] at s1
  obtain ⟨h1, h2, h3⟩ := chapters_section (n := prepareNovel n) (by rw [p2]; exact hn.sound.chNodup)
    (by rw [p2]; exact hn.chapters)
    (fun s hs => ht.entries (c!"CHAPTERS", c!"CHAPTER") (by simp [sectionTags]) s hs)
    (ht.ids c!"CHAPTERS" (by simp)) bH hr' hh
  rw [p1, p2] at h3
  rw [p2] at h1 h2
  rw [s1] at h3
  rw [c1, l1, i1] at s2
  have m1 : m.srtLocations = l.1 := by rw [e1]
  have m2 : m.locations = l.2 := by rw [e1]
  have m3 : m.srtItems = i.1 := by rw [e1]
  have m4 : m.items = i.2 := by rw [e1]
  have m5 : m.srtCharacters = c.1 := by rw [e1]
  have m6 : m.characters = c.2 := by rw [e1]
  have m7 : m.srtChapters = h.1 := by rw [e1]
  have m8 : m.chapters = h.2 := by rw [e1]
  have m9 : m.srtPrjNotes = (readNotes ([], []) (match find c!"PROJECTNOTES" x.kids with | none => [] | some e => e.kids)).1 := by
    rw [e1]; rfl
  have m10 : m.projectNotes = (readNotes ([], []) (match find c!"PROJECTNOTES" x.kids with | none => [] | some e => e.kids)).2 := by
    rw [e1]; rfl
  refine ⟨?_, ?_, ?_, ?_, ?_, ?_⟩
  · rw [m1, m2]; exact ⟨l1, l2, l3⟩
  · rw [m3, m4]; exact ⟨i1, i2, i3⟩
  · rw [m5, m6]; exact ⟨c1, c2, c3⟩
  · rw [m9, m10]; exact hnn
  · refine ⟨by rw [e2, s1], ?_⟩
    intro id s' hs'
    obtain ⟨old, o, ks', y, w1, w2, w3, w4, w5⟩ := s2 id (syncScene s') (by rw [get?_prepareNovel, hs']; rfl)
    refine ⟨old, o, ks', y, w1, w2, w3, w4, ?_⟩
    rw [e3, w5]
    simp only [Option.map_some, Option.some.injEq]
    have hg := governing_congr (n := m) (m := { readProject lib {} pe.kids with
        srtLocations := l.1, locations := l.2, srtItems := i.1, items := i.2, srtCharacters := c.1, characters := c.2, languageCode := m.languageCode, countryCode := m.countryCode, languages := m.languages, srtPrjNotes := m.srtPrjNotes, projectNotes := m.projectNotes, scenes := s.2, srtChapters := h.1, chapters := h.2 }) m7 m8 id
    rw [hg]
    unfold typeOf
    rw [m8]
    rfl
  · rw [m7, m8]; exact ⟨h1, h2, h3⟩

/-- The element of a new chapter. -/
theorem newChapter (id : Str) : ChapterElement [leaf c!"ID" (some id)] := by
  refine ⟨?_, by simp [sel, leaf], by simp [sel, leaf], by simp [sel, leaf]⟩
  intro t ht
  have : sel t [leaf c!"ID" (some id)] = [] := by
    simp only [chapterTextTags, List.mem_cons, List.not_mem_nil, or_false] at ht
    rcases ht with rfl | rfl | rfl | rfl | rfl | rfl <;> rfl
  rw [this]; simp

/-- **C22**: a saved project is read back with the same structure. -/
theorem C22_structure (lib : PyLib) (sl sc : Str) (n m : Novel) (tree : Option Elem) (out x : Elem)
    (ht : ProjectTree (tree.getD newRoot).kids) (hn : GoodIds n)
    (hw : writeTree sl sc n tree = .ok out) (hr : Reloaded out x) (hm : readTree lib x = .ok m) :
    SameStructure n m := by
  have h := readBack lib sl sc n m tree out x ht hn hw hr hm
  refine ⟨⟨h.chapters.1, h.chapters.2.1⟩, ?_, h.scenes.1, ⟨h.characters.1, h.characters.2.1⟩,
    ⟨h.locations.1, h.locations.2.1⟩, ⟨h.items.1, h.items.2.1⟩, ⟨h.notes.1, h.notes.2.1⟩⟩
  intro ch hch
  obtain ⟨c, old, o, ks, h1, h2, h3, h4, h5⟩ := h.chapters.2.2 ch hch
  unfold scenesOf
  rw [h1, h5]
  have hk : ChapterElement old := by
    rcases h2 with ⟨s, e, g1, g2, g3, rfl⟩ | ⟨_, rfl⟩
    · exact ht.chapters s g1 e g2
    · exact newChapter ch
  refine C14_scenes c n.scenes.keys old o ks hk h3 h4 ?_
  intro i hi
  have hnar : i ∈ narrative n := by
    unfold narrative
    rw [List.mem_flatMap]
    exact ⟨ch, hch, by unfold scenesOf; rw [h1]; exact hi⟩
  have hk := hn.sound.scIn i hnar
  exact ⟨hk, (hn.scenes i hk).1, (hn.scenes i hk).2⟩

end Verif
