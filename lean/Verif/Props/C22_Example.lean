/-
A concrete project that meets the hypotheses of the theorems about whole projects (C13-C17, C22, C23,
C45): it is saved as a new file and read back.
-/
import Verif.Props.C13_C17_Project
import Verif.Props.C38_Project

namespace Verif
open Xml Elem Spec

/-- Two chapters (one of them with notes), three scenes (one of them unused), two characters, a
location, an item and a project note. -/
def exPrj : Novel :=
  { title := some c!"My Novel"
    languages := some [c!"de-DE"]
    languageCode := some c!"en"
    countryCode := some c!"US"
    chapters := [(c!"1", { title := some c!"One", chType := some 0, chLevel := some 1,
                           srtScenes := [c!"1", c!"2"] }),
                 (c!"2", { title := some c!"Two", chType := some 1, srtScenes := [c!"3"] })]
    srtChapters := [c!"2", c!"1"]
    scenes := [(c!"1", { title := some c!"First", sceneContent := some c!"a <b> & c", status := some 2,
                         date := some c!"2020-01-01", time := some c!"12:00:00",
                         characters := some [c!"2", c!"1"], tags := some [c!"x", c!"y"] }),
               (c!"2", { title := some c!"Second", scType := some 3, day := some c!"4",
                         time := some c!"08:30:00" }),
               (c!"3", { title := some c!"Third", locations := some [c!"7"] })]
    characters := [(c!"1", { title := some c!"Ann", isMajor := some true }), (c!"2", { title := some c!"Bob" })]
    srtCharacters := [c!"2", c!"1"]
    locations := [(c!"7", { title := some c!"Here" })]
    srtLocations := [c!"7"]
    items := [(c!"1", { title := some c!"Ring" })]
    srtItems := [c!"1"]
    projectNotes := [(c!"1", { title := some c!"Note" })]
    srtPrjNotes := [c!"1"] }

theorem goodId_of {l : List Str} (h : l.all (fun s => !s.isEmpty && plainB s) = true) : ∀ id ∈ l, GoodId id := by
  intro id hid
  have := List.all_eq_true.1 h id hid
  simp only [Bool.and_eq_true, Bool.not_eq_true', List.isEmpty_eq_false_iff] at this
  exact ⟨this.1, (plainB_iff _).1 this.2⟩

theorem exPrj_good : GoodIds exPrj where
  sound := ⟨by decide, by decide, by decide, by decide, by decide, by decide⟩
  locations := ⟨by decide, goodId_of (by decide)⟩
  items := ⟨by decide, goodId_of (by decide)⟩
  characters := ⟨by decide, goodId_of (by decide)⟩
  notes := ⟨by decide, goodId_of (by decide)⟩
  scenes := goodId_of (by decide)
  chapters := goodId_of (by decide)

/-- The tree written for a new file. -/
def exOut : Elem := match writeTree c!"en" c!"GB" exPrj none with | .ok o => o | .error _ => newRoot

theorem exPrj_writes : writeTree c!"en" c!"GB" exPrj none = .ok exOut := by
  unfold exOut
  have : (match writeTree c!"en" c!"GB" exPrj none with | .ok _ => true | .error _ => false) = true := by
    decide +kernel
  cases h : writeTree c!"en" c!"GB" exPrj none with
  | error e => rw [h] at this; cases this
  | ok o => rfl

theorem exPrj_reloads : Reloaded exOut (reload exOut) := reloaded_reload _ (by decide +kernel)

theorem exPrj_readable (lib : PyLib) : ∃ m, readTree lib (reload exOut) = .ok m := by
  refine C45_readable lib _ _ exPrj none _ _ projectTree_newRoot exPrj_good exPrj_writes
    exPrj_reloads ?_
  intro id s old hs ho
  have hold : old = [Elem.leaf c!"ID" (some id)] := by
    rcases ho with ⟨sec, e, g1, g2, _⟩ | ⟨_, h⟩
    · cases g1; cases g2
    · exact h
  subst hold
  have hsel : ∀ t ∈ [c!"Status", c!"Day", c!"Hour", c!"Minute"], sel t [Elem.leaf c!"ID" (some id)] = [] := by
    intro t ht
    simp only [List.mem_cons, List.not_mem_nil, or_false] at ht
    rcases ht with rfl | rfl | rfl | rfl <;> rfl
  refine ⟨?_, ?_, ?_⟩
  · intro t ht e he; rw [hsel t ht] at he; cases he
  · intro e he; rw [hsel _ (by decide)] at he; cases he
  · have hmem := mem_of_get? hs
    simp only [exPrj, List.mem_cons, List.not_mem_nil, or_false, Prod.mk.injEq] at hmem
    rcases hmem with ⟨_, rfl⟩ | ⟨_, rfl⟩ | ⟨_, rfl⟩
    · exact Or.inl ⟨by simp, by simp⟩
    · refine Or.inr ⟨?_, ?_⟩
      · intro y hy; cases hy
        exact ⟨(plainB_iff _).1 (by decide), by intro h; cases h⟩
      · intro t ht; cases ht
        exact Or.inr ⟨c!"08", c!"30", c!"00", by decide, by decide, by decide, by decide, by decide, by decide,
          (plainB_iff _).1 (by decide), (plainB_iff _).1 (by decide)⟩
    · refine Or.inr ⟨?_, ?_⟩
      · intro y hy; cases hy
      · intro t ht; cases ht

/-- The hypotheses of the project theorems are met, and they say what one expects. -/
theorem exPrj_back (lib : PyLib) : ∃ m, readTree lib (reload exOut) = .ok m ∧
    m.srtChapters = [c!"2", c!"1"] ∧ m.srtCharacters = [c!"2", c!"1"] ∧
    (m.scenes.get? c!"1").bind (·.sceneContent) = some c!"a <b> & c" ∧
    (m.scenes.get? c!"1").bind (·.status) = some 2 ∧
    (m.scenes.get? c!"2").bind (·.scType) = some 3 ∧
    (m.scenes.get? c!"3").bind (·.scType) = some 1 := by
  obtain ⟨m, hm⟩ := exPrj_readable lib
  have hst := C22_structure lib _ _ exPrj m none _ _ projectTree_newRoot exPrj_good exPrj_writes
    exPrj_reloads hm
  have hsc := C15_project lib _ _ exPrj m none _ _ projectTree_newRoot exPrj_good exPrj_writes
    exPrj_reloads hm
  refine ⟨m, hm, hst.chapters.1, hst.characters.1, ?_, ?_, ?_, ?_⟩
  · obtain ⟨old, y, h1, _, h2, _⟩ := hsc c!"1" _ rfl
    rw [h1]
    exact h2.content
  · obtain ⟨old, y, h1, _, _, _, _, _, _, _, h2, _⟩ := hsc c!"1" _ rfl
    rw [h1]
    exact h2 2 rfl
  · obtain ⟨old, y, h1, _, _, _, _, _, _, _, _, _, _, _, _, _, _, h2, _⟩ := hsc c!"2" _ rfl
    rw [h1]
    exact h2 c!"1" _ (by decide) rfl (by decide)
  · obtain ⟨old, y, h1, _, _, _, _, _, _, _, _, _, _, _, _, _, _, h2, _⟩ := hsc c!"3" _ rfl
    rw [h1]
    exact h2 c!"2" _ (by decide) rfl (by decide)

/-- A new project file is regular. -/
theorem projectNode_newRoot : ProjectNode newRoot.kids := by
  have h : find c!"PROJECT" newRoot.kids = some (node c!"PROJECT" none none []) := rfl
  refine ⟨?_, ?_, ?_, ?_⟩
  · intro p hp; rw [h] at hp; cases hp; intro t _; exact ⟨by simp [sel, kids], by simp [sel, kids]⟩
  · intro p hp; rw [h] at hp; cases hp; simp [sel, kids]
  · intro p hp f hf; rw [h] at hp; cases hp; cases hf
  · intro s hs; cases hs

/-- The project data and the languages of the example are read back (C38, C46). -/
theorem exPrj_project (lib : PyLib) : ∃ m, readTree lib (reload exOut) = .ok m ∧
    m.title = some c!"My Novel" ∧ m.authorName = none ∧ m.languages = some [c!"de-DE"] ∧
    m.languageCode = some c!"en" ∧ m.countryCode = some c!"US" := by
  obtain ⟨m, hm⟩ := exPrj_readable lib
  obtain ⟨p, hp, ht⟩ := C46_project lib _ _ exPrj m none _ _ projectNode_newRoot exPrj_writes exPrj_reloads hm
  obtain ⟨h1, h2⟩ := C38_project_partial lib _ _ exPrj m none _ _ projectNode_newRoot (by decide) (by decide)
    exPrj_writes exPrj_reloads hm
  obtain ⟨h3, h4⟩ := h2 (by decide)
  have hp' : p = node c!"PROJECT" none none [] := by
    have : find c!"PROJECT" ((none : Option Elem).getD newRoot).kids = some (node c!"PROJECT" none none []) := rfl
    rw [this] at hp; cases hp; rfl
  subst hp'
  refine ⟨m, hm, ?_, ?_, ?_, ?_, ?_⟩
  · rw [ht.title]; decide
  · rw [ht.authorName]; decide
  · rw [h1]; decide +kernel
  · rw [h3]; decide +kernel
  · rw [h4]; decide +kernel

end Verif
