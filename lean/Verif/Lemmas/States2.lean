/-
Lemmas: when the documents can be made, by kind of document (C73).
-/
import Verif.Lemmas.States

namespace Verif
open Spec Template

/-- Which scenes get a template. -/
theorem sceneTemplate_some {x : Templates} (hu : x.unusedScene = []) (hn : x.notExportedScene = []) {ch : Chapter} {ne : Bool} {s : Scene}
    (hset : setAside ch.chType = true → setAside s.scType = true) (hne : ne = true → s.doNotExport = some true) :
    (sceneTemplate x ch.chType ne true s).isSome = true ↔
      forExport ch s = true ∨ (x.notesScene ≠ [] ∧ s.scType = some 1) ∨ (x.todoScene ≠ [] ∧ s.scType = some 2) := by
  unfold sceneTemplate
  simp only [hu, hn, if_true]
  by_cases h2 : s.scType = some 2
  · rw [if_pos h2]
    have : forExport ch s = false := by simp [h2, forExport, setAside]
    by_cases ht : x.todoScene = [] <;> simp [this, ht, h2]
  by_cases h1 : s.scType = some 1
  · rw [if_neg h2, if_pos h1]
    have : forExport ch s = false := by simp [h1, forExport, setAside]
    by_cases ht : x.notesScene = [] <;> simp [this, ht, h1]
  rw [if_neg h2, if_neg h1]
  have hR : ((x.notesScene ≠ [] ∧ s.scType = some 1) ∨ (x.todoScene ≠ [] ∧ s.scType = some 2)) ↔ False := by simp [h1, h2]
  rw [hR, or_false]
  by_cases h3 : s.scType = some 3 ∨ ch.chType = some 3
  · rw [if_pos h3]
    rcases h3 with h | h <;> simp [h, forExport, setAside]
  rw [if_neg h3]
  have hs : setAside s.scType = false := by
    simp only [not_or] at h3
    simp [setAside, h1, h2, h3.1]
  have hc : setAside ch.chType = false := by
    cases hh : setAside ch.chType with
    | false => rfl
    | true => rw [hset hh] at hs; cases hs
  by_cases h4 : s.doNotExport = some true ∨ ne = true
  · rw [if_pos h4]
    have : s.doNotExport = some true := by
      rcases h4 with h | h
      · exact h
      · exact hne h
    simp [forExport, this]
  rw [if_neg h4]
  simp only [not_or] at h4
  by_cases h5 : Str.startsWith (s.sceneContent.getD []) c!"<HTML>" = true
  · rw [if_pos h5]
    have : rawCode s = true := by unfold Str.startsWith at h5; simp only [rawCode, h5, Bool.true_or]
    simp [forExport, this]
  rw [if_neg h5]
  by_cases h6 : Str.startsWith (s.sceneContent.getD []) c!"<TEX>" = true
  · rw [if_pos h6]
    have : rawCode s = true := by unfold Str.startsWith at h6; simp only [rawCode, h6, Bool.or_true]
    simp [forExport, this]
  rw [if_neg h6]
  have hr : rawCode s = false := by
    simp only [Bool.not_eq_true, Str.startsWith] at h5 h6
    simp only [rawCode, h5, h6, Bool.or_false]
  have hf : forExport ch s = true := by
    simp [forExport, hs, hc, hr, h4.1]
  simp [hf]

theorem mem_asideOf {type : Nat} {n : Novel} {ids : List Str} {p : Str × Scene} : p ∈ asideOf type n ids ↔ n.scenes.get? p.1 = some p.2 ∧ p.2.scType = some type ∧
    ∃ chId ch, chId ∈ ids ∧ n.chapters.get? chId = some ch ∧ p.1 ∈ ch.srtScenes := by
  unfold asideOf asideIn
  rw [List.mem_flatMap]
  constructor
  · rintro ⟨chId, h1, h⟩
    cases hc : n.chapters.get? chId with
    | none => rw [hc] at h; cases h
    | some ch =>
      rw [hc] at h
      simp only [List.mem_filter, List.mem_filterMap, Option.map_eq_some_iff, decide_eq_true_eq] at h
      obtain ⟨⟨id, hid, s, hs, rfl⟩, ht⟩ := h
      exact ⟨hs, ht, chId, ch, h1, hc, hid⟩
  · rintro ⟨hs, ht, chId, ch, h1, hc, hid⟩
    refine ⟨chId, h1, ?_⟩
    rw [hc]
    simp only [List.mem_filter, List.mem_filterMap, Option.map_eq_some_iff, decide_eq_true_eq]
    exact ⟨⟨p.1, hid, p.2, hs, rfl⟩, ht⟩

theorem mem_narrative {n : Novel} {chId : Str} {ch : Chapter} {i : Str} (h1 : chId ∈ n.srtChapters) (h2 : n.chapters.get? chId = some ch) (h3 : i ∈ ch.srtScenes) : i ∈ narrative n := by
  unfold narrative
  rw [List.mem_flatMap]
  exact ⟨chId, h1, by unfold scenesOf; rw [h2]; exact h3⟩

/-- When the chapters of a document can be made. -/
theorem getChapters_iff {x : Exporter} {n : Novel} (hn : AllListed n) (hi : Inherits n) (hx : StateMappings x n) (hu : x.unusedScene = []) (hne : x.notExportedScene = []) :
    (∃ ls, getChapters x n = .ok ls) ↔ ∀ p : Str × Scene, (p ∈ exported n n.srtChapters ∨ (x.notesScene ≠ [] ∧ p ∈ asideOf 1 n n.srtChapters) ∨
      (x.todoScene ≠ [] ∧ p ∈ asideOf 2 n n.srtChapters)) → NamedState p.2 := by
  unfold getChapters
  have hch : ∀ id ∈ n.srtChapters, ∃ ch, n.chapters.get? id = some ch ∧
      ∀ i ∈ ch.srtScenes, (∃ s, n.scenes.get? i = some s) ∧ ∀ s, n.scenes.get? i = some s → ∀ k w l, (∃ m, x.sceneMapping n i k w l = .ok m) ↔ NamedState s := by
    intro id hid
    obtain ⟨ch, hc⟩ := hn.chapters id hid
    refine ⟨ch, hc, fun i hi => ?_⟩
    have hmem := mem_narrative hid hc hi
    obtain ⟨s, hs, _⟩ := hn.scenes i hmem
    exact ⟨⟨s, hs⟩, hx.scene i hmem⟩
  rw [chaptersLoop_iff n.srtChapters hch hx.chapter]
  constructor
  · intro h p hp
    have key : ∃ chId ch, chId ∈ n.srtChapters ∧ n.chapters.get? chId = some ch ∧ p.1 ∈ ch.srtScenes ∧ n.scenes.get? p.1 = some p.2 ∧
        (forExport ch p.2 = true ∨ (x.notesScene ≠ [] ∧ p.2.scType = some 1) ∨ (x.todoScene ≠ [] ∧ p.2.scType = some 2)) := by
      rcases hp with hp | ⟨hy, hp⟩ | ⟨hy, hp⟩
      · obtain ⟨hs, chId, ch, h1, h2, h3, h4⟩ := ((C29_exported n).2 p.1 p.2).1 hp
        exact ⟨chId, ch, h1, h2, h3, hs, Or.inl h4⟩
      · obtain ⟨hs, ht, chId, ch, h1, h2, h3⟩ := mem_asideOf.1 hp
        exact ⟨chId, ch, h1, h2, h3, hs, Or.inr (Or.inl ⟨hy, ht⟩)⟩
      · obtain ⟨hs, ht, chId, ch, h1, h2, h3⟩ := mem_asideOf.1 hp
        exact ⟨chId, ch, h1, h2, h3, hs, Or.inr (Or.inr ⟨hy, ht⟩)⟩
    obtain ⟨chId, ch, h1, h2, h3, hs, hc⟩ := key
    obtain ⟨fl, hfl⟩ := flags_total (n := n) ch.srtScenes (fun i hi => by obtain ⟨s, hs, _⟩ := hn.scenes i (mem_narrative h1 h2 hi); exact ⟨s, hs⟩)
    have hfl' : ∃ ne, chapterNotExported n ch.srtScenes = .ok ne := by
      unfold chapterNotExported
      rw [hfl]
      exact ⟨_, rfl⟩
    obtain ⟨ne, hnex⟩ := hfl'
    refine h chId h1 ch h2 ne hnex p.1 h3 p.2 hs ((sceneTemplate_some hu hne (fun hh => hi chId ch p.1 p.2 h1 h2 hh h3 hs) ?_).2 hc)
    intro hne'
    have := (chapterNotExported_spec hnex).1
    rw [hne'] at this
    have := (Bool.and_eq_true_iff.1 this.symm).2
    rw [List.all_eq_true] at this
    have := this p.1 h3
    rw [hs] at this
    simpa using this
  · intro h chId h1 ch h2 ne hnex i h3 s hs hsome
    have hc := (sceneTemplate_some hu hne (fun hh => hi chId ch i s h1 h2 hh h3 hs) ?_).1 hsome
    · refine h (i, s) ?_
      rcases hc with hc | ⟨hy, hc⟩ | ⟨hy, hc⟩
      · exact Or.inl (((C29_exported n).2 i s).2 ⟨hs, chId, ch, h1, h2, h3, hc⟩)
      · exact Or.inr (Or.inl ⟨hy, mem_asideOf.2 ⟨hs, hc, chId, ch, h1, h2, h3⟩⟩)
      · exact Or.inr (Or.inr ⟨hy, mem_asideOf.2 ⟨hs, hc, chId, ch, h1, h2, h3⟩⟩)
    intro hne'
    have := (chapterNotExported_spec hnex).1
    rw [hne'] at this
    have := (Bool.and_eq_true_iff.1 this.symm).2
    rw [List.all_eq_true] at this
    have := this i h3
    rw [hs] at this
    simpa using this

theorem formattedText_iff {x : Exporter} {n : Novel} (hx : StateMappings x n) : (∃ t, formattedText x n = .ok t) ↔ ∃ ls, getChapters x n = .ok ls := by
  obtain ⟨m, hm⟩ := hx.header
  unfold formattedText getFileHeader
  rw [hm]
  simp only [Bind.bind, Except.bind]
  cases getChapters x n with
  | error e => simp
  | ok ls => simp

theorem proofText_iff {x : Exporter} {n : Novel} (hx : StateMappings x n) : (∃ t, proofText x n = .ok t) ↔ ∃ ls, getChapters x n = .ok ls := by
  obtain ⟨m, hm⟩ := hx.header
  unfold proofText getFileHeader
  rw [hm]
  simp only [Bind.bind, Except.bind]
  cases getChapters x n with
  | error e => simp
  | ok ls => simp

theorem getText_iff {x : Exporter} {n : Novel} (hx : StateMappings x n) (hc : ∀ id ∈ n.srtCharacters, ∃ m, x.characterMapping n id = .ok m)
    (hl : ∀ id ∈ n.srtLocations, ∃ m, x.locationMapping n id = .ok m) (hi : ∀ id ∈ n.srtItems, ∃ m, x.itemMapping n id = .ok m)
    (hp : ∀ id ∈ n.srtPrjNotes, ∃ m, x.noteMapping n id = .ok m) : (∃ t, getText x n = .ok t) ↔ ∃ ls, getChapters x n = .ok ls := by
  obtain ⟨m, hm⟩ := hx.header
  obtain ⟨l1, h1⟩ := elementLines_total (t := x.character) n.srtCharacters hc
  obtain ⟨l2, h2⟩ := elementLines_total (t := x.location) n.srtLocations hl
  obtain ⟨l3, h3⟩ := elementLines_total (t := x.item) n.srtItems hi
  obtain ⟨l4, h4⟩ := elementLines_total (t := x.projectNote) n.srtPrjNotes hp
  unfold getText getFileHeader
  rw [hm]
  simp only [Bind.bind, Except.bind]
  cases getChapters x n with
  | error e => simp
  | ok ls =>
    simp only [h1, h2, h3, h4]
    simp

end Verif
