/-
The exporter's loops compute the declarative manuscript of Spec/Export.lean.
-/
import Verif.Spec.Export

namespace Verif
open Spec

theorem Dict.get!_ok {α : Type} {d : Dict α} {k : Str} {v : α} (h : d.get! k = .ok v) : d.get? k = some v := by
  unfold Dict.get! at h
  split at h
  · cases h; assumption
  · cases h

theorem Dict.get!_of {α : Type} {d : Dict α} {k : Str} {v : α} (h : d.get? k = some v) : d.get! k = .ok v := by
  unfold Dict.get!; rw [h]

/-- A successful step of a program that may raise. -/
theorem bind_ok {α β : Type} {a : Except Exc α} {f : α → Except Exc β} {b : β} (h : (a >>= f) = .ok b) :
    ∃ v, a = .ok v ∧ f v = .ok b := by
  cases a with
  | error e => cases h
  | ok v => exact ⟨v, rfl, h⟩

/-- The counters that belong to a list of exported scenes. -/
def countersOf (l : List (Str × Scene)) : Counters :=
  { number := l.length, words := total (·.wordCount) l, letters := total (·.letterCount) l }

theorem total_snoc (f : Scene → Nat) (l : List (Str × Scene)) (p : Str × Scene) : total f (l ++ [p]) = total f l + f p.2 := by
  simp [total]

theorem countersOf_snoc (l : List (Str × Scene)) (p : Str × Scene) :
    countersOf (l ++ [p]) = { number := (countersOf l).number + 1, words := (countersOf l).words + p.2.wordCount, letters := (countersOf l).letters + p.2.letterCount } := by
  simp [countersOf, total_snoc]

/-- The exported scenes among some scenes of a chapter. -/
def exportedOf (n : Novel) (ch : Chapter) (ids : List Str) : List (Str × Scene) :=
  (ids.filterMap (fun id => (n.scenes.get? id).map (fun s => (id, s)))).filter (fun p => forExport ch p.2)

theorem exportedOf_cons_yes {n : Novel} {ch : Chapter} {id : Str} {s : Scene} {r : List Str} (h : n.scenes.get? id = some s)
    (hf : forExport ch s = true) : exportedOf n ch (id :: r) = (id, s) :: exportedOf n ch r := by
  simp [exportedOf, h, hf]

theorem exportedOf_cons_no {n : Novel} {ch : Chapter} {id : Str} {s : Scene} {r : List Str} (h : n.scenes.get? id = some s)
    (hf : forExport ch s = false) : exportedOf n ch (id :: r) = exportedOf n ch r := by
  simp [exportedOf, h, hf]

theorem sceneTemplate_manuscript {x : Templates} (hx : ManuscriptTemplates x) {ch : Chapter} {ne : Bool} {s : Scene}
    (hset : setAside ch.chType = true → setAside s.scType = true) (hne : ne = true → s.doNotExport = some true) (first : Bool) :
    sceneTemplate x ch.chType ne first s =
      if forExport ch s then
        some (if first = false ∧ s.appendToPrev = some true ∧ x.appendedScene ≠ [] then x.appendedScene else x.scene, true)
      else none := by
  unfold sceneTemplate
  simp only [hx.todoScene, hx.notesScene, hx.unusedScene, hx.notExportedScene, if_true, if_false]
  by_cases h2 : s.scType = some 2
  · simp [h2, forExport, setAside]
  by_cases h1 : s.scType = some 1
  · simp [h1, forExport, setAside]
  by_cases h3 : s.scType = some 3 ∨ ch.chType = some 3
  · rw [if_neg h2, if_neg h1, if_pos h3]
    rcases h3 with h | h <;> simp [h, forExport, setAside]
  rw [if_neg h2, if_neg h1, if_neg h3]
  have hs : setAside s.scType = false := by
    simp only [not_or] at h3
    simp [setAside, h1, h2, h3.1]
  have hc : setAside ch.chType = false := by
    cases hh : setAside ch.chType with
    | false => rfl
    | true => rw [hset hh] at hs; cases hs
  by_cases h4 : s.doNotExport = some true ∨ ne = true
  · rw [if_pos h4]
    have : s.doNotExport = some true := by
      rcases h4 with h | h
      · exact h
      · exact hne h
    simp [forExport, this]
  rw [if_neg h4]
  simp only [not_or] at h4
  by_cases h5 : Str.startsWith (s.sceneContent.getD []) c!"<HTML>" = true
  · rw [if_pos h5]
    have : rawCode s = true := by unfold Str.startsWith at h5; simp only [rawCode, h5, Bool.true_or]
    simp [forExport, this]
  rw [if_neg h5]
  by_cases h6 : Str.startsWith (s.sceneContent.getD []) c!"<TEX>" = true
  · rw [if_pos h6]
    have : rawCode s = true := by unfold Str.startsWith at h6; simp only [rawCode, h6, Bool.or_true]
    simp [forExport, this]
  rw [if_neg h6]
  have hr : rawCode s = false := by
    simp only [Bool.not_eq_true, Str.startsWith] at h5 h6
    simp only [rawCode, h5, h6, Bool.or_false]
  have hf : forExport ch s = true := by
    simp [forExport, hs, hc, hr, h4.1]
  rw [if_pos hf]
  split <;> rfl

theorem scenesLoop_spec {x : Exporter} (hx : ManuscriptTemplates x.toTemplates) {n : Novel} {ch : Chapter} {ne : Bool} (ids : List Str)
    (hset : setAside ch.chType = true → ∀ id ∈ ids, ∀ s, n.scenes.get? id = some s → setAside s.scType = true)
    (hne : ne = true → ∀ id ∈ ids, ∀ s, n.scenes.get? id = some s → s.doNotExport = some true) :
    ∀ (first : Bool) (before : List (Str × Scene)) (ls : List Str) (k' : Counters),
    scenesLoop x n ch.chType ne first (countersOf before) ids = .ok (ls, k') →
    ls = scenesText x n before first (exportedOf n ch ids) ∧ k' = countersOf (before ++ exportedOf n ch ids) := by
  induction ids with
  | nil =>
    intro first before ls k' h
    unfold scenesLoop at h
    cases h
    exact ⟨rfl, by simp [exportedOf]⟩
  | cons id r ih =>
    intro first before ls k' h
    have ih' := ih (fun hc i hi => hset hc i (List.mem_cons_of_mem _ hi)) (fun hc i hi => hne hc i (List.mem_cons_of_mem _ hi))
    unfold scenesLoop at h
    obtain ⟨s, hs, h⟩ := bind_ok h
    have hs' := Dict.get!_ok hs
    rw [sceneTemplate_manuscript hx (fun hc => hset hc id List.mem_cons_self s hs') (fun hc => hne hc id List.mem_cons_self s hs')] at h
    cases hf : forExport ch s with
    | false =>
      rw [hf] at h
      rw [exportedOf_cons_no hs' hf]
      exact ih' first before ls k' h
    | true =>
      rw [hf] at h
      simp only [if_true] at h
      obtain ⟨m, hm, h⟩ := bind_ok h
      obtain ⟨⟨rest, k2⟩, hr, h⟩ := bind_ok h
      have hk := (countersOf_snoc before (id, s)).symm
      simp only at hk
      rw [hk] at hr
      obtain ⟨e1, e2⟩ := ih' false (before ++ [(id, s)]) rest k2 hr
      rw [exportedOf_cons_yes hs' hf]
      cases h
      refine ⟨?_, by rw [e2, List.append_assoc]; rfl⟩
      have hm' : x.sceneMapping n id (before ++ [(id, s)]).length (total (·.wordCount) (before ++ [(id, s)]))
          (total (·.letterCount) (before ++ [(id, s)])) = .ok m := by
        rw [total_snoc, total_snoc, List.length_append]; exact hm
      simp only [scenesText, sceneText, hm', filled, e1, hx.firstScene, ne_eq, not_true, and_false, if_false]
      clear hr hm hm' hset hne ih ih' hk
      generalize scenesText x n (before ++ [(id, s)]) false (exportedOf n ch r) = rest'
      by_cases ha : s.appendToPrev = some true <;> by_cases hb : x.appendedScene = [] <;> cases first <;> simp [ha, hb]

theorem flags_spec {n : Novel} (ids : List Str) : ∀ l, chapterNotExported.flags n ids = .ok l →
    (∀ id ∈ ids, ∃ s, n.scenes.get? id = some s) ∧ (l = [] ↔ ids = []) ∧
    l.all id = ids.all (fun id => (n.scenes.get? id).any (fun s => s.doNotExport == some true)) := by
  induction ids with
  | nil =>
    intro l h
    unfold chapterNotExported.flags at h
    cases h
    simp
  | cons a r ih =>
    intro l h
    unfold chapterNotExported.flags at h
    obtain ⟨s, hs, h⟩ := bind_ok h
    obtain ⟨l', hl, h⟩ := bind_ok h
    have hs' := Dict.get!_ok hs
    obtain ⟨h1, h2, h3⟩ := ih l' hl
    cases h
    refine ⟨?_, by simp, ?_⟩
    · intro i hi
      rcases List.mem_cons.1 hi with rfl | hi
      · exact ⟨s, hs'⟩
      · exact h1 i hi
    · rw [List.all_cons, List.all_cons, h3, hs']
      rfl

theorem chapterNotExported_spec {n : Novel} {ch : Chapter} {ne : Bool} (h : chapterNotExported n ch.srtScenes = .ok ne) :
    ne = (ch.srtScenes ≠ [] && ch.srtScenes.all (fun id => (n.scenes.get? id).any (fun s => s.doNotExport == some true))) ∧
    ∀ id ∈ ch.srtScenes, ∃ s, n.scenes.get? id = some s := by
  unfold chapterNotExported at h
  obtain ⟨l, hl, h⟩ := bind_ok h
  obtain ⟨h1, h2, h3⟩ := flags_spec _ l hl
  cases h
  rw [h3]
  refine ⟨?_, h1⟩
  congr 1
  simp [h2]

theorem exportedIn_eq_nil_of_setAside {n : Novel} {ch : Chapter} (h : setAside ch.chType = true) : exportedIn n ch = [] := by
  simp [exportedIn, forExport, h]

theorem exportedIn_eq_nil_of_notExported {n : Novel} {ch : Chapter}
    (h : ∀ id ∈ ch.srtScenes, ∀ s, n.scenes.get? id = some s → s.doNotExport = some true) : exportedIn n ch = [] := by
  unfold exportedIn
  rw [List.filter_eq_nil_iff]
  intro p hp
  rw [List.mem_filterMap] at hp
  obtain ⟨id, hid, e⟩ := hp
  cases hs : n.scenes.get? id with
  | none => rw [hs] at e; cases e
  | some s =>
    rw [hs] at e
    cases e
    simp [forExport, h id hid s hs]

theorem exported_snoc (n : Novel) (l : List Str) (id : Str) (ch : Chapter) (h : n.chapters.get? id = some ch) :
    exported n (l ++ [id]) = exported n l ++ exportedIn n ch := by
  simp [exported, h]

theorem numberedChapters_snoc (x : Templates) (n : Novel) (l : List Str) (id : Str) (ch : Chapter) (h : n.chapters.get? id = some ch) :
    numberedChapters x n (l ++ [id]) = numberedChapters x n l ++ (if chapterShown n ch && !isPart x ch then [id] else []) := by
  simp [numberedChapters, h, List.filter_cons]

theorem chapterTemplate_hidden {x : Templates} (hx : ManuscriptTemplates x) {ch : Chapter} {ne : Bool}
    (h : setAside ch.chType = true ∨ ne = true) : chapterTemplate x ch ne = (none, false) ∧ chapterEndTemplate x ch ne = none := by
  unfold chapterTemplate chapterEndTemplate
  simp only [hx.todoPart, hx.todoChapter, hx.notesPart, hx.notesChapter, hx.unusedChapter, hx.notExportedChapter, hx.todoChapterEnd,
    hx.notesChapterEnd, hx.unusedChapterEnd, hx.notExportedChapterEnd, if_true, ite_self]
  by_cases h2 : ch.chType = some 2
  · simp [h2]
  by_cases h1 : ch.chType = some 1
  · simp [h1]
  by_cases h3 : ch.chType = some 3
  · simp [h3]
  have : setAside ch.chType = false := by simp [setAside, h1, h2, h3]
  rw [this] at h
  have : ne = true := by simpa using h
  simp [this]

theorem chapterTemplate_shown {x : Templates} {ch : Chapter} (h : setAside ch.chType = false) :
    chapterTemplate x ch false = (some (if isPart x ch then x.part else x.chapter), !isPart x ch) ∧
    chapterEndTemplate x ch false = if x.chapterEnd = [] then none else some x.chapterEnd := by
  simp only [setAside, Bool.or_eq_false_iff, decide_eq_false_iff_not] at h
  unfold chapterTemplate chapterEndTemplate
  simp only [h.1.1, h.1.2, h.2, if_false, Bool.false_eq_true]
  refine ⟨?_, trivial⟩
  by_cases hp : ch.chLevel = some 1 ∧ x.part ≠ []
  · rw [if_pos hp]
    have : isPart x ch = true := by simp [isPart, hp.1, hp.2]
    simp [this]
  · rw [if_neg hp]
    have : isPart x ch = false := by
      simp only [isPart, Bool.and_eq_false_iff, decide_eq_false_iff_not]
      by_cases h1 : ch.chLevel = some 1
      · right; simp only [h1, true_and] at hp; simpa using hp
      · exact Or.inl h1
    simp [this]

theorem chaptersLoop_spec {x : Exporter} (hx : ManuscriptTemplates x.toTemplates) {n : Novel} (ids : List Str)
    (hin : ∀ chId ∈ ids, ∀ ch, n.chapters.get? chId = some ch → setAside ch.chType = true →
      ∀ id ∈ ch.srtScenes, ∀ s, n.scenes.get? id = some s → setAside s.scType = true) :
    ∀ (before : List Str) (ls : List Str),
    chaptersLoop x n (numberedChapters x.toTemplates n before).length (countersOf (exported n before)) ids = .ok ls →
    ls = manuscript x n before ids := by
  induction ids with
  | nil =>
    intro before ls h
    unfold chaptersLoop at h
    cases h
    rfl
  | cons chId r ih =>
    intro before ls h
    unfold chaptersLoop at h
    obtain ⟨ch, hch, h⟩ := bind_ok h
    have hch' := Dict.get!_ok hch
    obtain ⟨ne, hne, h⟩ := bind_ok h
    obtain ⟨hne1, hne2⟩ := chapterNotExported_spec hne
    have hneAll : ne = true → ∀ id ∈ ch.srtScenes, ∀ s, n.scenes.get? id = some s → s.doNotExport = some true := by
      intro e id hid s hs
      rw [e] at hne1
      have := (Bool.and_eq_true_iff.1 hne1.symm).2
      have := List.all_eq_true.1 this id hid
      rw [hs] at this
      simpa using this
    have ih' := ih (fun c hc => hin c (List.mem_cons_of_mem _ hc)) (before ++ [chId])
    rw [exported_snoc n before chId ch hch', numberedChapters_snoc _ n before chId ch hch'] at ih'
    have hset := fun hc => hin chId List.mem_cons_self ch hch' hc
    obtain ⟨head, hhead, h⟩ := bind_ok h
    obtain ⟨⟨sl, k'⟩, hsc, h⟩ := bind_ok h
    obtain ⟨e1, e2⟩ := scenesLoop_spec hx ch.srtScenes hset hneAll true (exported n before) sl k' hsc
    obtain ⟨tail, htail, h⟩ := bind_ok h
    obtain ⟨rest, hrest, h⟩ := bind_ok h
    have hex : exportedOf n ch ch.srtScenes = exportedIn n ch := rfl
    rw [hex] at e1 e2
    rw [e2] at hrest
    simp only [manuscript, chapterText, hch']
    by_cases hh : setAside ch.chType = true ∨ ne = true
    · obtain ⟨t1, t2⟩ := chapterTemplate_hidden hx hh
      have hnil : exportedIn n ch = [] := by
        rcases hh with hh | hh
        · exact exportedIn_eq_nil_of_setAside hh
        · exact exportedIn_eq_nil_of_notExported (hneAll hh)
      have hsh : chapterShown n ch = false := by
        unfold chapterShown
        rw [← hne1]
        rcases hh with hh | hh <;> simp [hh]
      simp only [hsh, Bool.false_eq_true, if_false, Bool.false_and, List.append_nil] at ih' ⊢
      rw [t1] at hhead hrest
      rw [t2] at htail
      cases hhead
      cases htail
      have := ih' rest hrest
      cases h
      rw [e1, hnil, ← this]
      rfl
    · have h1 : setAside ch.chType = false := by
        cases hc : setAside ch.chType with
        | false => rfl
        | true => exact absurd (Or.inl hc) hh
      have h2 : ne = false := by
        cases hc : ne with
        | false => rfl
        | true => exact absurd (Or.inr hc) hh
      obtain ⟨t1, t2⟩ := chapterTemplate_shown (x := x.toTemplates) h1
      have hsh : chapterShown n ch = true := by
        unfold chapterShown
        rw [← hne1, h1, h2]
        rfl
      rw [h2, t1] at hhead hrest
      rw [h2, t2, t1] at htail
      simp only [hsh, if_true, Bool.true_and] at ih' ⊢
      have hnum : (if (!isPart x.toTemplates ch) = true then (numberedChapters x.toTemplates n before).length + 1
          else (numberedChapters x.toTemplates n before).length)
          = (numberedChapters x.toTemplates n before ++ (if (!isPart x.toTemplates ch) = true then [chId] else [])).length := by
        split <;> simp
      have hdisp : (if (!isPart x.toTemplates ch) = true then
          (if (!isPart x.toTemplates ch) = true then (numberedChapters x.toTemplates n before).length + 1
          else (numberedChapters x.toTemplates n before).length) else 0)
          = if isPart x.toTemplates ch = true then 0 else (numberedChapters x.toTemplates n before).length + 1 := by
        cases isPart x.toTemplates ch <;> rfl
      simp only [hnum] at hrest
      have := ih' rest hrest
      rw [hdisp] at hhead htail
      obtain ⟨m, hm, hhead⟩ := bind_ok hhead
      cases hhead
      cases h
      rw [e1, this, hm]
      by_cases he : x.chapterEnd = []
      · rw [if_pos he] at htail
        cases htail
        simp [he, filled]
      · rw [if_neg he] at htail
        obtain ⟨m', hm', htail⟩ := bind_ok htail
        rw [hm] at hm'
        cases hm'
        cases htail
        simp [he, filled]

theorem getChapters_spec {x : Exporter} (hx : ManuscriptTemplates x.toTemplates) {n : Novel} (hin : Inherits n) {ls : List Str}
    (h : getChapters x n = .ok ls) : ls = manuscript x n [] n.srtChapters :=
  chaptersLoop_spec hx n.srtChapters (fun chId hc ch hch hs id hid s hsc => hin chId ch id s hc hch hs hid hsc) [] ls h

end Verif
