/-
C20: a concrete project that meets the hypotheses of the stability theorem.
-/
import Verif.Props.C20_Stable
import Verif.Props.C22_Example

namespace Verif
open Xml Spec

/-- `int` on decimal numbers; one valid date. -/
def exLib : PyLib where
  int s := match s with
    | [] => none
    | '-' :: t => some (- (Nat.ofDigitChars 10 t 0 : Nat))
    | t => some (Nat.ofDigitChars 10 t 0 : Nat)
  int_str := by
    intro n
    cases n with
    | ofNat k =>
      show (match Str.ofNat k with
        | [] => none
        | '-' :: t => some (- (Nat.ofDigitChars 10 t 0 : Int))
        | t => some (Nat.ofDigitChars 10 t 0 : Int)) = _
      have hd := fun c => @Str.isDigit_of_mem_ofNat k c
      obtain ⟨d, r, h1⟩ : ∃ d r, Str.ofNat k = d :: r := List.exists_cons_of_ne_nil (Str.ofNat_ne_nil k)
      have h2 := hd d (by rw [h1]; simp)
      have e : Nat.ofDigitChars 10 (d :: r) 0 = k := by
        rw [← h1]
        exact Nat.ofDigitChars_ten_toDigits
      rw [h1]
      split
      · rename_i h; cases h
      · rename_i h
        cases h
        exact absurd h2 (by decide)
      · rw [e]; rfl
    | negSucc k =>
      show some (- ((Nat.ofDigitChars 10 (Nat.toDigits 10 (k + 1)) 0 : Nat) : Int)) = _
      rw [Nat.ofDigitChars_ten_toDigits]
      rfl
  fromIso s := if s = c!"2020-01-01 12:00:00" then some (c!"2020-01-01", c!"12:00:00") else none

/-- The first scene: a date, characters, tags, arcs. -/
def stScene1 : Scene := { title := some c!"First", kwVar := [(c!"Field_SceneArcs", some c!"main"), (c!"Field_SceneMode", none)], sceneContent := some c!"a <b> & c", wordCount := 4, letterCount := 9, scType := some 0, doNotExport := some false, status := some 2, tags := some [c!"x", c!"y"], appendToPrev := some false, isReactionScene := some false, isSubPlot := some false, conflict := some c!"big", characters := some [c!"2", c!"1"], date := some c!"2020-01-01", time := some c!"12:00:00", scnArcs := some c!"main" }

/-- An unused scene with day and time. -/
def stScene2 : Scene := { title := some c!"Second", kwVar := [(c!"Field_SceneArcs", none), (c!"Field_SceneMode", some c!"1")], scType := some 3, doNotExport := some true, status := some 1, appendToPrev := some true, isReactionScene := some false, isSubPlot := some false, day := some c!"4", time := some c!"08:30:00", scnMode := some 1 }

/-- A scene of a notes chapter. -/
def stScene3 : Scene := { title := some c!"Third", kwVar := [(c!"Field_SceneArcs", none), (c!"Field_SceneMode", none)], scType := some 1, doNotExport := some false, status := some 1, appendToPrev := some false, isReactionScene := some false, isSubPlot := some false, locations := some [c!"7"] }

/-- Two chapters, three scenes, two characters, a location, an item with a link, a project note; a registered language. -/
def stPrj : Novel :=
  { title := some c!"My Novel"
    authorName := some c!"A. Bee"
    wordTarget := some 1000
    wordCountStart := some 0
    kwVar := [(c!"Field_LanguageCode", none), (c!"Field_CountryCode", none)]
    languages := some [c!"de-DE"]
    languageCode := some c!"en"
    countryCode := some c!"US"
    chapters := [(c!"2", { title := some c!"@Two", chLevel := some 0, chType := some 1, suppressChapterTitle := some true, isTrash := some false, suppressChapterBreak := some false, srtScenes := [c!"3"] }),
                 (c!"1", { title := some c!"One", chLevel := some 1, chType := some 0, suppressChapterTitle := some false, srtScenes := [c!"1", c!"2"] })]
    srtChapters := [c!"2", c!"1"]
    scenes := [(c!"1", stScene1), (c!"2", stScene2), (c!"3", stScene3)]
    characters := [(c!"2", { title := some c!"Bob", tags := some [c!"z"], isMajor := some false, kwVar := [(c!"Field_Link", none), (c!"Field_BirthDate", some c!"1900"), (c!"Field_DeathDate", none)] }),
                   (c!"1", { title := some c!"Ann", isMajor := some true, kwVar := [(c!"Field_Link", none), (c!"Field_BirthDate", none), (c!"Field_DeathDate", none)] })]
    srtCharacters := [c!"2", c!"1"]
    locations := [(c!"7", { title := some c!"Here & now", kwVar := [(c!"Field_Link", none)] })]
    srtLocations := [c!"7"]
    items := [(c!"1", { title := some c!"Ring", kwVar := [(c!"Field_Link", some c!"http")] })]
    srtItems := [c!"1"]
    projectNotes := [(c!"1", { title := some c!"Note" })]
    srtPrjNotes := [c!"1"] }

/-- The tree of its file. -/
def stTree : Elem := match writeTree c!"en" c!"GB" stPrj none with | .ok o => reload o | .error _ => newRoot

/-- The file is read as the project. -/
theorem st_read : readTree exLib stTree = .ok stPrj := by
  have : (match readTree exLib stTree with | .ok m => decide (m = stPrj) | .error _ => false) = true := by decide +kernel
  cases h : readTree exLib stTree with
  | error e => rw [h] at this; cases this
  | ok m =>
    rw [h] at this
    dsimp only at this
    rw [of_decide_eq_true this]

theorem plainText_of {v : Option Str} (h : (match v with | none => true | some t => !t.isEmpty && plainB t) = true) : PlainText v := by
  intro t ht
  subst ht
  simp only [Bool.and_eq_true, Bool.not_eq_true', List.isEmpty_eq_false_iff] at h
  exact ⟨h.1, (plainB_iff _).1 h.2⟩

theorem plains_of {l : List (Option Str)} (h : l.all (fun v => match v with | none => true | some t => !t.isEmpty && plainB t) = true) : ∀ v ∈ l, PlainText v :=
  fun v hv => plainText_of (List.all_eq_true.1 h v hv)

theorem notEmpty_of {l : List (Option Str)} (h : l.all (fun v => decide (v ≠ some [])) = true) : ∀ v ∈ l, NotEmpty v := by
  intro v hv
  have := List.all_eq_true.1 h v hv
  exact (of_decide_eq_true this : v ≠ some [])

theorem stScene1_settled : SettledScene exLib stScene1 where
  texts := notEmpty_of (by decide)
  plain := plains_of (by decide)
  arcs := by intro t h; cases h; decide
  status := by decide
  tags := by intro l h; cases h; exact ⟨by decide, by unfold GoodTags; decide⟩
  items := rfl
  mode := by intro m h; cases h
  modeText := by intro v h; cases h
  start := .inl ⟨_, _, rfl, rfl, rfl, (plainB_iff _).1 (by decide), by decide, by decide⟩

theorem stScene2_settled : SettledScene exLib stScene2 where
  texts := notEmpty_of (by decide)
  plain := plains_of (by decide)
  arcs := by intro t h; cases h
  status := by decide
  tags := by intro l h; cases h
  items := rfl
  mode := by intro m h; cases h; decide
  modeText := by intro v h; cases h; exact ⟨by decide, by unfold Carriable; decide⟩
  start := .inr (.inr ⟨rfl, _, rfl, by decide, (plainB_iff _).1 (by decide), by decide, .inr ⟨_, c!"08", c!"30", rfl, by decide, by decide, by decide, by decide, by decide, by decide,
    (plainB_iff _).1 (by decide), (plainB_iff _).1 (by decide)⟩⟩)

theorem stScene3_settled : SettledScene exLib stScene3 where
  texts := notEmpty_of (by decide)
  plain := plains_of (by decide)
  arcs := by intro t h; cases h
  status := by decide
  tags := by intro l h; cases h
  items := rfl
  mode := by intro m h; cases h
  modeText := by intro v h; cases h
  start := .inr (.inl ⟨rfl, rfl, rfl⟩)

theorem st_settled : SettledNovel exLib stPrj where
  project := ⟨notEmpty_of (by decide), by decide, rfl, .inl ⟨_, _, rfl, rfl, .inl (by decide)⟩, by intro l h; cases h; decide, by intro h; cases h⟩
  ids := ⟨⟨by decide, by decide, by decide, by decide, by decide, by decide⟩, ⟨by decide, goodId_of (by decide)⟩, ⟨by decide, goodId_of (by decide)⟩,
    ⟨by decide, goodId_of (by decide)⟩, ⟨by decide, goodId_of (by decide)⟩, goodId_of (by decide), goodId_of (by decide)⟩
  scenes := by
    intro id s h
    have h := mem_of_get? h
    simp only [stPrj, List.mem_cons, List.not_mem_nil, or_false, Prod.mk.injEq] at h
    rcases h with ⟨_, rfl⟩ | ⟨_, rfl⟩ | ⟨_, rfl⟩
    · exact stScene1_settled
    · exact stScene2_settled
    · exact stScene3_settled
  chapters := by
    intro id s h
    have h := mem_of_get? h
    simp only [stPrj, List.mem_cons, List.not_mem_nil, or_false, Prod.mk.injEq] at h
    rcases h with ⟨_, rfl⟩ | ⟨_, rfl⟩
    · exact ⟨notEmpty_of (by decide), by intro h; cases h⟩
    · exact ⟨notEmpty_of (by decide), fun _ => rfl⟩
  locations := by
    intro id s h
    have h := mem_of_get? h
    simp only [stPrj, List.mem_cons, List.not_mem_nil, or_false, Prod.mk.injEq] at h
    obtain ⟨_, rfl⟩ := h
    exact ⟨notEmpty_of (by decide), (by intro l h; cases h), (by intro v h; cases h)⟩
  items := by
    intro id s h
    have h := mem_of_get? h
    simp only [stPrj, List.mem_cons, List.not_mem_nil, or_false, Prod.mk.injEq] at h
    obtain ⟨_, rfl⟩ := h
    exact ⟨notEmpty_of (by decide), (by intro l h; cases h), (by intro v h; cases h; exact ⟨by decide, by unfold Carriable; decide⟩)⟩
  characters := by
    intro id s h
    have h := mem_of_get? h
    simp only [stPrj, List.mem_cons, List.not_mem_nil, or_false, Prod.mk.injEq] at h
    rcases h with ⟨_, rfl⟩ | ⟨_, rfl⟩
    · refine ⟨notEmpty_of (by decide), (by intro l h; cases h; exact ⟨by decide, by unfold GoodTags; decide⟩), ?_⟩
      intro f hf v hv
      simp only [List.mem_cons, List.not_mem_nil, or_false] at hf
      rcases hf with rfl | rfl | rfl <;> cases hv
      exact ⟨by decide, by unfold Carriable; decide⟩
    · refine ⟨notEmpty_of (by decide), (by intro l h; cases h), ?_⟩
      intro f hf v hv
      simp only [List.mem_cons, List.not_mem_nil, or_false] at hf
      rcases hf with rfl | rfl | rfl <;> cases hv
  notes := by
    intro id s h
    have h := mem_of_get? h
    simp only [stPrj, List.mem_cons, List.not_mem_nil, or_false, Prod.mk.injEq] at h
    obtain ⟨_, rfl⟩ := h
    exact ⟨(by decide : some c!"Note" ≠ some []), (by decide : none ≠ some [])⟩

end Verif
