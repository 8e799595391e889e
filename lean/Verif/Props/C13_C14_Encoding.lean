/-
C13 and C14, the file format: what yWriter and other programs find in the saved elements. The tables are
those of yWriter 7: a chapter is "unused" if it is not a normal one; `Type` is 0 for the old-style normal
chapter and 1 for every other one; `ChapterType` is 1 for notes and 2 for "to do" chapters.
-/
import Verif.Props.C14_Chapters
import Verif.Props.C15_C16_Scenes

namespace Verif
open Xml Elem Spec

namespace Spec

/-- The chapter kinds of the user interface. -/
inductive ChapterKind | normal | notes | todo | unused

/-- PyWriter's number of a chapter kind. -/
def ChapterKind.number : ChapterKind → Nat | normal => 0 | notes => 1 | todo => 2 | unused => 3

/-- What a program that does not know PyWriter sees in a chapter: the flag `Unused`, and the texts of
`Type` and `ChapterType`. -/
def chapterMarks (ks : List Elem) : Bool × Option Str × Option Str :=
  (ks.any (fun e => decide (e.tag = c!"Unused")), Verif.textOf c!"Type" ks, Verif.textOf c!"ChapterType" ks)

/-- What a program that does not know PyWriter sees in a scene: the flag `Unused`. -/
def sceneUnused (ks : List Elem) : Bool := ks.any (fun e => decide (e.tag = c!"Unused"))

end Spec

theorem hasTag_any (t : Str) (ks : List Elem) : ks.any (fun e => decide (e.tag = t)) = hasTag t ks := by
  unfold hasTag find
  induction ks with
  | nil => rfl
  | cons e r ih =>
    rw [List.any_cons, List.find?_cons]
    by_cases h : e.tag = t
    · simp [h]
    · simp [h, ih]

/-- **C14**: the marks of each kind of chapter in the saved file, whatever the element was before. -/
theorem C14_encoding (k : ChapterKind) (c : Chapter) (ks out r : List Elem) (hk : ChapterElement ks)
    (hc : c.chType = some k.number) (hs : buildChapter c ks = .ok out) (hr : ReloadedL out r) :
    chapterMarks r = match k with
      | .normal => (false, some c!"0", some c!"0")
      | .notes => (true, some c!"1", some c!"1")
      | .todo => (true, some c!"1", some c!"2")
      | .unused => (true, some c!"1", some c!"0") := by
  obtain ⟨u, ty, chTy, h1, _, _, h4, _, h6, h7, _⟩ := buildChapter_ok hs
  have hu : hasTag c!"Unused" r = u := hasTag_flagSel hr h4 (hk.plain _ (by decide)).1
  have text : ∀ t ∈ chapterTextTags, ∀ v, PlainStr v → v ≠ [] →
      sel t out = alwaysSel t (some v) (sel t ks) → textOf t r = some v := by
    intro t ht v hv hn h
    rw [textOf_alwaysSel hr h (hk.plain _ ht).2 (Or.inr (by intro w hw; simp at hw; subst hw; exact hv))]
    exact readText_ne hn
  unfold chapterMarks
  rw [hasTag_any, hu]
  rw [hc] at h1
  cases k <;>
    (simp only [ChapterKind.number, Option.getD_some, chTypeEncoding, List.getElem?_cons_zero,
      List.getElem?_cons_succ, Option.some.injEq, Prod.mk.injEq] at h1
     obtain ⟨rfl, rfl, rfl⟩ := h1
     rw [text c!"Type" (by decide) _ (by unfold PlainStr; decide) (by decide) h6,
       text c!"ChapterType" (by decide) _ (by unfold PlainStr; decide) (by decide) h7])

/-- **C13**: in the saved file exactly the scenes that are not normal ones are marked unused. -/
theorem C13_encoding (s : Scene) (ks out r : List Elem) (hk : SceneElement ks)
    (hs : sceneOut s ks = .ok out) (hr : ReloadedL out r) :
    sceneUnused r = decide (s.scType.getD 0 ≠ 0) := by
  obtain ⟨u, ty, h1, h2, h3⟩ := scene_Unused hs
  have hu : hasTag c!"Unused" r = u := hasTag_flagSel hr h2 (hk.plain _ (by decide)).1
  unfold sceneUnused
  rw [hasTag_any, hu]
  revert h1
  generalize s.scType.getD 0 = k
  intro h1
  match k, h1 with
  | 0, h1 => simp only [scTypeEncoding, List.getElem?_cons_zero, Option.some.injEq, Prod.mk.injEq] at h1; obtain ⟨rfl, rfl⟩ := h1; rfl
  | 1, h1 => simp only [scTypeEncoding, List.getElem?_cons_zero, List.getElem?_cons_succ, Option.some.injEq, Prod.mk.injEq] at h1; obtain ⟨rfl, rfl⟩ := h1; rfl
  | 2, h1 => simp only [scTypeEncoding, List.getElem?_cons_zero, List.getElem?_cons_succ, Option.some.injEq, Prod.mk.injEq] at h1; obtain ⟨rfl, rfl⟩ := h1; rfl
  | 3, h1 => simp only [scTypeEncoding, List.getElem?_cons_zero, List.getElem?_cons_succ, Option.some.injEq, Prod.mk.injEq] at h1; obtain ⟨rfl, rfl⟩ := h1; rfl
  | k + 4, h1 => simp [scTypeEncoding] at h1

/-- A chapter element that was a notes chapter becomes a normal one. -/
example : ∃ out, buildChapter { title := some c!"A", chType := some 0 }
      [leaf c!"ID" (some c!"1"), leaf c!"Unused" (some c!"-1"), leaf c!"Type" (some c!"1"),
       leaf c!"ChapterType" (some c!"1")] = .ok out ∧
    chapterMarks (reloadL out) = (false, some c!"0", some c!"0") :=
  ⟨_, rfl, by decide +kernel⟩

end Verif
