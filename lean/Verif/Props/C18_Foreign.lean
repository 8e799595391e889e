/-
C18: saving keeps the elements PyWriter does not manage.
-/
import Verif.Props.C14_Chapters
import Verif.Props.C13_SceneType

namespace Verif
open Xml Elem Spec

theorem foreign_pred (m : List Str) : ∀ t ∈ m, (fun x => decide (x ∉ m)) t = false := by
  intro t ht; simp [ht]

theorem foreign_of {m : List Str} {a b : List Elem}
    (h : ∀ p : Str → Bool, (∀ t ∈ m, p t = false) →
      a.filter (fun e => p e.tag) = b.filter (fun e => p e.tag)) : foreign m a = foreign m b :=
  h _ (foreign_pred m)

theorem filter_buildSceneA {p : Str → Bool} (hp : ∀ t ∈ managedScene, p t = false) (s : Scene) (u : Bool)
    (ty : Option Str) (ks : List Elem) :
    (buildSceneA s u ty ks).filter (fun e => p e.tag) = ks.filter (fun e => p e.tag) := by
  unfold buildSceneA
  rw [touches_putFlag _ _ p (hp _ (by decide)), touches_putText _ _ p (hp _ (by decide)),
    touches_putText _ _ p (hp _ (by decide)), touches_putText _ _ p (hp _ (by decide)),
    touches_putText _ _ p (hp _ (by decide)), touches_putText _ _ p (hp _ (by decide)),
    touches_putText _ _ p (hp _ (by decide)), touches_putAlways _ _ p (hp _ (by decide)),
    touches_putCustom _ _ p (hp _ (by decide)), touches_putCustom _ _ p (hp _ (by decide)),
    filter_putExport (hp _ (by decide)) (hp _ (by decide)), touches_putSceneType _ p (hp _ (by decide)),
    touches_putFlag _ _ p (hp _ (by decide)), touches_addMissing _ _ p (hp _ (by decide)),
    touches_addMissing _ _ p (hp _ (by decide)), touches_addMissing _ _ p (hp _ (by decide)),
    touches_putText _ _ p (hp _ (by decide)), touches_setElement _ _ _ p (hp _ (by decide))]

theorem filter_buildSceneB {p : Str → Bool} (hp : ∀ t ∈ managedScene, p t = false) (s : Scene)
    (ks : List Elem) :
    (buildSceneB s ks).filter (fun e => p e.tag) = ks.filter (fun e => p e.tag) := by
  unfold buildSceneB
  rw [touches_putIds _ _ _ p (hp _ (by decide)), touches_putIds _ _ _ p (hp _ (by decide)),
    touches_putIds _ _ _ p (hp _ (by decide)), touches_putText _ _ p (hp _ (by decide)),
    touches_putText _ _ p (hp _ (by decide)), touches_putText _ _ p (hp _ (by decide)),
    touches_putText _ _ p (hp _ (by decide)), touches_putFlag _ _ p (hp _ (by decide)),
    touches_putFlag _ _ p (hp _ (by decide)), touches_putText _ _ p (hp _ (by decide)),
    touches_putText _ _ p (hp _ (by decide)), touches_putText _ _ p (hp _ (by decide))]

theorem filter_finishScene {p : Str → Bool} (hp : ∀ t ∈ managedScene, p t = false) (c : Option Str)
    (ks : List Elem) :
    (finishScene c ks).filter (fun e => p e.tag) = ks.filter (fun e => p e.tag) := by
  unfold finishScene
  rw [filter_removeFirst (hp _ (by decide)), filter_removeFirst (hp _ (by decide)),
    filter_removeFirst (hp _ (by decide)), filter_removeFirst (hp _ (by decide))]
  cases c with
  | none => rfl
  | some c => exact filter_modFirst (hp _ (by decide)) (by simp) ks

theorem fieldEntries_eq (ks : List Elem) : fieldEntries ks = headKids (sel c!"Fields" ks) := by
  unfold fieldEntries
  rw [find_eq]
  cases sel c!"Fields" ks <;> rfl

/-- **C18, scenes**: the elements of a scene element that PyWriter does not manage, and the entries of
its `Fields` element that PyWriter does not manage, are the same after saving, in the same order and
with the same contents, for every scene and every element. -/
theorem C18_scene (s : Scene) (ks out : List Elem) (hs : sceneOut s ks = .ok out) :
    foreign managedScene out = foreign managedScene ks ∧
    foreign managedSceneFields (fieldEntries out) = foreign managedSceneFields (fieldEntries ks) := by
  constructor
  · have hp := foreign_pred managedScene
    obtain ⟨u, ty, mid, _, h2, h3⟩ := sceneOut_ok hs
    subst h3
    unfold foreign
    rw [filter_finishScene hp, filter_buildSceneB hp,
      filter_putStart (p := fun x => decide (x ∉ managedScene)) ?_ h2, filter_buildSceneA hp]
    intro t ht
    refine hp t ?_
    simp only [dateTags, List.mem_cons, List.not_mem_nil, or_false] at ht
    rcases ht with rfl | rfl | rfl | rfl | rfl <;> decide
  · obtain ⟨u, ty, _, _, h3⟩ := scene_Unused hs
    rw [fieldEntries_eq, fieldEntries_eq, h3, headKids_customSel, headKids_customSel, headKids_sceneTypeSel]
    refine foreign_of ?_
    intro p hp
    rw [touches_customKids _ _ _ (hp _ (by decide)), touches_customKids _ _ _ (hp _ (by decide))]
    cases ty with
    | none => exact filter_removeFirst (hp _ (by decide)) _
    | some v => exact touches_putAlways _ _ _ (hp _ (by decide)) _

/-- **C18, chapters.** -/
theorem C18_chapter (c : Chapter) (ks out : List Elem) (hs : buildChapter c ks = .ok out) :
    foreign managedChapter out = foreign managedChapter ks ∧
    foreign managedChapterFields (fieldEntries out) = foreign managedChapterFields (fieldEntries ks) := by
  obtain ⟨u, ty, chTy, _, _, _, _, _, _, _, _, h9, _, _, h12⟩ := buildChapter_ok hs
  constructor
  · exact h12 _ (foreign_pred managedChapter)
  · rw [fieldEntries_eq, fieldEntries_eq, h9]
    refine foreign_of ?_
    intro p hp
    unfold chKids
    rw [touches_trashKids _ _ (hp _ (by decide)), touches_chFieldKids _ _ _ (hp _ (by decide)),
      touches_chFieldKids _ _ _ (hp _ (by decide))]

/-- **C18, project.** -/
theorem C18_project (n : Novel) (ks : List Elem) :
    foreign managedProject (buildProject n ks) = foreign managedProject ks ∧
    foreign managedProjectFields (fieldEntries (buildProject n ks))
      = foreign managedProjectFields (fieldEntries ks) := by
  constructor
  · refine foreign_of ?_
    intro p hp
    unfold buildProject
    rw [filter_removeFirst (hp _ (by decide)), filter_removeFirst (hp _ (by decide)),
      touches_onFields _ _ (hp _ (by decide)), touches_onFields _ _ (hp _ (by decide)),
      touches_putAlways _ _ _ (hp _ (by decide)), touches_putAlways _ _ _ (hp _ (by decide)),
      touches_putAlways _ _ _ (hp _ (by decide)), touches_putAlways _ _ _ (hp _ (by decide)),
      touches_putAlways _ _ _ (hp _ (by decide)), touches_putAlways _ _ _ (hp _ (by decide)),
      touches_putAlways _ _ _ (hp _ (by decide)), touches_putAlways _ _ _ (hp _ (by decide)),
      touches_putAlways _ _ _ (hp _ (by decide)), touches_putAlways _ _ _ (hp _ (by decide)),
      touches_putAlways _ _ _ (hp _ (by decide))]
  · rw [fieldEntries_eq, fieldEntries_eq]
    unfold buildProject
    simp (disch := decide) only [sel_removeFirst_ne, sel_onFields, sel_putAlways_ne]
    rw [headKids_onFieldsSel rfl, headKids_onFieldsSel rfl]
    refine foreign_of ?_
    intro p hp
    rw [filter_removeFirst (hp _ (by decide)), filter_removeFirst (hp _ (by decide))]

/-- The previous contents of the element in `exOld` of the scene theorems has foreign elements. -/
example : ∃ out, buildChapter exNewCh exOldCh = .ok out ∧
    foreign managedChapter out = [leaf c!"ID" (some c!"3"), leaf c!"Foreign" (some c!"x")] ∧
    foreign managedChapterFields (fieldEntries out) = [leaf c!"Field_Foreign" (some c!"y")] :=
  ⟨_, rfl, by rfl, by rfl⟩

end Verif
