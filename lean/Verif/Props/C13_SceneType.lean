/-
C13: scene type and export flag survive save and reload.

`sceneOut s ks` is what saving makes of the children `ks` of a scene element (for a new scene
`[<ID>]`), `ReloadedL out r` says that `r` are the children the next reading gets to see, and
`readScene` reads them.
-/
import Verif.Lemmas.Yw7Scene2
import Verif.Lemmas.Reload

namespace Verif
open Xml Elem Spec

theorem plainOnce_leaf {ts : List Str} {ks : List Elem} (h : PlainOnce ts ks) {t : Str} (ht : t ∈ ts) :
    ∀ e ∈ sel t ks, e.kids = [] := (h t ht).2

/-- The element of a new scene. -/
theorem newScene (id : Str) : SceneElement [leaf c!"ID" (some id)] := by
  have h : ∀ t, t ≠ c!"ID" → sel t [leaf c!"ID" (some id)] = [] := by
    intro t ht
    simp only [sel, List.filter_cons, List.filter_nil, leaf, Elem.tag_node]
    simp [Ne.symm ht]
  refine ⟨?_, ?_, ?_, ?_⟩
  · intro t ht
    have : sel t [leaf c!"ID" (some id)] = [] := h t (by
      intro he; subst he; exact absurd ht (by decide))
    rw [this]; exact ⟨by simp, by simp⟩
  · rw [h _ (by decide)]; simp
  · intro t ht
    have : sel t [leaf c!"ID" (some id)] = [] := h t (by
      intro he; subst he; exact absurd ht (by decide))
    rw [this]; simp
  · rw [h _ (by decide)]; simp

/-! ### C13 -/

theorem typeKids_text {fk out r : List Elem} {v : Option Str} (hr : ReloadedL out r)
    (hs : sel c!"Field_SceneType" out = match v with
      | none => (sel c!"Field_SceneType" fk).tail
      | some v => alwaysSel c!"Field_SceneType" (some v) (sel c!"Field_SceneType" fk))
    (hp : (sel c!"Field_SceneType" fk).length ≤ 1 ∧ ∀ e ∈ sel c!"Field_SceneType" fk, e.kids = [])
    (hv : ∀ s, v = some s → PlainStr s ∧ s ≠ []) : textOf c!"Field_SceneType" r = v := by
  cases v with
  | none =>
    exact textOf_of_sel_nil (reloaded_sel_nil hr (by rw [hs]; exact tail_of_le_one hp.1))
  | some v =>
    rw [textOf_alwaysSel hr hs hp.2 (Or.inr (fun s hs => by cases hs; exact (hv v rfl).1))]
    exact readText_ne (hv v rfl).2

theorem headKids_sceneTypeSel (ty : Option Str) (l : List Elem) :
    headKids (sceneTypeSel ty l) = match ty with
      | none => removeFirst c!"Field_SceneType" (headKids l)
      | some v => putAlways c!"Field_SceneType" (some v) (headKids l) := by
  cases ty with
  | none => exact headKids_onFieldsSel rfl l
  | some v => exact headKids_ensure _ l

theorem length_sceneTypeSel (ty : Option Str) {l : List Elem} (h : l.length ≤ 1) :
    (sceneTypeSel ty l).length ≤ 1 := by
  cases ty with
  | none => exact Nat.le_trans (Nat.le_of_eq (length_onFieldsSel _ l)) h
  | some v => exact Nat.le_trans (Nat.le_of_eq (length_onFieldsSel _ _)) (length_ensureSel h)

theorem headKids_plain {ts : List Str} {ks : List Elem}
    (h : ∀ f ∈ sel c!"Fields" ks, PlainOnce ts f.kids) : PlainOnce ts (headKids (sel c!"Fields" ks)) := by
  revert h
  generalize sel c!"Fields" ks = l
  intro h
  cases l with
  | nil => intro t _; exact ⟨by simp [headKids, sel], by simp [headKids, sel]⟩
  | cons f r => exact h f (by simp)

theorem readSceneType_eq {ks : List Elem} (h : (sel c!"Fields" ks).length ≤ 1) :
    readSceneType ks =
      let ty := if textOf c!"Field_SceneType" (headKids (sel c!"Fields" ks)) = some c!"1" then 1
        else if textOf c!"Field_SceneType" (headKids (sel c!"Fields" ks)) = some c!"2" then 2 else 0
      if hasTag c!"Unused" ks ∧ ty = 0 then 3 else ty := by
  have h5 : fieldSceneType (sel c!"Fields" ks) =
      (if textOf c!"Field_SceneType" (headKids (sel c!"Fields" ks)) = some c!"1" then 1
        else if textOf c!"Field_SceneType" (headKids (sel c!"Fields" ks)) = some c!"2" then 2 else 0) := by
    revert h
    generalize sel c!"Fields" ks = l
    intro h
    match l, h with
    | [], _ => rfl
    | [f], _ =>
      unfold fieldSceneType textOf headKids
      simp only [List.foldl_cons, List.foldl_nil]
      cases find c!"Field_SceneType" f.kids <;> rfl
  unfold readSceneType
  rw [← h5]

/-- The scene type and the export flag are read back as saved, whatever the scene element contained
before. -/
theorem C13_scene_type (s : Scene) (ks out r : List Elem) (hk : SceneElement ks)
    (hs : sceneOut s ks = .ok out) (hr : ReloadedL out r) :
    readSceneType r = s.scType.getD 0 ∧
    (∀ b, s.doNotExport = some b → readDoNotExport r = b) ∧
    (s.doNotExport = none → readDoNotExport r = readDoNotExport ks) := by
  refine ⟨?_, ?_, ?_⟩
  · obtain ⟨u, ty, h1, h2, h3⟩ := scene_Unused hs
    have hu : hasTag c!"Unused" r = u := hasTag_flagSel hr h2 (hk.plain _ (by decide)).1
    have hlen : (sel c!"Fields" r).length ≤ 1 := by
      rw [length_reloaded (hr.sel _), h3]
      exact length_customSel _ _ (length_customSel _ _ (length_sceneTypeSel _ hk.fieldsOnce))
    have hfk := reloaded_headKids (hr.sel c!"Fields")
    have hp := headKids_plain hk.fields c!"Field_SceneType" (by decide)
    have hty : textOf c!"Field_SceneType" (headKids (sel c!"Fields" r)) = ty := by
      refine typeKids_text (fk := headKids (sel c!"Fields" ks)) hfk ?_ hp ?_
      · rw [h3, headKids_customSel, headKids_customSel, sel_customKids_ne (by decide),
          sel_customKids_ne (by decide), headKids_sceneTypeSel]
        cases ty with
        | none => exact sel_removeFirst_self _ _
        | some v => exact sel_putAlways _ _ _
      · intro v hv
        subst hv
        have hm := List.mem_of_getElem? h1
        simp only [scTypeEncoding, List.mem_cons, Prod.mk.injEq, List.not_mem_nil, or_false] at hm
        rcases hm with h | h | h | h
        · simp at h
        · obtain ⟨_, h⟩ := h; simp only [Option.some.injEq] at h; subst h
          exact ⟨by unfold PlainStr; decide, by decide⟩
        · obtain ⟨_, h⟩ := h; simp only [Option.some.injEq] at h; subst h
          exact ⟨by unfold PlainStr; decide, by decide⟩
        · obtain ⟨_, h⟩ := h; simp only [Option.some.injEq] at h; subst h
          exact ⟨by unfold PlainStr; decide, by decide⟩
    rw [readSceneType_eq hlen, hu, hty]
    revert h1
    generalize s.scType.getD 0 = k
    intro h1
    match k, h1 with
    | 0, h1 => simp only [scTypeEncoding, List.getElem?_cons_zero, Option.some.injEq, Prod.mk.injEq] at h1; obtain ⟨rfl, rfl⟩ := h1; rfl
    | 1, h1 => simp only [scTypeEncoding, List.getElem?_cons_zero, List.getElem?_cons_succ, Option.some.injEq, Prod.mk.injEq] at h1; obtain ⟨rfl, rfl⟩ := h1; rfl
    | 2, h1 => simp only [scTypeEncoding, List.getElem?_cons_zero, List.getElem?_cons_succ, Option.some.injEq, Prod.mk.injEq] at h1; obtain ⟨rfl, rfl⟩ := h1; rfl
    | 3, h1 => simp only [scTypeEncoding, List.getElem?_cons_zero, List.getElem?_cons_succ, Option.some.injEq, Prod.mk.injEq] at h1; obtain ⟨rfl, rfl⟩ := h1; rfl
    | k + 4, h1 => simp [scTypeEncoding] at h1
  · intro b hb
    obtain ⟨h1, h2⟩ := scene_export hs
    unfold readDoNotExport
    rw [hr.hasTag, hr.hasTag, hasTag_eq, hasTag_eq, h1, h2, hb]
    have h3 := (hk.plain c!"ExportWhenRTF" (by decide)).1
    cases b with
    | true =>
      rw [show rtfSel (some true) (sel c!"ExportCondSpecific" ks) (sel c!"ExportWhenRTF" ks)
        = (sel c!"ExportWhenRTF" ks).tail from rfl, tail_of_le_one h3]
      cases sel c!"ExportCondSpecific" ks <;> rfl
    | false =>
      unfold condSel rtfSel
      simp only [Option.some.injEq, Bool.false_eq_true, if_false]
      cases sel c!"ExportCondSpecific" ks with
      | nil => rfl
      | cons e q =>
        simp only [List.cons_ne_nil, if_false]
        cases sel c!"ExportWhenRTF" ks <;> rfl
  · intro hb
    obtain ⟨h1, h2⟩ := scene_export hs
    unfold readDoNotExport
    rw [hr.hasTag, hr.hasTag, hasTag_eq, hasTag_eq, hasTag_eq, hasTag_eq, h1, h2, hb]
    rfl

/-- Every type from Normal (0) to Unused (3) can be saved; a larger number raises `IndexError`. -/
theorem C13_types (s : Scene) (ks : List Elem) :
    (4 ≤ s.scType.getD 0 → sceneOut s ks = .error .indexError) ∧
    (s.scType.getD 0 ≤ 3 → sceneOut s ks ≠ .error .indexError) := by
  constructor
  · intro h
    unfold sceneOut buildScene
    have : scTypeEncoding[s.scType.getD 0]? = none := by
      rw [List.getElem?_eq_none_iff]; exact h
    rw [this]
  · intro h he
    unfold sceneOut buildScene at he
    have hlt : s.scType.getD 0 < scTypeEncoding.length := Nat.lt_succ_of_le h
    rw [List.getElem?_eq_getElem hlt] at he
    generalize scTypeEncoding[s.scType.getD 0] = p at he
    obtain ⟨u, ty⟩ := p
    simp only at he
    cases hp : putStart s.date s.time s.day (buildSceneA s u ty ks) with
    | ok k => rw [hp] at he; simp at he
    | error x =>
      rw [hp] at he
      simp only [Except.error.injEq] at he
      subst he
      unfold putStart at hp
      split at hp
      · dsimp only at hp; split at hp
        · simp at hp
        · split at hp <;> simp at hp
      · split at hp
        · simp at hp
        · split at hp
          · simp at hp
          · dsimp only at hp; split at hp
            · simp at hp
            · split at hp <;> simp at hp

end Verif
