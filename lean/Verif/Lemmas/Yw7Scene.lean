import Verif.Lemmas.Yw7Tree
import Verif.Model.Yw7Read

namespace Verif
open Xml Elem Spec

/-- Removes the steps that touch other tags. -/
macro "frame" : tactic => `(tactic| simp (disch := decide) only [
  sel_putText_ne, sel_putAlways_ne, sel_putNew_ne, sel_addMissing_ne, sel_setElement_ne,
  sel_putFlag_ne, sel_putIds_ne, sel_removeFirst_ne, sel_setText_ne, sel_onFields_ne,
  sel_putCustom_ne, sel_putText, sel_putAlways, sel_putNew, sel_addMissing, sel_setElement,
  sel_putFlag, sel_putIds, sel_removeFirst_self, sel_onFields, sel_putCustom])

/-! ### The steps that are not instances of a pattern -/

theorem touches_putSceneType (v : Option Str) : Touches c!"Fields" (putSceneType v) := by
  intro p hp ks
  unfold putSceneType
  split
  · exact touches_onFields _ p hp ks
  · exact (touches_onFields _).comp touches_ensureFields p hp ks

theorem sel_putSceneType_ne {u : Str} (h : c!"Fields" ≠ u) (v : Option Str) (ks : List Elem) :
    Xml.sel u (putSceneType v ks) = Xml.sel u ks := (touches_putSceneType v).sel_ne h ks

def sceneTypeSel (v : Option Str) (l : List Elem) : List Elem :=
  match v with
  | none => onFieldsSel (removeFirst c!"Field_SceneType") l
  | some v => onFieldsSel (putAlways c!"Field_SceneType" (some v)) (ensureSel l)

theorem sel_putSceneType (v : Option Str) (ks : List Elem) :
    Xml.sel c!"Fields" (putSceneType v ks) = sceneTypeSel v (Xml.sel c!"Fields" ks) := by
  cases v with
  | none => exact sel_onFields _ _
  | some v =>
    show Xml.sel _ (onFields _ (ensureFields ks)) = onFieldsSel _ (ensureSel _)
    rw [sel_onFields, sel_ensureFields]

/-- Elements whose tags satisfy `p` are unchanged if `p` excludes the two export tags. -/
theorem filter_putExport {p : Str → Bool} (h1 : p c!"ExportCondSpecific" = false)
    (h2 : p c!"ExportWhenRTF" = false) (b : Option Bool) (ks : List Elem) :
    (putExport b ks).filter (fun e => p e.tag) = ks.filter (fun e => p e.tag) := by
  unfold putExport
  split
  · rfl
  · rw [touches_removeFirst _ p h2, touches_addMissing _ _ p h1]
  · split
    · exact touches_addMissing _ _ p h2 ks
    · rfl

theorem sel_putExport_ne {u : Str} (h : c!"ExportCondSpecific" ≠ u ∧ c!"ExportWhenRTF" ≠ u)
    (b : Option Bool) (ks : List Elem) : Xml.sel u (putExport b ks) = Xml.sel u ks := by
  unfold Xml.sel
  exact filter_putExport (p := fun x => decide (x = u)) (by simp [h.1]) (by simp [h.2]) b ks

def condSel (b : Option Bool) (lc : List Elem) : List Elem :=
  if b = some true then missSel c!"ExportCondSpecific" none lc else lc

def rtfSel (b : Option Bool) (lc lr : List Elem) : List Elem :=
  match b with
  | none => lr
  | some true => lr.tail
  | some false => if lc = [] then lr else missSel c!"ExportWhenRTF" (some c!"-1") lr

theorem sel_putExport_cond (b : Option Bool) (ks : List Elem) :
    Xml.sel c!"ExportCondSpecific" (putExport b ks) = condSel b (Xml.sel c!"ExportCondSpecific" ks) := by
  match b with
  | none => rfl
  | some true =>
    show Xml.sel _ (removeFirst _ (addMissing _ none ks)) = _
    rw [sel_removeFirst_ne (by decide), sel_addMissing]
    rfl
  | some false =>
    show Xml.sel _ (if _ then _ else _) = _
    unfold condSel
    simp only [Option.some.injEq, Bool.false_eq_true, if_false]
    split
    · exact sel_addMissing_ne (by decide) _ _
    · rfl

theorem sel_putExport_rtf (b : Option Bool) (ks : List Elem) :
    Xml.sel c!"ExportWhenRTF" (putExport b ks)
      = rtfSel b (Xml.sel c!"ExportCondSpecific" ks) (Xml.sel c!"ExportWhenRTF" ks) := by
  match b with
  | none => rfl
  | some true =>
    show Xml.sel _ (removeFirst _ (addMissing _ none ks)) = _
    rw [sel_removeFirst_self, sel_addMissing_ne (by decide)]
    rfl
  | some false =>
    show Xml.sel _ (if _ then _ else _) = (if _ then _ else _)
    rw [hasTag_eq]
    cases hc : Xml.sel c!"ExportCondSpecific" ks with
    | nil => rfl
    | cons e r => simp only [List.isEmpty_cons, Bool.not_false, if_true]; rw [sel_addMissing]; rfl

/-- The tags of the scene start. -/
def dateTags : List Str :=
  [c!"SpecificDateTime", c!"SpecificDateMode", c!"Day", c!"Hour", c!"Minute"]

theorem filter_removeDateTime {p : Str → Bool} (hp : ∀ t ∈ dateTags, p t = false) (ks : List Elem) :
    (removeDateTime ks).filter (fun e => p e.tag) = ks.filter (fun e => p e.tag) := by
  unfold removeDateTime
  rw [filter_removeFirst (hp _ (by decide)), filter_removeFirst (hp _ (by decide)),
    filter_removeFirst (hp _ (by decide)), filter_removeFirst (hp _ (by decide)),
    filter_removeFirst (hp _ (by decide))]

theorem filter_putStart {p : Str → Bool} (hp : ∀ t ∈ dateTags, p t = false) {d t y : Option Str}
    {ks ks' : List Elem} (h : putStart d t y ks = .ok ks') :
    ks'.filter (fun e => p e.tag) = ks.filter (fun e => p e.tag) := by
  unfold putStart at h
  split at h
  · dsimp only at h
    split at h
    · cases h; exact filter_removeDateTime hp ks
    · split at h
      · cases h; exact filter_modFirst (hp _ (by decide)) (by simp) ks
      · cases h
        rw [filter_removeFirst (hp _ (by decide)), filter_removeFirst (hp _ (by decide)),
          filter_removeFirst (hp _ (by decide)),
          filter_append_one (e := leaf c!"SpecificDateMode" _) (hp c!"SpecificDateMode" (by decide)),
          filter_append_one (e := leaf c!"SpecificDateTime" _) (hp c!"SpecificDateTime" (by decide))]
  · split at h
    · cases h; rfl
    · split at h
      · cases h; exact filter_removeDateTime hp ks
      · have h0 : (putAlways c!"Day" y (removeFirst c!"SpecificDateMode"
            (removeFirst c!"SpecificDateTime" ks))).filter (fun e => p e.tag)
            = ks.filter (fun e => p e.tag) := by
          rw [touches_putAlways _ _ p (hp _ (by decide)), filter_removeFirst (hp _ (by decide)),
            filter_removeFirst (hp _ (by decide))]
        dsimp only at h
        split at h
        · cases h; exact h0
        · split at h
          · cases h
            rw [touches_putAlways _ _ p (hp _ (by decide)), touches_putAlways _ _ p (hp _ (by decide)),
              h0]
          · cases h

theorem sel_putStart {u : Str} (hu : u ∉ dateTags) {d t y : Option Str}
    {ks ks' : List Elem} (h : putStart d t y ks = .ok ks') : Xml.sel u ks' = Xml.sel u ks := by
  unfold Xml.sel
  refine filter_putStart (p := fun x => decide (x = u)) ?_ h
  intro t ht
  simp only [decide_eq_false_iff_not]
  intro he; subst he; exact hu ht

/-! ### The parts of `build_scene_subtree` -/

theorem sceneOut_ok {s : Scene} {ks out : List Elem} (h : sceneOut s ks = .ok out) :
    ∃ unused ty mid, scTypeEncoding[s.scType.getD 0]? = some (unused, ty) ∧
      putStart s.date s.time s.day (buildSceneA s unused ty ks) = .ok mid ∧
      out = finishScene s.sceneContent (buildSceneB s mid) := by
  unfold sceneOut buildScene at h
  cases he : scTypeEncoding[s.scType.getD 0]? with
  | none => rw [he] at h; simp at h
  | some p =>
    obtain ⟨u, ty⟩ := p
    rw [he] at h
    simp only at h
    cases hp : putStart s.date s.time s.day (buildSceneA s u ty ks) with
    | error x => rw [hp] at h; simp at h
    | ok mid =>
      rw [hp] at h
      simp only [Except.ok.injEq] at h
      exact ⟨u, ty, mid, rfl, hp, h.symm⟩

/-- Tags touched by the last pass. -/
theorem sel_finishScene_ne {u : Str} (h : c!"SceneContent" ≠ u ∧ c!"WordCount" ≠ u ∧
    c!"LetterCount" ≠ u ∧ c!"RTFFile" ≠ u ∧ c!"BelongsToChID" ≠ u) (c : Option Str) (ks : List Elem) :
    Xml.sel u (finishScene c ks) = Xml.sel u ks := by
  obtain ⟨h1, h2, h3, h4, h5⟩ := h
  unfold finishScene
  rw [sel_removeFirst_ne h5, sel_removeFirst_ne h4, sel_removeFirst_ne h3, sel_removeFirst_ne h2]
  cases c with
  | none => rfl
  | some c => exact sel_setText_ne h1 _ _

macro "frameA" : tactic => `(tactic| (unfold buildSceneA; simp (disch := decide) only [
  sel_putText_ne, sel_putAlways_ne, sel_addMissing_ne, sel_setElement_ne,
  sel_putFlag_ne, sel_putCustom_ne, sel_putSceneType_ne, sel_putExport_ne,
  sel_putText, sel_putAlways, sel_addMissing, sel_setElement, sel_putFlag, sel_putCustom,
  sel_putSceneType]))

macro "frameA0" : tactic => `(tactic| simp (disch := decide) only [
  sel_putText_ne, sel_putAlways_ne, sel_addMissing_ne, sel_setElement_ne,
  sel_putFlag_ne, sel_putCustom_ne, sel_putSceneType_ne])

macro "frameB" : tactic => `(tactic| (unfold buildSceneB; frame))

theorem scene_Title {s : Scene} {ks out : List Elem} (h : sceneOut s ks = .ok out) :
    Xml.sel c!"Title" out = alwaysSel c!"Title" s.title (Xml.sel c!"Title" ks) := by
  obtain ⟨u, ty, mid, _, h2, h3⟩ := sceneOut_ok h
  subst h3
  rw [sel_finishScene_ne (by decide)]
  frameB
  rw [sel_putStart (by decide) h2]
  frameA

theorem scene_Desc {s : Scene} {ks out : List Elem} (h : sceneOut s ks = .ok out) :
    Xml.sel c!"Desc" out = textSel c!"Desc" s.desc (Xml.sel c!"Desc" ks) := by
  obtain ⟨u, ty, mid, _, h2, h3⟩ := sceneOut_ok h
  subst h3
  rw [sel_finishScene_ne (by decide)]
  frameB
  rw [sel_putStart (by decide) h2]
  frameA

theorem scene_Notes {s : Scene} {ks out : List Elem} (h : sceneOut s ks = .ok out) :
    Xml.sel c!"Notes" out = textSel c!"Notes" s.notes (Xml.sel c!"Notes" ks) := by
  obtain ⟨u, ty, mid, _, h2, h3⟩ := sceneOut_ok h
  subst h3
  rw [sel_finishScene_ne (by decide)]
  frameB
  rw [sel_putStart (by decide) h2]
  frameA

theorem scene_Tags {s : Scene} {ks out : List Elem} (h : sceneOut s ks = .ok out) :
    Xml.sel c!"Tags" out = textSel c!"Tags" (s.tags.map (fun l => listToString (some l) c!";")) (Xml.sel c!"Tags" ks) := by
  obtain ⟨u, ty, mid, _, h2, h3⟩ := sceneOut_ok h
  subst h3
  rw [sel_finishScene_ne (by decide)]
  frameB
  rw [sel_putStart (by decide) h2]
  frameA

theorem scene_Field1 {s : Scene} {ks out : List Elem} (h : sceneOut s ks = .ok out) :
    Xml.sel c!"Field1" out = textSel c!"Field1" s.field1 (Xml.sel c!"Field1" ks) := by
  obtain ⟨u, ty, mid, _, h2, h3⟩ := sceneOut_ok h
  subst h3
  rw [sel_finishScene_ne (by decide)]
  frameB
  rw [sel_putStart (by decide) h2]
  frameA

theorem scene_Field2 {s : Scene} {ks out : List Elem} (h : sceneOut s ks = .ok out) :
    Xml.sel c!"Field2" out = textSel c!"Field2" s.field2 (Xml.sel c!"Field2" ks) := by
  obtain ⟨u, ty, mid, _, h2, h3⟩ := sceneOut_ok h
  subst h3
  rw [sel_finishScene_ne (by decide)]
  frameB
  rw [sel_putStart (by decide) h2]
  frameA

theorem scene_Field3 {s : Scene} {ks out : List Elem} (h : sceneOut s ks = .ok out) :
    Xml.sel c!"Field3" out = textSel c!"Field3" s.field3 (Xml.sel c!"Field3" ks) := by
  obtain ⟨u, ty, mid, _, h2, h3⟩ := sceneOut_ok h
  subst h3
  rw [sel_finishScene_ne (by decide)]
  frameB
  rw [sel_putStart (by decide) h2]
  frameA

theorem scene_Field4 {s : Scene} {ks out : List Elem} (h : sceneOut s ks = .ok out) :
    Xml.sel c!"Field4" out = textSel c!"Field4" s.field4 (Xml.sel c!"Field4" ks) := by
  obtain ⟨u, ty, mid, _, h2, h3⟩ := sceneOut_ok h
  subst h3
  rw [sel_finishScene_ne (by decide)]
  frameB
  rw [sel_putStart (by decide) h2]
  frameA

theorem scene_LastsDays {s : Scene} {ks out : List Elem} (h : sceneOut s ks = .ok out) :
    Xml.sel c!"LastsDays" out = textSel c!"LastsDays" s.lastsDays (Xml.sel c!"LastsDays" ks) := by
  obtain ⟨u, ty, mid, _, h2, h3⟩ := sceneOut_ok h
  subst h3
  rw [sel_finishScene_ne (by decide)]
  frameB
  rw [sel_putStart (by decide) h2]
  frameA

theorem scene_LastsHours {s : Scene} {ks out : List Elem} (h : sceneOut s ks = .ok out) :
    Xml.sel c!"LastsHours" out = textSel c!"LastsHours" s.lastsHours (Xml.sel c!"LastsHours" ks) := by
  obtain ⟨u, ty, mid, _, h2, h3⟩ := sceneOut_ok h
  subst h3
  rw [sel_finishScene_ne (by decide)]
  frameB
  rw [sel_putStart (by decide) h2]
  frameA

theorem scene_LastsMinutes {s : Scene} {ks out : List Elem} (h : sceneOut s ks = .ok out) :
    Xml.sel c!"LastsMinutes" out = textSel c!"LastsMinutes" s.lastsMinutes (Xml.sel c!"LastsMinutes" ks) := by
  obtain ⟨u, ty, mid, _, h2, h3⟩ := sceneOut_ok h
  subst h3
  rw [sel_finishScene_ne (by decide)]
  frameB
  rw [sel_putStart (by decide) h2]
  frameA

theorem scene_Goal {s : Scene} {ks out : List Elem} (h : sceneOut s ks = .ok out) :
    Xml.sel c!"Goal" out = textSel c!"Goal" s.goal (Xml.sel c!"Goal" ks) := by
  obtain ⟨u, ty, mid, _, h2, h3⟩ := sceneOut_ok h
  subst h3
  rw [sel_finishScene_ne (by decide)]
  frameB
  rw [sel_putStart (by decide) h2]
  frameA

theorem scene_Conflict {s : Scene} {ks out : List Elem} (h : sceneOut s ks = .ok out) :
    Xml.sel c!"Conflict" out = textSel c!"Conflict" s.conflict (Xml.sel c!"Conflict" ks) := by
  obtain ⟨u, ty, mid, _, h2, h3⟩ := sceneOut_ok h
  subst h3
  rw [sel_finishScene_ne (by decide)]
  frameB
  rw [sel_putStart (by decide) h2]
  frameA

theorem scene_Outcome {s : Scene} {ks out : List Elem} (h : sceneOut s ks = .ok out) :
    Xml.sel c!"Outcome" out = textSel c!"Outcome" s.outcome (Xml.sel c!"Outcome" ks) := by
  obtain ⟨u, ty, mid, _, h2, h3⟩ := sceneOut_ok h
  subst h3
  rw [sel_finishScene_ne (by decide)]
  frameB
  rw [sel_putStart (by decide) h2]
  frameA

theorem scene_ImageFile {s : Scene} {ks out : List Elem} (h : sceneOut s ks = .ok out) :
    Xml.sel c!"ImageFile" out = textSel c!"ImageFile" s.image (Xml.sel c!"ImageFile" ks) := by
  obtain ⟨u, ty, mid, _, h2, h3⟩ := sceneOut_ok h
  subst h3
  rw [sel_finishScene_ne (by decide)]
  frameB
  rw [sel_putStart (by decide) h2]
  frameA

theorem scene_Status {s : Scene} {ks out : List Elem} (h : sceneOut s ks = .ok out) :
    Xml.sel c!"Status" out = alwaysSel c!"Status" (s.status.map Str.ofInt) (Xml.sel c!"Status" ks) := by
  obtain ⟨u, ty, mid, _, h2, h3⟩ := sceneOut_ok h
  subst h3
  rw [sel_finishScene_ne (by decide)]
  frameB
  rw [sel_putStart (by decide) h2]
  frameA

theorem scene_AppendToPrev {s : Scene} {ks out : List Elem} (h : sceneOut s ks = .ok out) :
    Xml.sel c!"AppendToPrev" out = flagSel c!"AppendToPrev" (s.appendToPrev.getD false) (Xml.sel c!"AppendToPrev" ks) := by
  obtain ⟨u, ty, mid, _, h2, h3⟩ := sceneOut_ok h
  subst h3
  rw [sel_finishScene_ne (by decide)]
  frameB
  rw [sel_putStart (by decide) h2]
  frameA

theorem scene_ReactionScene {s : Scene} {ks out : List Elem} (h : sceneOut s ks = .ok out) :
    Xml.sel c!"ReactionScene" out = flagSel c!"ReactionScene" (s.isReactionScene.getD false) (Xml.sel c!"ReactionScene" ks) := by
  obtain ⟨u, ty, mid, _, h2, h3⟩ := sceneOut_ok h
  subst h3
  rw [sel_finishScene_ne (by decide)]
  frameB
  rw [sel_putStart (by decide) h2]
  frameA

theorem scene_SubPlot {s : Scene} {ks out : List Elem} (h : sceneOut s ks = .ok out) :
    Xml.sel c!"SubPlot" out = flagSel c!"SubPlot" (s.isSubPlot.getD false) (Xml.sel c!"SubPlot" ks) := by
  obtain ⟨u, ty, mid, _, h2, h3⟩ := sceneOut_ok h
  subst h3
  rw [sel_finishScene_ne (by decide)]
  frameB
  rw [sel_putStart (by decide) h2]
  frameA

theorem scene_Characters {s : Scene} {ks out : List Elem} (h : sceneOut s ks = .ok out) :
    Xml.sel c!"Characters" out = idsSel c!"Characters" c!"CharID" (s.characters.getD []) (Xml.sel c!"Characters" ks) := by
  obtain ⟨u, ty, mid, _, h2, h3⟩ := sceneOut_ok h
  subst h3
  rw [sel_finishScene_ne (by decide)]
  frameB
  rw [sel_putStart (by decide) h2]
  frameA

theorem scene_Locations {s : Scene} {ks out : List Elem} (h : sceneOut s ks = .ok out) :
    Xml.sel c!"Locations" out = idsSel c!"Locations" c!"LocID" (s.locations.getD []) (Xml.sel c!"Locations" ks) := by
  obtain ⟨u, ty, mid, _, h2, h3⟩ := sceneOut_ok h
  subst h3
  rw [sel_finishScene_ne (by decide)]
  frameB
  rw [sel_putStart (by decide) h2]
  frameA

theorem scene_Items {s : Scene} {ks out : List Elem} (h : sceneOut s ks = .ok out) :
    Xml.sel c!"Items" out = idsSel c!"Items" c!"ItmID" (s.items.getD []) (Xml.sel c!"Items" ks) := by
  obtain ⟨u, ty, mid, _, h2, h3⟩ := sceneOut_ok h
  subst h3
  rw [sel_finishScene_ne (by decide)]
  frameB
  rw [sel_putStart (by decide) h2]
  frameA

theorem scene_Unused {s : Scene} {ks out : List Elem} (h : sceneOut s ks = .ok out) :
    ∃ unused ty, scTypeEncoding[s.scType.getD 0]? = some (unused, ty) ∧
      Xml.sel c!"Unused" out = flagSel c!"Unused" unused (Xml.sel c!"Unused" ks) ∧
      Xml.sel c!"Fields" out = customSel c!"Field_SceneMode" ((s.kwVar.get? c!"Field_SceneMode").join)
        (customSel c!"Field_SceneArcs" ((s.kwVar.get? c!"Field_SceneArcs").join)
          (sceneTypeSel ty (Xml.sel c!"Fields" ks))) := by
  obtain ⟨u, ty, mid, h1, h2, h3⟩ := sceneOut_ok h
  refine ⟨u, ty, h1, ?_, ?_⟩
  · subst h3
    rw [sel_finishScene_ne (by decide)]
    frameB
    rw [sel_putStart (by decide) h2]
    frameA
  · subst h3
    rw [sel_finishScene_ne (by decide)]
    frameB
    rw [sel_putStart (by decide) h2]
    frameA

theorem scene_export {s : Scene} {ks out : List Elem} (h : sceneOut s ks = .ok out) :
    Xml.sel c!"ExportCondSpecific" out = condSel s.doNotExport (Xml.sel c!"ExportCondSpecific" ks) ∧
      Xml.sel c!"ExportWhenRTF" out = rtfSel s.doNotExport (Xml.sel c!"ExportCondSpecific" ks)
        (Xml.sel c!"ExportWhenRTF" ks) := by
  obtain ⟨u, ty, mid, _, h2, h3⟩ := sceneOut_ok h
  subst h3
  refine ⟨?_, ?_⟩
  · rw [sel_finishScene_ne (by decide)]
    frameB
    rw [sel_putStart (by decide) h2]
    frameA
    simp only [sel_putExport_cond]
    frameA0
  · rw [sel_finishScene_ne (by decide)]
    frameB
    rw [sel_putStart (by decide) h2]
    frameA
    simp only [sel_putExport_rtf]
    frameA0

theorem scene_SceneContent {s : Scene} {ks out : List Elem} (h : sceneOut s ks = .ok out) :
    Xml.sel c!"SceneContent" out = (match s.sceneContent with
      | none => missSel c!"SceneContent" none (Xml.sel c!"SceneContent" ks)
      | some c => setHead c (missSel c!"SceneContent" (some c) (Xml.sel c!"SceneContent" ks))) := by
  obtain ⟨u, ty, mid, _, h2, h3⟩ := sceneOut_ok h
  subst h3
  have e1 : Xml.sel c!"SceneContent" (buildSceneB s mid)
      = missSel c!"SceneContent" s.sceneContent (Xml.sel c!"SceneContent" ks) := by
    frameB
    rw [sel_putStart (by decide) h2]
    frameA
  unfold finishScene
  simp (disch := decide) only [sel_removeFirst_ne]
  cases hc : s.sceneContent with
  | none => simp only; rw [e1, hc]
  | some c => simp only; rw [sel_setText, e1, hc]

theorem scene_ID {s : Scene} {ks out : List Elem} (h : sceneOut s ks = .ok out) :
    Xml.sel c!"ID" out = Xml.sel c!"ID" ks := by
  obtain ⟨u, ty, mid, _, h2, h3⟩ := sceneOut_ok h
  subst h3
  rw [sel_finishScene_ne (by decide)]
  frameB
  rw [sel_putStart (by decide) h2]
  frameA

end Verif
