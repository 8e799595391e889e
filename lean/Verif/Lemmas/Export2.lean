/-
Two facts used by C29: reading a project makes the scenes of set-aside chapters set aside; and the exporters'
mappings for a scene depend on no other scene.
-/
import Verif.Lemmas.Export
import Verif.Model.OdtWriters
import Verif.Props.C39_SceneTypes

namespace Verif
open Spec

/-! ### Reading a project -/

theorem readChapterType_le (ks : List Elem) : readChapterType ks = 0 ∨ setAside (some (readChapterType ks)) = true := by
  unfold readChapterType
  split
  · split
    · right; rfl
    · split
      · right; rfl
      · split
        · right; rfl
        · left; rfl
  · split
    · split
      · right; rfl
      · split
        · right; rfl
        · left; rfl
    · left; rfl

/-- All elements of a dictionary satisfy a predicate. -/
def AllVals {α : Type} (P : α → Prop) (d : Dict α) : Prop := ∀ k v, d.get? k = some v → P v

theorem AllVals.set {α : Type} {P : α → Prop} {d : Dict α} (h : AllVals P d) (k : Str) {v : α} (hv : P v) : AllVals P (d.set k v) := by
  intro x w hw
  rw [Dict.get?_set] at hw
  split at hw
  · cases hw; exact hv
  · exact h x w hw

theorem readEntries_all {α : Type} {P : α → Prop} {f : List Elem → Except Exc α} (hf : ∀ ks a, f ks = .ok a → P a) (es : List Elem) :
    ∀ acc r, AllVals P acc.2 → readEntries f acc es = .ok r → AllVals P r.2 := by
  induction es with
  | nil =>
    intro acc r h hr
    unfold readEntries at hr
    cases hr
    exact h
  | cons e es ih =>
    intro acc r h hr
    unfold readEntries at hr
    split at hr
    · cases hr
    · split at hr
      · cases hr
      · rename_i a ha
        exact ih _ r (h.set _ (hf _ a ha)) hr

theorem readSection_all {α : Type} {P : α → Prop} {f : List Elem → Except Exc α} (hf : ∀ ks a, f ks = .ok a → P a) {t : Str} {d : Dict α}
    {rk : List Elem} {r : List Str × Dict α} (hd : AllVals P d) (h : readSection t f d rk = .ok r) : AllVals P r.2 := by
  unfold readSection at h
  split at h
  · cases h
  · exact readEntries_all hf _ _ r hd h

/-- If all chapters have one of the four types, adjusting the scene types makes the scenes of set-aside chapters set aside. -/
theorem inherits_of_adjust {n n' : Novel} (hty : AllVals (fun c : Chapter => c.chType = some 0 ∨ setAside c.chType = true) n.chapters)
    (h : adjustSceneTypes n = .ok n') : Inherits n' := by
  obtain ⟨h1, _, h3⟩ := C39_effect n n' h
  have hc' : n'.chapters = n.chapters := by rw [h1]
  have ho' : n'.srtChapters = n.srtChapters := by rw [h1]
  intro chId ch scId s hch hget hset hsc hs
  rw [hc'] at hget
  rw [ho'] at hch
  rw [h3] at hs
  cases hso : n.scenes.get? scId with
  | none => rw [hso] at hs; cases hs
  | some s0 =>
    rw [hso] at hs
    have hmem : chId ∈ n.srtChapters.filter (fun b => nonNormal n b && decide (scId ∈ scenesOf n.chapters b)) := by
      rw [List.mem_filter]
      refine ⟨hch, ?_⟩
      simp only [Bool.and_eq_true, decide_eq_true_eq]
      constructor
      · unfold nonNormal
        rw [hget]
        simp only [decide_eq_true_eq]
        intro e
        rw [e] at hset
        cases hset
      · unfold scenesOf; rw [hget]; exact hsc
    cases hg : governing n scId with
    | none =>
      unfold governing at hg
      rw [List.getLast?_eq_none_iff] at hg
      rw [hg] at hmem
      simp at hmem
    | some b =>
      rw [hg] at hs
      simp only [Option.map_some, Option.some.injEq] at hs
      rw [← hs]
      have hb := List.mem_of_getLast? hg
      rw [List.mem_filter] at hb
      simp only [Bool.and_eq_true, decide_eq_true_eq] at hb
      have hnn := hb.2.1
      unfold nonNormal at hnn
      cases hcb : n.chapters.get? b with
      | none => rw [hcb] at hnn; cases hnn
      | some cb =>
        rw [hcb] at hnn
        simp only [decide_eq_true_eq] at hnn
        have : typeOf n b = cb.chType := by unfold typeOf; rw [hcb]; rfl
        simp only [this]
        rcases hty b cb hcb with e | e
        · exact absurd e hnn
        · exact e

/-- Every novel that was read from a project file has this property. -/
theorem readTree_inherits {lib : PyLib} {root : Elem} {n : Novel} (h : readTree lib root = .ok n) : Inherits n := by
  unfold readTree readRoot at h
  cases hf : Xml.find c!"PROJECT" root.kids with
  | none => rw [hf] at h; cases h
  | some prj =>
  rw [hf] at h
  obtain ⟨prj, _, h⟩ := bind_ok h
  obtain ⟨l, _, h⟩ := bind_ok h
  obtain ⟨i, _, h⟩ := bind_ok h
  obtain ⟨c, _, h⟩ := bind_ok h
  obtain ⟨s, _, h⟩ := bind_ok h
  obtain ⟨ch, hch, h⟩ := bind_ok h
  refine inherits_of_adjust ?_ h
  refine readSection_all (f := fun ks => .ok (readChapter s.2.keys ks)) ?_ ?_ hch
  · intro ks a ha
    cases ha
    simp only [readChapter]
    rcases readChapterType_le ks with e | e
    · left; rw [e]
    · right; exact e
  · intro k v hv
    cases hv

/-! ### Hidden scenes do not matter -/

/-- A scene that is set aside or marked "do not export". -/
def Spec.hiddenScene (s : Scene) : Bool := setAside s.scType || s.doNotExport == some true

/-- The two novels differ at most in hidden scenes, which keep their type and their mark. -/
structure Spec.SameButHidden (n n' : Novel) : Prop where
  rest : n' = { n with scenes := n'.scenes }
  scenes : ∀ id, n'.scenes.get? id = n.scenes.get? id ∨ ∃ s s', n.scenes.get? id = some s ∧ n'.scenes.get? id = some s' ∧
    hiddenScene s = true ∧ s'.scType = s.scType ∧ s'.doNotExport = s.doNotExport

/-- The mappings of an exporter depend only on the scene itself and on data outside the scenes. -/
structure LocalMappings (x : Exporter) : Prop where
  header : ∀ n d, x.headerMapping { n with scenes := d } = x.headerMapping n
  chapter : ∀ n d id k, x.chapterMapping { n with scenes := d } id k = x.chapterMapping n id k
  scene : ∀ (n : Novel) d id k w l, d.get? id = n.scenes.get? id → x.sceneMapping { n with scenes := d } id k w l = x.sceneMapping n id k w l

theorem get!_congr {α : Type} {d d' : Dict α} {k : Str} (h : d'.get? k = d.get? k) : d'.get! k = d.get! k := by
  unfold Dict.get!; rw [h]

theorem sceneTemplate_hidden {x : Templates} (hx : ManuscriptTemplates x) {ct : Option Nat} {ne first : Bool} {s : Scene}
    (h : hiddenScene s = true) : sceneTemplate x ct ne first s = none := by
  unfold sceneTemplate
  simp only [hx.todoScene, hx.notesScene, hx.unusedScene, hx.notExportedScene, if_true]
  by_cases h2 : s.scType = some 2
  · rw [if_pos h2]
  rw [if_neg h2]
  by_cases h1 : s.scType = some 1
  · rw [if_pos h1]
  rw [if_neg h1]
  by_cases h3 : s.scType = some 3 ∨ ct = some 3
  · rw [if_pos h3]
  rw [if_neg h3]
  have : s.doNotExport = some true := by
    unfold hiddenScene at h
    rw [Bool.or_eq_true] at h
    rcases h with h | h
    · simp only [not_or] at h3
      simp [setAside, h1, h2, h3.1] at h
    · simpa using h
  rw [if_pos (Or.inl this)]

theorem scenesLoop_hidden {x : Exporter} (hx : ManuscriptTemplates x.toTemplates) (hl : LocalMappings x) {n n' : Novel}
    (h : SameButHidden n n') (ct : Option Nat) (ne : Bool) (ids : List Str) :
    ∀ first k, scenesLoop x n' ct ne first k ids = scenesLoop x n ct ne first k ids := by
  induction ids with
  | nil => intro first k; rfl
  | cons id r ih =>
    intro first k
    unfold scenesLoop
    rcases h.scenes id with e | ⟨s, s', e1, e2, e3, e4, e5⟩
    · rw [get!_congr e]
      have hm : ∀ k w l, x.sceneMapping n' id k w l = x.sceneMapping n id k w l := by
        intro k w l
        rw [h.rest]
        exact hl.scene n n'.scenes id k w l e
      simp only [hm, ih]
    · rw [Dict.get!_of e1, Dict.get!_of e2]
      have h' : hiddenScene s' = true := by unfold hiddenScene at e3 ⊢; rw [e4, e5]; exact e3
      simp only [Bind.bind, Except.bind, sceneTemplate_hidden hx e3, sceneTemplate_hidden hx h']
      exact ih first k

theorem flags_hidden {n n' : Novel} (h : SameButHidden n n') (ids : List Str) :
    chapterNotExported.flags n' ids = chapterNotExported.flags n ids := by
  induction ids with
  | nil => rfl
  | cons id r ih =>
    unfold chapterNotExported.flags
    rw [ih]
    rcases h.scenes id with e | ⟨s, s', e1, e2, _, _, e5⟩
    · rw [get!_congr e]
    · rw [Dict.get!_of e1, Dict.get!_of e2]
      show (chapterNotExported.flags n r >>= fun l => _) = (chapterNotExported.flags n r >>= fun l => _)
      rw [e5]

theorem chaptersLoop_hidden {x : Exporter} (hx : ManuscriptTemplates x.toTemplates) (hl : LocalMappings x) {n n' : Novel}
    (h : SameButHidden n n') (ids : List Str) : ∀ c k, chaptersLoop x n' c k ids = chaptersLoop x n c k ids := by
  have hch : n'.chapters = n.chapters := by rw [h.rest]
  have hm : ∀ id k, x.chapterMapping n' id k = x.chapterMapping n id k := by
    intro id k
    rw [h.rest]
    exact hl.chapter n n'.scenes id k
  have hline : ∀ id k o, chapterLine x n' id k o = chapterLine x n id k o := by
    intro id k o
    cases o with
    | none => rfl
    | some t => unfold chapterLine; rw [hm]
  induction ids with
  | nil => intro c k; rfl
  | cons id r ih =>
    intro c k
    unfold chaptersLoop
    rw [hch]
    cases n.chapters.get! id with
    | error e => rfl
    | ok ch =>
      have hf : chapterNotExported n' ch.srtScenes = chapterNotExported n ch.srtScenes := by
        unfold chapterNotExported; rw [flags_hidden h]
      show (chapterNotExported n' ch.srtScenes >>= fun _ => _) = (chapterNotExported n ch.srtScenes >>= fun _ => _)
      rw [hf]
      cases chapterNotExported n ch.srtScenes with
      | error e => rfl
      | ok ne =>
        simp only [Bind.bind, Except.bind, hline, scenesLoop_hidden hx hl h, ih]

theorem getChapters_hidden {x : Exporter} (hx : ManuscriptTemplates x.toTemplates) (hl : LocalMappings x) {n n' : Novel}
    (h : SameButHidden n n') : getChapters x n' = getChapters x n := by
  unfold getChapters
  rw [chaptersLoop_hidden hx hl h]
  have : n'.srtChapters = n.srtChapters := by rw [h.rest]
  rw [this]

theorem formattedText_hidden {x : Exporter} (hx : ManuscriptTemplates x.toTemplates) (hl : LocalMappings x) {n n' : Novel}
    (h : SameButHidden n n') : formattedText x n' = formattedText x n := by
  have hh : x.headerMapping n' = x.headerMapping n := by
    rw [h.rest]; exact hl.header n n'.scenes
  unfold formattedText getFileHeader
  rw [hh, getChapters_hidden hx hl h]

/-- A conversion that does not look at the scenes. -/
def Base.Local (b : Base) : Prop := ∀ n d t q, b.conv { n with scenes := d } t q = b.conv n t q

theorem Base.chapter_local {b : Base} (h : b.Local) (n : Novel) (d : Dict Scene) (id : Str) (k : Nat) :
    b.chapter { n with scenes := d } id k = b.chapter n id k := by
  unfold Base.chapter
  simp only [h n d]

theorem Base.header_local {b : Base} (h : b.Local) (n : Novel) (d : Dict Scene) : b.header { n with scenes := d } = b.header n := by
  unfold Base.header
  simp only [h n d]

theorem Base.scene_local {b : Base} (h : b.Local) (n : Novel) (d : Dict Scene) (id : Str) (k w l : Nat) (e : d.get? id = n.scenes.get? id) :
    b.scene { n with scenes := d } id k w l = b.scene n id k w l := by
  unfold Base.scene
  simp only [h n d, get!_congr e]
  rfl

theorem exportBase_local (e : DocEnv) : e.exportBase.Local := fun _ _ _ _ => rfl
theorem formattedBase_local (e : DocEnv) : e.formattedBase.Local := fun _ _ _ _ => rfl

theorem chapterSuppressed_local {b : Base} (h : b.Local) (n : Novel) (d : Dict Scene) (id : Str) (k : Nat) :
    chapterSuppressed b { n with scenes := d } id k = chapterSuppressed b n id k := by
  unfold chapterSuppressed
  rw [Base.chapter_local h]

theorem headerWith_local (e : DocEnv) {b : Base} (h : b.Local) (n : Novel) (d : Dict Scene) :
    headerWith e b { n with scenes := d } = headerWith e b n := by
  unfold headerWith
  rw [Base.header_local h]

theorem odtExport_local (e : DocEnv) : LocalMappings (odtExport e) where
  header n d := headerWith_local e (exportBase_local e) n d
  chapter n d id k := chapterSuppressed_local (exportBase_local e) n d id k
  scene n d id k w l h := by
    show (e.exportBase.scene _ id k w l >>= fun m => _) = (e.exportBase.scene _ id k w l >>= fun m => _)
    rw [Base.scene_local (exportBase_local e) n d id k w l h]

theorem odtManuscript_local (e : DocEnv) : LocalMappings (odtManuscript e) where
  header n d := headerWith_local e (formattedBase_local e) n d
  chapter n d id k := chapterSuppressed_local (formattedBase_local e) n d id k
  scene n d id k w l h := by
    show ((e.formattedBase.scene _ id k w l >>= fun m => _) >>= fun m => _) = ((e.formattedBase.scene _ id k w l >>= fun m => _) >>= fun m => _)
    rw [Base.scene_local (formattedBase_local e) n d id k w l h]

theorem odtExport_templates (e : DocEnv) : ManuscriptTemplates (odtExport e).toTemplates := by
  constructor <;> rfl

theorem odtManuscript_templates (e : DocEnv) : ManuscriptTemplates (odtManuscript e).toTemplates := by
  constructor <;> rfl

end Verif
