/-
Lemmas for C20: a saved project tree is regular again.
-/
import Verif.Lemmas.Stable3
import Verif.Lemmas.Export
import Verif.Spec.Settled
import Verif.Props.C20_Cycles

namespace Verif
open Xml Elem Spec

/-- At most one element, without children. -/
def Once (l : List Elem) : Prop := l.length ≤ 1 ∧ ∀ e ∈ l, e.kids = []

theorem Once.nil : Once [] := ⟨by simp, by simp⟩

theorem Once.leaf (t : Str) (v : Option Str) : Once [Elem.leaf t v] := ⟨by simp, by simp [Elem.leaf]⟩

theorem Once.tail {l : List Elem} (h : Once l) : Once l.tail := by
  rw [tail_of_le_one h.1]; exact Once.nil

theorem kids_setText (v : Option Str) (e : Elem) : (setText v e).kids = e.kids := by cases e; rfl

theorem Once.setHead' {v : Option Str} {e : Elem} {r : List Elem} (h : Once (e :: r)) : Once (setText v e :: r) := by
  refine ⟨h.1, ?_⟩
  intro x hx
  rcases List.mem_cons.1 hx with rfl | hx
  · rw [kids_setText]; exact h.2 e (by simp)
  · exact h.2 x (by simp [hx])

theorem Once.setHead {v : Str} {l : List Elem} (h : Once l) : Once (setHead v l) := by
  cases l with
  | nil => exact Once.nil
  | cons e r => exact h.setHead'

theorem Once.text {t : Str} {v : Option Str} {l : List Elem} (h : Once l) : Once (textSel t v l) := by
  cases v with
  | none => exact h
  | some v =>
    cases l with
    | nil =>
      show Once (if v = [] then [] else [Elem.leaf t (some v)])
      split
      · exact Once.nil
      · exact Once.leaf _ _
    | cons e r => exact h.setHead'

theorem Once.always {t : Str} {v : Option Str} {l : List Elem} (h : Once l) : Once (alwaysSel t v l) := by
  cases v with
  | none => exact h
  | some v =>
    cases l with
    | nil => exact Once.leaf _ _
    | cons e r => exact h.setHead'

theorem Once.miss {t : Str} {v : Option Str} {l : List Elem} (h : Once l) : Once (missSel t v l) := by
  cases l with
  | nil => exact Once.leaf _ _
  | cons e r => exact h

theorem Once.flag {t : Str} {b : Bool} {l : List Elem} (h : Once l) : Once (flagSel t b l) := by
  unfold flagSel
  split
  · exact h.miss
  · exact h.tail

theorem Once.reloaded {l l' : List Elem} (h : Once l) (hr : ReloadedL l l') : Once l' := by
  refine ⟨by rw [length_reloaded hr]; exact h.1, ?_⟩
  intro e' he'
  obtain ⟨e, he, hre⟩ := hr.mem' e' he'
  have := hre.kids
  rw [h.2 e he] at this
  exact this.nil_iff.2 rfl

theorem Once.removed {t : Str} {ks : List Elem} (h : Once (sel t ks)) : sel t (removeFirst t ks) = [] := by
  rw [sel_removeFirst_self]
  exact tail_of_le_one h.1

theorem length_idsSel {t sub : Str} {ids : List Str} {l : List Elem} (h : l.length ≤ 1) : (idsSel t sub ids l).length ≤ 1 := by
  unfold idsSel
  rw [tail_of_le_one h]
  split <;> simp

/-- A scene element has no date mode without a date. -/
def Moded (ks : List Elem) : Prop := sel c!"SpecificDateTime" ks = [] → sel c!"SpecificDateMode" ks = []

theorem putStart_once {d t y : Option Str} {a mid : List Elem} (h : putStart d t y a = .ok mid) (ho : ∀ u ∈ dateTags, Once (sel u a)) (hm : Moded a) :
    (∀ u ∈ dateTags, Once (sel u mid)) ∧ Moded mid := by
  have o1 := ho c!"SpecificDateTime" (by decide)
  have o2 := ho c!"SpecificDateMode" (by decide)
  have o3 := ho c!"Day" (by decide)
  have o4 := ho c!"Hour" (by decide)
  have o5 := ho c!"Minute" (by decide)
  have rem : ∀ (u v : Str) (l : List Elem), Once (sel u l) → Once (sel u (removeFirst v l)) := by
    intro u v l hl
    by_cases hv : v = u
    · subst hv; rw [hl.removed]; exact Once.nil
    · rw [sel_removeFirst_ne hv]; exact hl
  have hrd : (∀ u ∈ dateTags, Once (sel u (removeDateTime a))) ∧ Moded (removeDateTime a) := by
    refine ⟨fun u hu => ?_, fun _ => ?_⟩
    · unfold removeDateTime
      exact rem _ _ _ (rem _ _ _ (rem _ _ _ (rem _ _ _ (rem _ _ _ (ho u hu)))))
    · unfold removeDateTime
      rw [sel_removeFirst_ne (by decide), sel_removeFirst_ne (by decide), sel_removeFirst_ne (by decide)]
      exact (rem _ _ _ o2).removed
  have put : ∀ (u v : Str) (w : Option Str) (l : List Elem), Once (sel u l) → Once (sel u (putAlways v w l)) := by
    intro u v w l hl
    by_cases hv : v = u
    · subst hv; rw [sel_putAlways]; exact hl.always
    · rw [sel_putAlways_ne hv]; exact hl
  have other : ∀ {time : Option Str}, (if y = none ∧ time = none then .ok a
      else if falsy y ∧ falsy time then .ok (removeDateTime a)
      else
        let ks := putAlways c!"Day" y (removeFirst c!"SpecificDateMode" (removeFirst c!"SpecificDateTime" a))
        match time with
        | none => .ok ks
        | some t =>
          match Str.split t c!":" with
          | [hours, minutes, _] => .ok (putAlways c!"Minute" (some minutes) (putAlways c!"Hour" (some hours) ks))
          | _ => .error .valueError : Except Exc (List Elem)) = .ok mid → (∀ u ∈ dateTags, Once (sel u mid)) ∧ Moded mid := by
    intro time h
    split at h
    · cases h; exact ⟨ho, hm⟩
    · split at h
      · cases h; exact hrd
      · have hbase : ∀ u ∈ dateTags, Once (sel u (putAlways c!"Day" y (removeFirst c!"SpecificDateMode" (removeFirst c!"SpecificDateTime" a)))) :=
          fun u hu => put _ _ _ _ (rem _ _ _ (rem _ _ _ (ho u hu)))
        have hsm : sel c!"SpecificDateMode" (putAlways c!"Day" y (removeFirst c!"SpecificDateMode" (removeFirst c!"SpecificDateTime" a))) = [] := by
          rw [sel_putAlways_ne (by decide)]
          exact (rem _ _ _ o2).removed
        generalize putAlways c!"Day" y (removeFirst c!"SpecificDateMode" (removeFirst c!"SpecificDateTime" a)) = b at h hbase hsm
        simp only at h
        split at h
        · cases h
          exact ⟨hbase, fun _ => hsm⟩
        · split at h
          · cases h
            refine ⟨fun u hu => put _ _ _ _ (put _ _ _ _ (hbase u hu)), fun _ => ?_⟩
            rw [sel_putAlways_ne (by decide), sel_putAlways_ne (by decide)]
            exact hsm
          · cases h
  unfold putStart at h
  split at h
  · rename_i d t
    simp only at h
    split at h
    · cases h; exact hrd
    · split at h
      · rename_i hh
        cases h
        rw [hasTag_iff] at hh
        refine ⟨fun u hu => ?_, fun hnil => ?_⟩
        · by_cases hu' : c!"SpecificDateTime" = u
          · subst hu'
            rw [sel_setText]; exact o1.setHead
          · rw [sel_setText_ne hu']; exact ho u hu
        · rw [sel_setText] at hnil
          cases hs : sel c!"SpecificDateTime" a with
          | nil => exact absurd hs hh
          | cons e r => rw [hs] at hnil; cases hnil
      · rename_i hh
        cases h
        rw [hasTag_iff, Classical.not_not] at hh
        have hmm := hm hh
        have hsel : ∀ u, sel u (a ++ [Elem.leaf c!"SpecificDateTime" (some (d ++ ' ' :: t))] ++ [Elem.leaf c!"SpecificDateMode" (some c!"-1")])
            = sel u a ++ (sel u [Elem.leaf c!"SpecificDateTime" (some (d ++ ' ' :: t)), Elem.leaf c!"SpecificDateMode" (some c!"-1")]) := by
          intro u
          unfold sel
          rw [List.append_assoc, List.filter_append]; rfl
        refine ⟨fun u hu => ?_, fun hnil => ?_⟩
        · refine rem _ _ _ (rem _ _ _ (rem _ _ _ ?_))
          rw [hsel]
          simp only [dateTags, List.mem_cons, List.not_mem_nil, or_false] at hu
          rcases hu with rfl | rfl | rfl | rfl | rfl
          all_goals first
            | (rw [hh]; exact Once.leaf _ _)
            | (rw [hmm]; exact Once.leaf _ _)
            | (rw [show ∀ v, sel c!"Day" [Elem.leaf c!"SpecificDateTime" v, Elem.leaf c!"SpecificDateMode" (some c!"-1")] = [] from fun v => rfl, List.append_nil]; exact o3)
            | (rw [show ∀ v, sel c!"Hour" [Elem.leaf c!"SpecificDateTime" v, Elem.leaf c!"SpecificDateMode" (some c!"-1")] = [] from fun v => rfl, List.append_nil]; exact o4)
            | (rw [show ∀ v, sel c!"Minute" [Elem.leaf c!"SpecificDateTime" v, Elem.leaf c!"SpecificDateMode" (some c!"-1")] = [] from fun v => rfl, List.append_nil]; exact o5)
        · rw [sel_removeFirst_ne (by decide), sel_removeFirst_ne (by decide), sel_removeFirst_ne (by decide), hsel, hh] at hnil
          cases hnil
  · exact other h

theorem plainOnce_removeFirst {ts : List Str} {ks : List Elem} (t : Str) (h : PlainOnce ts ks) : PlainOnce ts (removeFirst t ks) := by
  intro u hu
  by_cases hv : t = u
  · subst hv
    rw [(show Once (sel t ks) from h t hu).removed]
    exact Once.nil
  · rw [sel_removeFirst_ne hv]; exact h u hu

theorem plainOnce_putAlways {ts : List Str} {ks : List Elem} (t : Str) (v : Option Str) (h : PlainOnce ts ks) : PlainOnce ts (putAlways t v ks) := by
  intro u hu
  by_cases hv : t = u
  · subst hv
    rw [sel_putAlways]
    exact (show Once (sel t ks) from h t hu).always
  · rw [sel_putAlways_ne hv]; exact h u hu

theorem plainOnce_setText {ts : List Str} {ks : List Elem} (t : Str) (v : Str) (h : PlainOnce ts ks) : PlainOnce ts (modFirst t (setText (some v)) ks) := by
  intro u hu
  by_cases hv : t = u
  · subst hv
    rw [sel_setText]
    exact (show Once (sel t ks) from h t hu).setHead
  · rw [sel_setText_ne hv]; exact h u hu

theorem plainOnce_reloaded {ts : List Str} {ks r : List Elem} (h : PlainOnce ts ks) (hr : ReloadedL ks r) : PlainOnce ts r :=
  fun u hu => (show Once (sel u ks) from h u hu).reloaded (hr.sel u)

theorem plainOnce_custom {ts : List Str} {ks : List Elem} (t : Str) (v : Option Str) (h : PlainOnce ts ks) : PlainOnce ts (customKids t v ks) := by
  match v with
  | none => exact plainOnce_removeFirst t h
  | some [] => exact plainOnce_removeFirst t h
  | some (c :: r) => exact plainOnce_putAlways t (some (ywConvert (some (c :: r)))) h

theorem plainOnce_sceneType {ts : List Str} {ks : List Elem} (v : Option Str) (h : PlainOnce ts ks) : PlainOnce ts (sceneTypeKids v ks) := by
  cases v with
  | none => exact plainOnce_removeFirst c!"Field_SceneType" h
  | some v => exact plainOnce_putAlways c!"Field_SceneType" (some v) h

theorem plainOnce_chField {ts : List Str} {ks : List Elem} (t : Str) (b : Bool) (h : PlainOnce ts ks) : PlainOnce ts (chFieldKids t b ks) := by
  unfold chFieldKids
  split
  · exact plainOnce_putAlways t _ h
  · split
    · exact plainOnce_setText t _ h
    · exact h

theorem plainOnce_trash {ts : List Str} {ks : List Elem} (b : Bool) (h : PlainOnce ts ks) : PlainOnce ts (trashKids b ks) := by
  unfold trashKids
  split
  · exact plainOnce_putAlways _ _ h
  · exact plainOnce_removeFirst _ h

theorem plainOnce_head {ts : List Str} {l : List Elem} (hf : ∀ f ∈ l, PlainOnce ts f.kids) : PlainOnce ts (headKids l) := by
  cases l with
  | nil => intro t _; exact Once.nil
  | cons e r => exact hf e (by simp)

theorem plainOnce_of_head {ts : List Str} {l : List Elem} (hl : l.length ≤ 1) (hf : PlainOnce ts (headKids l)) : ∀ f ∈ l, PlainOnce ts f.kids := by
  match l, hl with
  | [], _ => simp
  | [e], _ => intro f hfm; cases List.mem_singleton.1 hfm; exact hf

/-- A saved scene element is regular again. -/
theorem scene_regular {s : Scene} {ks out r : List Elem} (hk : SceneElement ks) (hmo : Moded ks) (hs : sceneOut s ks = .ok out) (hr : ReloadedL out r) :
    SceneElement r ∧ Moded r := by
  obtain ⟨u, ty, _, hu, hf⟩ := scene_Unused hs
  obtain ⟨x1, x2⟩ := scene_export hs
  obtain ⟨a, mid, d1, d2⟩ := scene_dates hs
  have hp : ∀ t ∈ sceneTextTags, Once (sel t ks) := hk.plain
  obtain ⟨d3, d4⟩ := putStart_once d1 (fun t ht => by
      rw [(d2 t ht).1]
      refine hp t ?_
      simp only [dateTags, List.mem_cons, List.not_mem_nil, or_false] at ht
      rcases ht with rfl | rfl | rfl | rfl | rfl <;> decide) (by
      unfold Moded
      rw [(d2 _ (by decide)).1, (d2 c!"SpecificDateMode" (by decide)).1]
      exact hmo)
  have hout : PlainOnce sceneTextTags out := by
    intro t ht
    have h0 := hp t ht
    show Once (sel t out)
    by_cases hd : t ∈ dateTags
    · rw [(d2 t hd).2]; exact d3 t hd
    · simp only [sceneTextTags, List.mem_cons, List.not_mem_nil, or_false] at ht
      rcases ht with rfl | rfl | rfl | rfl | rfl | rfl | rfl | rfl | rfl | rfl | rfl | rfl | rfl | rfl | rfl | rfl | rfl | rfl | rfl | rfl | rfl | rfl | rfl | rfl | rfl | rfl | rfl | rfl
      · rw [scene_Title hs]; exact h0.always
      · rw [scene_Desc hs]; exact h0.text
      · rw [scene_SceneContent hs]
        cases s.sceneContent with
        | none => exact h0.miss
        | some c => exact h0.miss.setHead
      · rw [hu]; exact h0.flag
      · rw [x1]; unfold condSel
        split
        · exact h0.miss
        · exact h0
      · rw [x2]; unfold rtfSel
        split
        · exact h0
        · exact h0.tail
        · split
          · exact h0
          · exact h0.miss
      · rw [scene_Status hs]; exact h0.always
      · rw [scene_Notes hs]; exact h0.text
      · rw [scene_Tags hs]; exact h0.text
      · rw [scene_Field1 hs]; exact h0.text
      · rw [scene_Field2 hs]; exact h0.text
      · rw [scene_Field3 hs]; exact h0.text
      · rw [scene_Field4 hs]; exact h0.text
      · rw [scene_AppendToPrev hs]; exact h0.flag
      · exact absurd (by decide) hd
      · exact absurd (by decide) hd
      · exact absurd (by decide) hd
      · exact absurd (by decide) hd
      · exact absurd (by decide) hd
      · rw [scene_LastsDays hs]; exact h0.text
      · rw [scene_LastsHours hs]; exact h0.text
      · rw [scene_LastsMinutes hs]; exact h0.text
      · rw [scene_ReactionScene hs]; exact h0.flag
      · rw [scene_SubPlot hs]; exact h0.flag
      · rw [scene_Goal hs]; exact h0.text
      · rw [scene_Conflict hs]; exact h0.text
      · rw [scene_Outcome hs]; exact h0.text
      · rw [scene_ImageFile hs]; exact h0.text
  have hfl : (sel c!"Fields" r).length ≤ 1 := by
    rw [length_reloaded (hr.sel c!"Fields"), hf]
    exact fieldsOnce_customSel (fieldsOnce_customSel (fieldsOnce_sceneTypeSel hk.fieldsOnce))
  refine ⟨⟨plainOnce_reloaded hout hr, hfl, ?_, ?_⟩, ?_⟩
  · intro t ht
    have h0 := hk.lists t ht
    rw [length_reloaded (hr.sel t)]
    simp only [List.mem_cons, List.not_mem_nil, or_false] at ht
    rcases ht with rfl | rfl | rfl
    · rw [scene_Characters hs]; exact length_idsSel h0
    · rw [scene_Locations hs]; exact length_idsSel h0
    · rw [scene_Items hs]; exact length_idsSel h0
  · refine plainOnce_of_head hfl (plainOnce_reloaded ?_ (reloaded_headKids (hr.sel c!"Fields")))
    rw [hf, headKids_customSel, headKids_customSel, headKids_sceneTypeSel']
    exact plainOnce_custom _ _ (plainOnce_custom _ _ (plainOnce_sceneType _ (plainOnce_head hk.fields)))
  · intro hnil
    rw [(hr.sel _).nil_iff, (d2 _ (by decide)).2] at hnil
    rw [(hr.sel _).nil_iff, (d2 _ (by decide)).2]
    exact d4 hnil

/-- A saved chapter element is regular again. -/
theorem chapter_regular {c : Chapter} {ks out r : List Elem} (hk : ChapterElement ks) (hs : buildChapter c ks = .ok out) (hr : ReloadedL out r) :
    ChapterElement r := by
  obtain ⟨u, ty, cty, _, e1, e2, e3, e4, e5, e6, e7, e8, e9, e10, _⟩ := buildChapter_ok hs
  have hp : ∀ t ∈ chapterTextTags, Once (sel t ks) := hk.plain
  have hfl : (sel c!"Fields" r).length ≤ 1 := by
    rw [length_reloaded (hr.sel c!"Fields")]
    exact e9 hk.fieldsOnce
  refine ⟨plainOnce_reloaded (ks := out) ?_ hr, hfl, ?_, ?_⟩
  · intro t ht
    have h0 := hp t ht
    show Once (sel t out)
    simp only [chapterTextTags, List.mem_cons, List.not_mem_nil, or_false] at ht
    rcases ht with rfl | rfl | rfl | rfl | rfl | rfl
    · rw [e1]; exact h0.always
    · rw [e2]; exact h0.always
    · rw [e3]; exact h0.flag
    · rw [e4]; unfold sectionSel
      split
      · exact h0.tail
      · split
        · exact h0.miss
        · exact h0
    · rw [e5]; exact h0.always
    · rw [e6]; exact h0.always
  · rw [length_reloaded (hr.sel c!"Scenes"), e7]
    exact length_idsSel hk.scenesOnce
  · refine plainOnce_of_head hfl (plainOnce_reloaded ?_ (reloaded_headKids (hr.sel c!"Fields")))
    rw [e8]
    exact plainOnce_trash _ (plainOnce_chField _ _ (plainOnce_chField _ _ (plainOnce_head hk.fields)))

theorem kids_of_find {out r : List Elem} {t : Str} {e s : Elem} {ks : List Elem} (hf : find t out = some (e.mapKids (fun _ => ks))) (hr : ReloadedL out r)
    (hs : find t r = some s) : ReloadedL ks s.kids := by
  obtain ⟨e', h1, h2⟩ := hr.find hf
  rw [hs] at h1
  cases h1
  have := h2.kids
  rwa [Elem.kids_mapKids'] at this

theorem rebuilt_tags {α : Type} {sec tag : Str} {d : Dict α} {f : α → List Elem → List Elem} {ids : List Str} {rk out r : List Elem}
    (ht : ∀ s, find sec rk = some s → ∀ e ∈ s.kids, e.tag = tag)
    (hb : ∃ e ks, find sec rk = some e ∧ rebuildSection tag d f ids e.kids = .ok ks ∧ find sec out = some (e.mapKids (fun _ => ks)))
    (hr : ReloadedL out r) : ∀ s, find sec r = some s → ∀ e ∈ s.kids, e.tag = tag := by
  obtain ⟨e, ks, h1, h2, h3⟩ := hb
  intro s hs x hx
  have h4 := kids_of_find h3 hr hs
  obtain ⟨y, hy, hxy⟩ := h4.mem' x hx
  obtain ⟨id, _, h5⟩ := mapE_mem' (rebuildSection_ok h2 (ht e h1)) y hy
  rw [hxy.tag]
  unfold newEntry at h5
  split at h5
  · cases h5
  · cases h5; rfl

theorem buildNotes_regular {n : Novel} {rk rk2 : List Elem} (ho : (sel c!"PROJECTNOTES" rk).length ≤ 1)
    (ht : ∀ s, find c!"PROJECTNOTES" rk = some s → ∀ e ∈ s.kids, e.tag = c!"PROJECTNOTE")
    (hb : buildNotes n rk = .ok rk2) :
    (sel c!"PROJECTNOTES" rk2).length ≤ 1 ∧ ∀ s, find c!"PROJECTNOTES" rk2 = some s → ∀ e ∈ s.kids, e.tag = c!"PROJECTNOTE" := by
  unfold buildNotes at hb
  split at hb
  · cases hb
    have : sel c!"PROJECTNOTES" (removeFirst c!"PROJECTNOTES" rk) = [] := by
      rw [sel_removeFirst_self]; exact tail_of_le_one ho
    rw [this]
    refine ⟨by simp, ?_⟩
    intro s hs
    rw [find_eq, this] at hs
    cases hs
  · have hbase : (sel c!"PROJECTNOTES" (if hasTag c!"PROJECTNOTES" rk then rk else rk ++ [node c!"PROJECTNOTES" none none []])).length ≤ 1 ∧
        ∀ s, find c!"PROJECTNOTES" (if hasTag c!"PROJECTNOTES" rk then rk else rk ++ [node c!"PROJECTNOTES" none none []]) = some s → ∀ e ∈ s.kids, e.tag = c!"PROJECTNOTE" := by
      split
      · exact ⟨ho, ht⟩
      · rename_i hh
        rw [hasTag_iff, Classical.not_not] at hh
        have : sel c!"PROJECTNOTES" (rk ++ [node c!"PROJECTNOTES" none none []]) = [node c!"PROJECTNOTES" none none []] := by
          unfold sel at hh ⊢
          rw [List.filter_append, hh]; rfl
        refine ⟨by rw [this]; simp, ?_⟩
        intro s hs
        rw [find_eq, this] at hs
        cases hs
        simp
    generalize (if hasTag c!"PROJECTNOTES" rk then rk else rk ++ [node c!"PROJECTNOTES" none none []]) = b at hb hbase
    refine ⟨?_, ?_⟩
    · unfold onSection at hb
      have hlen : ∀ (f : Elem → Elem), (∀ e, (f e).tag = e.tag) → (sel c!"PROJECTNOTES" (modFirst c!"PROJECTNOTES" f b)).length = (sel c!"PROJECTNOTES" b).length := by
        intro f hf
        rw [sel_modFirst_self _ hf]
        cases sel c!"PROJECTNOTES" b <;> rfl
      split at hb
      · cases hb
      · split at hb
        · cases hb
        · cases hb
          rw [hlen _ (by intro e; cases e; rfl)]
          exact hbase.1
    · obtain ⟨e, ks, h1, h2, h3, _⟩ := onSection_ok hb
      intro s hs x hx
      rw [h3] at hs
      cases hs
      rw [Elem.kids_mapKids'] at hx
      obtain ⟨id, _, h5⟩ := mapE_mem' (rebuildSection_ok h2 (hbase.2 e h1)) x hx
      unfold newEntry at h5
      split at h5
      · cases h5
      · cases h5; rfl

/-- The section of the notes is written last but one, so that there is at most one of them in the end. -/
theorem buildRoot_notes {sl sc : Str} {n : Novel} {rk out : List Elem} (h : buildRoot sl sc n rk = .ok out) :
    ∃ rk2 rk3, buildNotes n rk2 = .ok rk3 ∧ sel c!"PROJECTNOTES" rk2 = sel c!"PROJECTNOTES" rk ∧ sel c!"PROJECTNOTES" out = sel c!"PROJECTNOTES" rk3 := by
  unfold buildRoot at h
  obtain ⟨r1, h1, h⟩ := bind_ok h
  obtain ⟨r2, h2, h⟩ := bind_ok h
  obtain ⟨r3, h3, h⟩ := bind_ok h
  obtain ⟨r4, h4, h⟩ := bind_ok h
  obtain ⟨r5, h5, h⟩ := bind_ok h
  obtain ⟨r6, h6, h⟩ := bind_ok h
  obtain ⟨r7, h7, h⟩ := bind_ok h
  obtain ⟨r8, h8, h⟩ := bind_ok h
  have n6 : sel c!"PROJECTNOTES" r6 = sel c!"PROJECTNOTES" r5 := by
    unfold buildProjectVars at h6
    split at h6
    · cases h6; rfl
    · obtain ⟨e, ks, _, _, _, hs⟩ := onSection_ok h6
      rw [hs _ (by decide)]
      split
      · rfl
      · simp [sel, List.filter_append]
  obtain ⟨_, _, _, _, _, n1⟩ := onSection_ok h1
  obtain ⟨_, _, _, _, _, n2⟩ := onSection_ok h2
  obtain ⟨_, _, _, _, _, n3⟩ := onSection_ok h3
  obtain ⟨_, _, _, _, _, n4⟩ := onSection_ok h4
  obtain ⟨_, _, _, _, _, n7⟩ := onSection_ok h7
  obtain ⟨_, _, _, _, _, n8⟩ := onSection_ok h8
  obtain ⟨_, _, _, _, _, n9⟩ := onSection_ok h
  exact ⟨r4, r5, h5, by rw [n4 _ (by decide), n3 _ (by decide), n2 _ (by decide), n1 _ (by decide)],
    by rw [n9 _ (by decide), n8 _ (by decide), n7 _ (by decide), n6]⟩

theorem newScene_regular (id : Str) : SceneElement [Elem.leaf c!"ID" (some id)] ∧ Moded [Elem.leaf c!"ID" (some id)] := by
  refine ⟨⟨?_, by simp [sel, Elem.leaf], ?_, by simp [sel, Elem.leaf]⟩, fun _ => rfl⟩
  · intro t ht
    have : sel t [Elem.leaf c!"ID" (some id)] = [] := by
      simp only [sceneTextTags, List.mem_cons, List.not_mem_nil, or_false] at ht
      rcases ht with rfl | rfl | rfl | rfl | rfl | rfl | rfl | rfl | rfl | rfl | rfl | rfl | rfl | rfl | rfl | rfl | rfl | rfl | rfl | rfl | rfl | rfl | rfl | rfl | rfl | rfl | rfl | rfl <;> rfl
    rw [this]; simp
  · intro t ht
    simp only [List.mem_cons, List.not_mem_nil, or_false] at ht
    rcases ht with rfl | rfl | rfl <;> exact Nat.zero_le 1

theorem varElement_reloaded {e e' : Elem} (h : VarElement e) (hr : Reloaded e e') : VarElement e' := by
  have hk := hr.kids
  obtain ⟨i, i1, i2⟩ := h.id
  obtain ⟨t, t1, t2⟩ := h.title
  refine ⟨hr.tag.trans h.tag, ?_, ⟨i, ?_, i2⟩, ⟨t, ?_, t2⟩, ?_⟩
  · intro u hu x hx
    obtain ⟨y, hy, hyx⟩ := (hk.sel u).mem' x hx
    have := hyx.kids
    rw [h.leaves u hu y hy] at this
    exact this.nil_iff.2 rfl
  · rw [hk.textOf (h.leaves c!"ID" (by simp)) (Or.inr (by intro s hs; rw [i1] at hs; cases hs; exact i2.2)), i1, readText_ne i2.1]
  · rw [hk.textOf (h.leaves c!"Title" (by simp)) (Or.inl (by decide)), t1, readText_ne t2]
  · intro hn
    exact h.desc ((hk.sel _).nil_iff.1 hn)

theorem nodup_map_some {l : List Str} (h : l.Nodup) : (l.map some).Nodup := by
  induction l with
  | nil => exact List.nodup_nil
  | cons a r ih =>
    rw [List.nodup_cons] at h
    rw [List.map_cons, List.nodup_cons]
    refine ⟨?_, ih h.2⟩
    intro hm
    obtain ⟨b, hb, e⟩ := List.mem_map.1 hm
    cases e
    exact h.1 hb

theorem project_regular (n : Novel) {ks : List Elem} (h1 : PlainOnce projectTextTags ks) (h2 : (sel c!"Fields" ks).length ≤ 1)
    (h3 : ∀ f ∈ sel c!"Fields" ks, ∀ t ∈ [c!"Field_LanguageCode", c!"Field_CountryCode"], (sel t f.kids).length ≤ 1) :
    PlainOnce projectTextTags (buildProject n ks) ∧ (sel c!"Fields" (buildProject n ks)).length ≤ 1 ∧
    ∀ f ∈ sel c!"Fields" (buildProject n ks), ∀ t ∈ [c!"Field_LanguageCode", c!"Field_CountryCode"], (sel t f.kids).length ≤ 1 := by
  obtain ⟨e1, e2, e3, e4, e5, e6, e7, e8, e9, e10, e11⟩ := project_sels n ks
  have hp : ∀ t ∈ projectTextTags, Once (sel t ks) := h1
  refine ⟨?_, ?_, ?_⟩
  · intro t ht
    have h0 := hp t ht
    show Once (sel t (buildProject n ks))
    simp only [projectTextTags, List.mem_cons, List.not_mem_nil, or_false] at ht
    rcases ht with rfl | rfl | rfl | rfl | rfl | rfl | rfl | rfl | rfl | rfl
    · rw [e1]; exact h0.always
    · rw [e2]; exact h0.always
    · rw [e3]; exact h0.always
    · rw [e4]; exact h0.always
    · rw [e5]; exact h0.always
    · rw [e6]; exact h0.always
    · rw [e7]; exact h0.always
    · rw [e8]; exact h0.always
    · rw [e9]; exact h0.always
    · rw [e10]; exact h0.always
  · rw [e11, length_onFieldsSel, length_onFieldsSel]; exact h2
  · rw [e11]
    have step : ∀ (u : Str) (l : List Elem), (∀ f ∈ l, ∀ t ∈ [c!"Field_LanguageCode", c!"Field_CountryCode"], (sel t f.kids).length ≤ 1) →
        ∀ f ∈ onFieldsSel (removeFirst u) l, ∀ t ∈ [c!"Field_LanguageCode", c!"Field_CountryCode"], (sel t f.kids).length ≤ 1 := by
      intro u l hl f hf t ht
      cases l with
      | nil => cases hf
      | cons a r =>
        rcases List.mem_cons.1 hf with rfl | hf
        · rw [Elem.kids_mapKids']
          have := hl a (by simp) t ht
          by_cases hu : u = t
          · subst hu
            rw [sel_removeFirst_self, List.length_tail]
            omega
          · rw [sel_removeFirst_ne hu]; exact this
        · exact hl f (by simp [hf]) t ht
    exact step _ _ (step _ _ h3)

/-- **A saved project tree is regular again**, whatever novel has been saved. -/
theorem tree_regular (sl sc : Str) (n : Novel) (tree : Option Elem) (out x : Elem) (ht : RegularTree (tree.getD newRoot).kids) (hn : GoodIds n)
    (hl : (savedLanguages n).Nodup) (hw : writeTree sl sc n tree = .ok out) (hr : Reloaded out x) : RegularTree x.kids := by
  obtain ⟨rk, hb, hr'⟩ := writeTree_ok hw hr
  obtain ⟨bP, bL, bI, bC, _, ⟨v1, v2, bV1, bV2, bV3⟩, bS, bH⟩ := buildRoot_ok hb
  obtain ⟨q1, q2, bN1, bN2, bN3⟩ := buildRoot_notes hb
  obtain ⟨p1, p2, p3, p4, p5, p6, p7, p8, p9, p10⟩ := prepareNovel_fields n
  have htt := ht.tree
  obtain ⟨nn1, nn2⟩ := buildNotes_regular (by rw [bN2]; exact htt.notesOnce)
    (fun s hs => htt.entries (c!"PROJECTNOTES", c!"PROJECTNOTE") (by simp [sectionTags]) s (by rwa [find_of_sel_eq bN2] at hs)) bN1
  obtain ⟨se, k1, k2, s1, s2, s3, s4⟩ := bS
  obtain ⟨prev, s5, s6⟩ := scenesSection_ok (by rw [keys_prepareNovel]; exact hn.sound.scKeys) (htt.entries (c!"SCENES", c!"SCENE") (by simp [sectionTags]) se s1) s2 s3
  obtain ⟨ce, ck, c1, c2, c3⟩ := bH
  obtain ⟨cprev, c4, c5⟩ := chaptersSection_ok (htt.entries (c!"CHAPTERS", c!"CHAPTER") (by simp [sectionTags]) ce c1) c2
  have scen : ∀ s, find c!"SCENES" x.kids = some s → ReloadedL k2 s.kids := fun s hs => kids_of_find s4 hr' hs
  have chap : ∀ s, find c!"CHAPTERS" x.kids = some s → ReloadedL ck s.kids := fun s hs => kids_of_find c3 hr' hs
  have sEl : ∀ s, find c!"SCENES" x.kids = some s → ∀ e ∈ s.kids, e.tag = c!"SCENE" ∧ SceneElement e.kids ∧ Moded e.kids ∧ ∀ i ∈ sel c!"ID" e.kids, i.kids = [] := by
    intro s hs e he
    obtain ⟨y, hy, hye⟩ := (scen s hs).mem' e he
    obtain ⟨p, hp, hpy⟩ := mapE_mem' s6 y hy
    have hid := sceneElem_hasId s5 (htt.ids c!"SCENES" (by simp) se s1) hpy
    have hold : (oldElem c!"SCENE" prev p.1).tag = c!"SCENE" ∧ SceneElement (oldElem c!"SCENE" prev p.1).kids ∧ Moded (oldElem c!"SCENE" prev p.1).kids := by
      rcases oldElem_cases (tag := c!"SCENE") s5 p.1 with h | ⟨h, _⟩
      · rw [h]
        exact ⟨rfl, newScene_regular p.1⟩
      · exact ⟨htt.entries (c!"SCENES", c!"SCENE") (by simp [sectionTags]) se s1 _ h, htt.scenes se s1 _ h, ht.modes se s1 _ h⟩
    have hids : ∀ i ∈ sel c!"ID" e.kids, i.kids = [] := by
      intro i hi
      obtain ⟨j, hj, hji⟩ := (hye.kids.sel c!"ID").mem' i hi
      have := hji.kids
      rw [hid.2 j hj] at this
      exact this.nil_iff.2 rfl
    unfold sceneElem at hpy
    split at hpy
    · cases hpy
    · rename_i k hk
      cases hpy
      have hkk := hye.kids
      rw [Elem.kids_mapKids'] at hkk
      obtain ⟨g1, g2⟩ := scene_regular hold.2.1 hold.2.2 hk hkk
      refine ⟨?_, g1, g2, hids⟩
      rw [hye.tag]
      generalize oldElem c!"SCENE" prev p.1 = o at hold
      obtain ⟨h, _⟩ := hold
      cases o; exact h
  have cEl : ∀ s, find c!"CHAPTERS" x.kids = some s → ∀ e ∈ s.kids, e.tag = c!"CHAPTER" ∧ ChapterElement e.kids ∧ ∀ i ∈ sel c!"ID" e.kids, i.kids = [] := by
    intro s hs e he
    obtain ⟨y, hy, hye⟩ := (chap s hs).mem' e he
    obtain ⟨id, hp, hpy⟩ := mapE_mem' c5 y hy
    have hid := chapterElem_hasId c4 (htt.ids c!"CHAPTERS" (by simp) ce c1) hpy
    have hold : (oldElem c!"CHAPTER" cprev id).tag = c!"CHAPTER" ∧ ChapterElement (oldElem c!"CHAPTER" cprev id).kids := by
      rcases oldElem_cases (tag := c!"CHAPTER") c4 id with h | ⟨h, _⟩
      · rw [h]
        exact ⟨rfl, newChapter id⟩
      · exact ⟨htt.entries (c!"CHAPTERS", c!"CHAPTER") (by simp [sectionTags]) ce c1 _ h, htt.chapters ce c1 _ h⟩
    have hids : ∀ i ∈ sel c!"ID" e.kids, i.kids = [] := by
      intro i hi
      obtain ⟨j, hj, hji⟩ := (hye.kids.sel c!"ID").mem' i hi
      have := hji.kids
      rw [hid.2 j hj] at this
      exact this.nil_iff.2 rfl
    unfold chapterElem at hpy
    split at hpy
    · cases hpy
    · split at hpy
      · cases hpy
      · rename_i k hk
        cases hpy
        have hkk := hye.kids
        rw [Elem.kids_mapKids'] at hkk
        refine ⟨?_, chapter_regular hold.2 hk hkk, hids⟩
        rw [hye.tag]
        generalize oldElem c!"CHAPTER" cprev id = o at hold
        obtain ⟨h, _⟩ := hold
        cases o; exact h
  obtain ⟨pe, pp1, pp2⟩ := bP
  have projR : ∀ p, find c!"PROJECT" x.kids = some p → ReloadedL (buildProject (prepareNovel n) pe.kids) p.kids := by
    intro p hp
    obtain ⟨e', g1, g2⟩ := hr'.find pp2
    rw [hp] at g1
    cases g1
    have := g2.kids
    rwa [Elem.kids_mapKids'] at this
  have hproj := project_regular (prepareNovel n) (ht.node.plain pe pp1) (ht.node.fieldsOnce pe pp1) (ht.node.fields pe pp1)
  have hsl : (prepareNovel n).languages.getD [] = savedLanguages n := by
    obtain ⟨_, _, _, _, _, _, _, _, _, _, n1, n2, n3⟩ := prepareNovel_project n
    rw [n3]; unfold savedLanguages
    cases n.languages <;> rfl
  refine ⟨⟨?_, ?_, fun s hs e he => (sEl s hs e he).2.1, fun s hs e he => (cEl s hs e he).2.1, ?_⟩, ⟨?_, ?_, ?_, ?_⟩, ?_, fun s hs e he => (sEl s hs e he).2.2.1⟩
  · intro p hp s hs e he
    simp only [sectionTags, List.mem_cons, List.not_mem_nil, or_false] at hp
    rcases hp with rfl | rfl | rfl | rfl | rfl | rfl
    · exact rebuilt_tags (htt.entries (c!"LOCATIONS", c!"LOCATION") (by simp [sectionTags])) bL hr' s hs e he
    · exact rebuilt_tags (htt.entries (c!"ITEMS", c!"ITEM") (by simp [sectionTags])) bI hr' s hs e he
    · exact rebuilt_tags (htt.entries (c!"CHARACTERS", c!"CHARACTER") (by simp [sectionTags])) bC hr' s hs e he
    · cases hf : find c!"PROJECTNOTES" rk with
      | none => rw [hr'.find_none hf] at hs; cases hs
      | some s0 =>
        obtain ⟨s', g1, g2⟩ := hr'.find hf
        rw [hs] at g1
        cases g1
        rw [find_of_sel_eq bN3] at hf
        obtain ⟨y, hy, hye⟩ := g2.kids.mem' e he
        rw [hye.tag]
        exact nn2 s0 hf y hy
    · exact (sEl s hs e he).1
    · exact (cEl s hs e he).1
  · intro t hts s hs e he
    simp only [List.mem_cons, List.not_mem_nil, or_false] at hts
    rcases hts with rfl | rfl
    · exact (sEl s hs e he).2.2.2
    · exact (cEl s hs e he).2.2
  · rw [length_reloaded (hr'.sel _), bN3]; exact nn1
  · intro p hp
    exact plainOnce_reloaded (hproj.1) (projR p hp)
  · intro p hp
    rw [length_reloaded ((projR p hp).sel _)]
    exact hproj.2.1
  · intro p hp f hf t htm
    obtain ⟨y, hy, hyf⟩ := ((projR p hp).sel c!"Fields").mem' f hf
    rw [length_reloaded (hyf.kids.sel t)]
    exact hproj.2.2 y hy t htm
  · intro s hs e he
    have hold2 : ∀ e ∈ oldVars v1, VarElement e := by
      intro e he
      unfold oldVars at he
      cases hf : find c!"PROJECTVARS" v1 with
      | none => rw [hf] at he; cases he
      | some z => rw [hf] at he; rw [find_of_sel_eq bV2] at hf; exact ht.node.vars z hf e he
    have hnew : ∀ z, find c!"PROJECTVARS" v2 = some z → ∀ e ∈ z.kids, VarElement e := by
      intro z hz e he
      rcases buildProjectVars_ok bV1 with ⟨_, rfl⟩ | ⟨_, o, o1, o2, _⟩
      · exact hold2 e (by unfold oldVars; rw [hz]; exact he)
      · have o3 := (buildVars_locale hold2 (by rw [hsl]; exact hl) o1).1
        refine o3 e ?_
        rw [← o2]; unfold oldVars; rw [hz]; exact he
    cases hf : find c!"PROJECTVARS" rk with
    | none => rw [hr'.find_none hf] at hs; cases hs
    | some s0 =>
      obtain ⟨s', g1, g2⟩ := hr'.find hf
      rw [hs] at g1
      cases g1
      rw [find_of_sel_eq bV3] at hf
      obtain ⟨y, hy, hye⟩ := g2.kids.mem' e he
      exact varElement_reloaded (hnew s0 hf y hy) hye
  · intro s hs
    obtain ⟨g1, _, _⟩ := reload_section (key := Prod.fst) s6 (fun p _ e he => sceneElem_hasId s5 (htt.ids c!"SCENES" (by simp) se s1) he)
      (fun p hp => hn.scenes p.1 (by rw [← keys_prepareNovel n]; exact List.mem_map.2 ⟨p, hp, rfl⟩)) (scen s hs)
    rw [nodup_of_mapE g1]
    have : (prepareNovel n).scenes.keys.Nodup := by rw [keys_prepareNovel]; exact hn.sound.scKeys
    have h2 : (List.map Prod.fst (prepareNovel n).scenes).Nodup := this
    exact nodup_map_some h2

end Verif
