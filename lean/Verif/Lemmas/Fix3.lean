/-
Saving an unchanged scene element once more does not change it.
-/
import Verif.Lemmas.Fix2
import Verif.Lemmas.Stable4

namespace Verif
open Xml Spec Elem

theorem AlikeL.putExport {o k lc lr : List Elem} (h : AlikeL o k) {b : Option Bool} (h1 : Xml.sel c!"ExportCondSpecific" o = condSel b lc)
    (h2 : Xml.sel c!"ExportWhenRTF" o = rtfSel b lc lr) (hl : lr.length ≤ 1) : AlikeL o (Verif.putExport b k) := by
  cases b with
  | none => exact h
  | some b =>
    cases b with
    | true =>
      show AlikeL o (Xml.removeFirst _ (Verif.addMissing _ none k))
      have h3 : AlikeL o (Verif.addMissing c!"ExportCondSpecific" none k) := h.addMissing _ (miss_fact h1)
      rw [h3.without (hasTag_sel_nil (h2.trans (tail_once hl)))]
      exact h3
    | false =>
      show AlikeL o (if _ then _ else _)
      rw [h.hasTag]
      split
      · rename_i hc
        refine h.addMissing _ ?_
        have h3 : lc ≠ [] := by
          rw [hasTag_iff, h1] at hc
          exact hc
        have h4 : rtfSel (some false) lc lr = missSel c!"ExportWhenRTF" (some c!"-1") lr := if_neg h3
        exact miss_fact (h2.trans h4)
      · exact h

/-- The scene type is there already, or there is none. -/
def HasField (field : Str) (v : Option Str) (o : List Elem) : Prop :=
  match v with
  | none => ∀ F, find c!"Fields" o = some F → hasTag field F.kids = false
  | some w => ∃ F, find c!"Fields" o = some F ∧ HasText field w F.kids

theorem AlikeL.putSceneType {o k : List Elem} (h : AlikeL o k) {v : Option Str} (hv : HasField c!"Field_SceneType" v o) : AlikeL o (Verif.putSceneType v k) := by
  cases v with
  | none =>
    show AlikeL o (Verif.onFields (Xml.removeFirst _) k)
    refine h.onFields (fun F hF l hl => ?_)
    rw [hl.without (hv F hF)]
    exact hl
  | some w =>
    obtain ⟨F, hF, hT⟩ := hv
    show AlikeL o (Verif.onFields (Verif.putAlways _ (some w)) (Verif.ensureFields k))
    rw [h.ensureFields (by unfold Verif.hasTag; rw [hF]; rfl)]
    refine h.onFields (fun F' hF' l hl => ?_)
    rw [hF] at hF'
    cases hF'
    exact hl.putAlways (by intro w hw; cases hw; exact hT)

theorem AlikeL.removeDateTime {o k : List Elem} (h : AlikeL o k) (hs : ∀ u ∈ dateTags, Xml.sel u o = []) : Verif.removeDateTime k = k := by
  have e : ∀ u ∈ dateTags, Xml.removeFirst u k = k := fun u hu => h.without (hasTag_sel_nil (hs u hu))
  unfold Verif.removeDateTime
  rw [e _ (by decide), e _ (by decide), e _ (by decide), e _ (by decide), e _ (by decide)]

theorem dateTime_removed {a : List Elem} (ho : ∀ u ∈ dateTags, Once (sel u a)) : ∀ u ∈ dateTags, sel u (removeDateTime a) = [] := by
  have o1 := ho c!"SpecificDateTime" (by decide)
  have o2 := ho c!"SpecificDateMode" (by decide)
  have o3 := ho c!"Day" (by decide)
  have o4 := ho c!"Hour" (by decide)
  have o5 := ho c!"Minute" (by decide)
  intro u hu
  unfold removeDateTime
  simp only [dateTags, List.mem_cons, List.not_mem_nil, or_false] at hu
  rcases hu with rfl | rfl | rfl | rfl | rfl
  · rw [sel_removeFirst_ne (by decide), sel_removeFirst_ne (by decide), sel_removeFirst_ne (by decide), sel_removeFirst_ne (by decide), o1.removed]
  · rw [sel_removeFirst_ne (by decide), sel_removeFirst_ne (by decide), sel_removeFirst_ne (by decide), sel_removeFirst_self, sel_removeFirst_ne (by decide), tail_once o2.1]
  · rw [sel_removeFirst_ne (by decide), sel_removeFirst_ne (by decide), sel_removeFirst_self, sel_removeFirst_ne (by decide), sel_removeFirst_ne (by decide), tail_once o3.1]
  · rw [sel_removeFirst_ne (by decide), sel_removeFirst_self, sel_removeFirst_ne (by decide), sel_removeFirst_ne (by decide), sel_removeFirst_ne (by decide), tail_once o4.1]
  · rw [sel_removeFirst_self, sel_removeFirst_ne (by decide), sel_removeFirst_ne (by decide), sel_removeFirst_ne (by decide), sel_removeFirst_ne (by decide), tail_once o5.1]

/-- The part of `putStart` for a start without a date. -/
def putDay (time day : Option Str) (ks : List Elem) : Except Exc (List Elem) :=
  if day = none ∧ time = none then .ok ks
  else if falsy day ∧ falsy time then .ok (removeDateTime ks)
  else
    let ks := putAlways c!"Day" day (removeFirst c!"SpecificDateMode" (removeFirst c!"SpecificDateTime" ks))
    match time with
    | none => .ok ks
    | some t =>
      match Str.split t c!":" with
      | [hours, minutes, _] => .ok (putAlways c!"Minute" (some minutes) (putAlways c!"Hour" (some hours) ks))
      | _ => .error .valueError

theorem putStart_date (d t : Str) (y : Option Str) (ks : List Elem) : putStart (some d) (some t) y ks =
    if d ++ ' ' :: t = c!" " then .ok (removeDateTime ks)
    else if hasTag c!"SpecificDateTime" ks then
      .ok (modFirst c!"SpecificDateTime" (setText (some (if (d ++ ' ' :: t).count ':' < 2 then d ++ ' ' :: t ++ c!":00" else d ++ ' ' :: t))) ks)
    else .ok (removeFirst c!"Minute" (removeFirst c!"Hour" (removeFirst c!"Day"
      (ks ++ [leaf c!"SpecificDateTime" (some (d ++ ' ' :: t))] ++ [leaf c!"SpecificDateMode" (some c!"-1")])))) := rfl

theorem putStart_day {d t : Option Str} (y : Option Str) (ks : List Elem) (h : ¬ (d.isSome ∧ t.isSome)) : putStart d t y ks = putDay t y ks := by
  cases d with
  | none => cases t <;> rfl
  | some d => cases t with
    | none => rfl
    | some t => exact absurd ⟨rfl, rfl⟩ h

theorem putDay_fixed {t y : Option Str} {a mid o k : List Elem} (h : putDay t y a = .ok mid) (ho : ∀ u ∈ dateTags, Once (sel u a))
    (hsel : ∀ u ∈ dateTags, sel u o = sel u mid) (hk : AlikeL o k) : ∃ k', putDay t y k = .ok k' ∧ AlikeL o k' := by
  unfold putDay at h ⊢
  split at h
  · rename_i hc
    rw [if_pos hc]
    exact ⟨k, rfl, hk⟩
  · rename_i hc
    rw [if_neg hc]
    split at h
    · rename_i hf
      rw [if_pos hf]
      cases h
      refine ⟨_, rfl, ?_⟩
      rw [hk.removeDateTime (fun u hu => (hsel u hu).trans (dateTime_removed ho u hu))]
      exact hk
    · rename_i hf
      rw [if_neg hf]
      have o1 := ho c!"SpecificDateTime" (by decide)
      have o2 := ho c!"SpecificDateMode" (by decide)
      have b1 : sel c!"SpecificDateTime" (putAlways c!"Day" y (removeFirst c!"SpecificDateMode" (removeFirst c!"SpecificDateTime" a))) = [] := by
        rw [sel_putAlways_ne (by decide), sel_removeFirst_ne (by decide), o1.removed]
      have b2 : sel c!"SpecificDateMode" (putAlways c!"Day" y (removeFirst c!"SpecificDateMode" (removeFirst c!"SpecificDateTime" a))) = [] := by
        rw [sel_putAlways_ne (by decide), sel_removeFirst_self, sel_removeFirst_ne (by decide), tail_once o2.1]
      have b3 : sel c!"Day" (putAlways c!"Day" y (removeFirst c!"SpecificDateMode" (removeFirst c!"SpecificDateTime" a))) = alwaysSel c!"Day" y (sel c!"Day" a) := by
        rw [sel_putAlways, sel_removeFirst_ne (by decide), sel_removeFirst_ne (by decide)]
      generalize putAlways c!"Day" y (removeFirst c!"SpecificDateMode" (removeFirst c!"SpecificDateTime" a)) = b at h b1 b2 b3
      have base : ∀ {mid' : List Elem}, (∀ u ∈ [c!"SpecificDateTime", c!"SpecificDateMode", c!"Day"], sel u mid' = sel u b) → (∀ u ∈ dateTags, sel u o = sel u mid') →
          AlikeL o (putAlways c!"Day" y (removeFirst c!"SpecificDateMode" (removeFirst c!"SpecificDateTime" k))) := by
        intro mid' h1 h2
        have c1 := (h2 c!"SpecificDateTime" (by decide)).trans ((h1 _ (by decide)).trans b1)
        have c2 := (h2 c!"SpecificDateMode" (by decide)).trans ((h1 _ (by decide)).trans b2)
        have c3 := (h2 c!"Day" (by decide)).trans ((h1 _ (by decide)).trans b3)
        rw [hk.without (hasTag_sel_nil c1), hk.without (hasTag_sel_nil c2)]
        exact hk.putAlways (always_fact c3)
      cases t with
      | none =>
        dsimp only at h ⊢
        cases h
        exact ⟨_, rfl, base (fun _ _ => rfl) hsel⟩
      | some t =>
        dsimp only at h ⊢
        split at h
        · rename_i hh mm x hsp
          cases h
          refine ⟨_, rfl, ?_⟩
          have hb := base (mid' := putAlways c!"Minute" (some mm) (putAlways c!"Hour" (some hh) b)) (by
            intro u hu
            simp only [List.mem_cons, List.not_mem_nil, or_false] at hu
            rcases hu with rfl | rfl | rfl <;> rw [sel_putAlways_ne (by decide), sel_putAlways_ne (by decide)]) hsel
          refine AlikeL.putAlways (AlikeL.putAlways hb ?_) ?_
          · refine always_fact (l := sel c!"Hour" b) ?_
            rw [hsel _ (by decide), sel_putAlways_ne (by decide), sel_putAlways]
          · refine always_fact (l := sel c!"Minute" b) ?_
            rw [hsel _ (by decide), sel_putAlways, sel_putAlways_ne (by decide)]
        · cases h

theorem sel_leaf_ne {t u : Str} (h : t ≠ u) (v : Option Str) : sel u [leaf t v] = [] := by
  unfold sel
  rw [List.filter_cons, if_neg (by rw [decide_eq_true_eq]; exact h)]
  rfl

theorem setText_text (v : Option Str) (e : Elem) : (setText v e).text = v := by cases e; rfl

/-- Writing the start of a scene once more changes nothing. -/
theorem putStart_fixed {d t y : Option Str} {a mid o k : List Elem} (h : putStart d t y a = .ok mid) (ho : ∀ u ∈ dateTags, Once (sel u a))
    (hsel : ∀ u ∈ dateTags, sel u o = sel u mid) (hk : AlikeL o k)
    (hc : ∀ d' t', d = some d' → t = some t' → d' ++ ' ' :: t' = c!" " ∨ 2 ≤ (d' ++ ' ' :: t').count ':') : ∃ k', putStart d t y k = .ok k' ∧ AlikeL o k' := by
  by_cases hdt : d.isSome ∧ t.isSome
  · cases d with
    | none => exact absurd hdt.1 (by decide)
    | some d =>
      cases t with
      | none => exact absurd hdt.2 (by decide)
      | some t =>
        have hc := hc d t rfl rfl
        rw [putStart_date] at h ⊢
        generalize d ++ ' ' :: t = dt at h hc ⊢
        split at h
        · rename_i hsp
          rw [if_pos hsp]
          cases h
          refine ⟨_, rfl, ?_⟩
          rw [hk.removeDateTime (fun u hu => (hsel u hu).trans (dateTime_removed ho u hu))]
          exact hk
        · rename_i hsp
          rw [if_neg hsp, hk.hasTag]
          have hc : ¬ dt.count ':' < 2 := by
            rcases hc with hc | hc
            · exact absurd hc hsp
            · omega
          rw [if_neg hc] at h ⊢
          have hT : HasText c!"SpecificDateTime" dt o := by
            split at h
            · rename_i ht
              cases h
              have hs := hsel c!"SpecificDateTime" (by decide)
              rw [sel_setText] at hs
              rw [hasTag_iff] at ht
              cases hx : sel c!"SpecificDateTime" a with
              | nil => exact absurd hx ht
              | cons e r =>
                rw [hx] at hs
                refine ⟨_, find_sel_cons hs, .inl ?_⟩
                rw [setText_text]
            · rename_i ht
              cases h
              have hs := hsel c!"SpecificDateTime" (by decide)
              rw [sel_removeFirst_ne (by decide), sel_removeFirst_ne (by decide), sel_removeFirst_ne (by decide), sel_app, sel_leaf_ne (by decide), List.append_nil,
                sel_append_leaf] at hs
              have hx : sel c!"SpecificDateTime" a = [] := by
                rw [hasTag_iff] at ht
                exact Classical.not_not.1 ht
              rw [hx] at hs
              exact ⟨_, find_sel_cons hs, .inl rfl⟩
          rw [if_pos hT.tag]
          exact ⟨_, rfl, hk.setText hT⟩
  · rw [putStart_day _ _ hdt] at h ⊢
    exact putDay_fixed h ho hsel hk

/-! ### Lists and the last pass -/

/-- The ID lists of a scene, and the last pass. -/
def putLists (C L I : List Str) (ks : List Elem) : List Elem :=
  putIds c!"Items" c!"ItmID" I (putIds c!"Locations" c!"LocID" L (putIds c!"Characters" c!"CharID" C ks))

theorem AlikeL.putLists {o k : List Elem} (h : AlikeL o k) (C L I : List Str) : AlikeL (Verif.putLists C L I o) (Verif.putLists C L I k) :=
  ((h.putIds _ _ _).putIds _ _ _).putIds _ _ _

/-- The three lists at the end. -/
def listsEnd (C L I : List Str) : List Elem := idList c!"Characters" c!"CharID" C ++ (idList c!"Locations" c!"LocID" L ++ idList c!"Items" c!"ItmID" I)

theorem putLists_eq (C L I : List Str) (a : List Elem) :
    putLists C L I a = removeFirst c!"Items" (removeFirst c!"Locations" (removeFirst c!"Characters" a)) ++ listsEnd C L I := by
  unfold putLists listsEnd
  rw [putIds_eq, putIds_eq, putIds_eq, removeFirst_append_right (sel_idList_ne (by decide)), removeFirst_append_right (sel_idList_ne (by decide)),
    removeFirst_append_right (sel_idList_ne (by decide)), List.append_assoc, List.append_assoc]

theorem listsEnd_dropped (C L I : List Str) : ∀ t ∈ c!"SceneContent" :: droppedScene, sel t (listsEnd C L I) = [] := by
  intro t ht
  unfold listsEnd
  rw [sel_app, sel_app]
  simp only [droppedScene, List.mem_cons, List.not_mem_nil, or_false] at ht
  rcases ht with rfl | rfl | rfl | rfl | rfl <;> rw [sel_idList_ne (by decide), sel_idList_ne (by decide), sel_idList_ne (by decide)] <;> rfl

/-- Rebuilding the lists of what has them at its end. -/
theorem putLists_again (C L I : List Str) {r w : List Elem} (hr : ∀ t ∈ [c!"Characters", c!"Locations", c!"Items"], sel t r = [])
    (hw : ∀ t ∈ [c!"Characters", c!"Locations", c!"Items"], sel t w = []) : putLists C L I (r ++ listsEnd C L I ++ w) = r ++ w ++ listsEnd C L I := by
  rw [putLists_eq]
  congr 1
  unfold listsEnd
  have nl : ∀ (t u sub : Str) (ids : List Str), u ≠ t → sel u (idList t sub ids) = [] := fun t u sub ids h => sel_idList_ne h
  rw [List.append_assoc, List.append_assoc, removeFirst_append_left (hr _ (by decide)), List.append_assoc,
    removeFirst_idList _ _ _ (by rw [sel_app, sel_app, nl _ _ _ _ (by decide), nl _ _ _ _ (by decide), hw _ (by decide)]; rfl),
    removeFirst_append_left (hr _ (by decide)),
    removeFirst_idList _ _ _ (by rw [sel_app, nl _ _ _ _ (by decide), hw _ (by decide)]; rfl),
    removeFirst_append_left (hr _ (by decide)), removeFirst_idList _ _ _ (hw _ (by decide))]

theorem sel_putContent_ne {t : Str} (h : c!"SceneContent" ≠ t) (c : Option Str) (a : List Elem) : sel t (putContent c a) = sel t a := by
  cases c with
  | none => rfl
  | some c => exact sel_setText_ne h _ _

theorem lists_fixed (c : Option Str) (C L I : List Str) {m : List Elem} (hd : ∀ t ∈ droppedScene, (sel t m).length ≤ 1)
    (hl : ∀ t ∈ [c!"Characters", c!"Locations", c!"Items"], (sel t m).length ≤ 1) (v w : Option Str) :
    (∀ t ∈ droppedScene, sel t (finishScene c (putLists C L I m)) = []) ∧
    finishScene c (putLists C L I (finishScene c (putLists C L I m) ++ [leaf c!"WordCount" v, leaf c!"LetterCount" w])) = finishScene c (putLists C L I m) := by
  have e1 : putLists C L I m = removeFirst c!"Items" (removeFirst c!"Locations" (removeFirst c!"Characters" m)) ++ listsEnd C L I := putLists_eq C L I m
  have hb : ∀ t ∈ [c!"Characters", c!"Locations", c!"Items"], sel t (removeFirst c!"Items" (removeFirst c!"Locations" (removeFirst c!"Characters" m))) = [] := by
    intro t ht
    have h1 := tail_once (hl t ht)
    simp only [List.mem_cons, List.not_mem_nil, or_false] at ht
    rcases ht with rfl | rfl | rfl
    · rw [sel_removeFirst_ne (by decide), sel_removeFirst_ne (by decide), sel_removeFirst_self, h1]
    · rw [sel_removeFirst_ne (by decide), sel_removeFirst_self, sel_removeFirst_ne (by decide), h1]
    · rw [sel_removeFirst_self, sel_removeFirst_ne (by decide), sel_removeFirst_ne (by decide), h1]
  have hd' : ∀ t ∈ droppedScene, (sel t (removeFirst c!"Items" (removeFirst c!"Locations" (removeFirst c!"Characters" m)))).length ≤ 1 := by
    intro t ht
    have h1 := hd t ht
    simp only [droppedScene, List.mem_cons, List.not_mem_nil, or_false] at ht
    rcases ht with rfl | rfl | rfl | rfl <;>
      rwa [sel_removeFirst_ne (by decide), sel_removeFirst_ne (by decide), sel_removeFirst_ne (by decide)]
  generalize removeFirst c!"Items" (removeFirst c!"Locations" (removeFirst c!"Characters" m)) = b at e1 hb hd'
  have e2 : finishScene c (putLists C L I m) = finishScene c b ++ listsEnd C L I := by
    rw [e1]
    exact finishScene_append c (listsEnd_dropped C L I)
  obtain ⟨t1, t2⟩ := finishScene_twice c hd'
  have hbr : ∀ t ∈ [c!"Characters", c!"Locations", c!"Items"], sel t (finishScene c b) = [] := by
    intro t ht
    rw [sel_finishScene_ne ?_, hb t ht]
    simp only [List.mem_cons, List.not_mem_nil, or_false] at ht
    rcases ht with rfl | rfl | rfl <;> decide
  generalize hr : finishScene c b = r at e2 t1 t2 hbr
  rw [e2]
  refine ⟨?_, ?_⟩
  · intro t ht
    rw [sel_app, t1 t ht, listsEnd_dropped C L I t (List.mem_cons_of_mem _ ht)]
    rfl
  · have hw : ∀ t ∈ [c!"Characters", c!"Locations", c!"Items"], sel t [leaf c!"WordCount" v, leaf c!"LetterCount" w] = [] := by
      intro t ht
      simp only [List.mem_cons, List.not_mem_nil, or_false] at ht
      rcases ht with rfl | rfl | rfl <;> rfl
    rw [putLists_again C L I hbr hw, finishScene_append c (listsEnd_dropped C L I)]
    congr 1
    have hp : putContent c (r ++ [leaf c!"WordCount" v, leaf c!"LetterCount" w]) = putContent c r ++ [leaf c!"WordCount" v, leaf c!"LetterCount" w] := by
      cases c with
      | none => rfl
      | some c => exact modFirst_append_right rfl
    have hs : ∀ t ∈ droppedScene, sel t (putContent c r) = [] := by
      intro t ht
      rw [sel_putContent_ne ?_, t1 t ht]
      simp only [droppedScene, List.mem_cons, List.not_mem_nil, or_false] at ht
      rcases ht with rfl | rfl | rfl | rfl <;> decide
    have hpr : putContent c r = r := by
      have := t2
      rw [finishScene_eq, removeFirst_of_none (hs _ (by decide)), removeFirst_of_none (hs _ (by decide)), removeFirst_of_none (hs _ (by decide)),
        removeFirst_of_none (hs _ (by decide))] at this
      exact this
    rw [finishScene_eq, hp, removeFirst_append_left (hs _ (by decide))]
    have x1 : removeFirst c!"WordCount" [leaf c!"WordCount" v, leaf c!"LetterCount" w] = [leaf c!"LetterCount" w] := rfl
    rw [x1, removeFirst_append_left (hs _ (by decide))]
    have x2 : removeFirst c!"LetterCount" [leaf c!"LetterCount" w] = [] := rfl
    rw [x2, List.append_nil, removeFirst_of_none (hs _ (by decide)), removeFirst_of_none (hs _ (by decide)), hpr]

/-! ### The whole scene -/

theorem onFieldsSel_ne {f : List Elem → List Elem} {l : List Elem} (h : l ≠ []) : onFieldsSel f l ≠ [] := by
  cases l with
  | nil => exact absurd rfl h
  | cons => exact List.cons_ne_nil _ _

theorem ensureSel_cons (l : List Elem) : ensureSel l ≠ [] := by
  cases l <;> exact List.cons_ne_nil _ _

theorem customSel_ne {field : Str} {v : Option Str} {l : List Elem} (h : l ≠ []) : customSel field v l ≠ [] := by
  unfold customSel
  split
  · exact onFieldsSel_ne h
  · exact onFieldsSel_ne h
  · exact onFieldsSel_ne (ensureSel_cons l)

theorem customSel_value {field : Str} {v : Option Str} {l : List Elem} (h : v.getD [] ≠ []) : customSel field v l ≠ [] := by
  unfold customSel
  split
  · exact absurd rfl h
  · exact absurd rfl h
  · exact onFieldsSel_ne (ensureSel_cons l)

theorem field_fact {v : Option Str} {o fk : List Elem} (h : sel c!"Field_SceneType" (headKids (sel c!"Fields" o)) = sel c!"Field_SceneType" (sceneTypeKids v fk))
    (hF : v ≠ none → sel c!"Fields" o ≠ []) (ho : (sel c!"Field_SceneType" fk).length ≤ 1) : HasField c!"Field_SceneType" v o := by
  have hh : ∀ F, find c!"Fields" o = some F → headKids (sel c!"Fields" o) = F.kids := by
    intro F hF
    rw [find_eq] at hF
    cases hx : sel c!"Fields" o with
    | nil => rw [hx] at hF; cases hF
    | cons e r => rw [hx] at hF; cases hF; rfl
  cases v with
  | none =>
    intro F hF
    rw [hh F hF] at h
    refine hasTag_sel_nil (h.trans ?_)
    show sel _ (removeFirst _ fk) = []
    rw [sel_removeFirst_self, tail_once ho]
  | some w =>
    cases hx : sel c!"Fields" o with
    | nil => exact absurd hx (hF (by simp))
    | cons F r =>
      refine ⟨F, find_sel_cons hx, ?_⟩
      rw [hh F (find_sel_cons hx)] at h
      have h1 : sel c!"Field_SceneType" F.kids = alwaysSel c!"Field_SceneType" (some w) (sel c!"Field_SceneType" fk) := by
        rw [h]
        exact sel_putAlways c!"Field_SceneType" (some w) fk
      exact always_fact h1 w rfl

/-- Saving an unchanged scene element once more does not change it. -/
theorem scene_fixed {s : Scene} {ks o k : List Elem} (hk : SceneElement ks) (tidy : ∀ t ∈ droppedScene, (sel t ks).length ≤ 1)
    (hst : ∀ d t, s.date = some d → s.time = some t → d ++ ' ' :: t = c!" " ∨ 2 ≤ (d ++ ' ' :: t).count ':')
    (h : sceneOut s ks = .ok o) (ha : AlikeL o k) : ∃ o', sceneOut s k = .ok o' ∧ AlikeL o o' := by
  obtain ⟨u, ty, hu, hun, hf⟩ := scene_Unused h
  obtain ⟨x1, x2⟩ := scene_export h
  obtain ⟨a, mid, d1, d2⟩ := scene_dates h
  have hp : ∀ t ∈ sceneTextTags, Once (sel t ks) := hk.plain
  -- the lists
  have hlists : (∀ t ∈ droppedScene, sel t o = []) ∧ ∀ v w, finishScene s.sceneContent (putLists (s.characters.getD []) (s.locations.getD []) (s.items.getD [])
      (o ++ [leaf c!"WordCount" v, leaf c!"LetterCount" w])) = o := by
    obtain ⟨u', ty', mid', _, h2, h3⟩ := sceneOut_ok h
    obtain ⟨m, hm⟩ : ∃ m, buildSceneB s mid' = putLists (s.characters.getD []) (s.locations.getD []) (s.items.getD []) m ∧
        ∀ t ∈ [c!"Characters", c!"Locations", c!"Items"] ++ droppedScene, sel t m = sel t mid' := by
      refine ⟨_, rfl, ?_⟩
      intro t ht
      simp only [droppedScene, List.mem_append, List.mem_cons, List.not_mem_nil, or_false] at ht
      rcases ht with (rfl | rfl | rfl) | rfl | rfl | rfl | rfl <;> frameA0
    have hsel : ∀ t ∈ [c!"Characters", c!"Locations", c!"Items"] ++ droppedScene, (sel t m).length ≤ 1 := by
      intro t ht
      rw [hm.2 t ht]
      have h4 : (sel t ks).length ≤ 1 := by
        rcases List.mem_append.1 ht with ht | ht
        · exact hk.lists t ht
        · exact tidy t ht
      simp only [droppedScene, List.mem_append, List.mem_cons, List.not_mem_nil, or_false] at ht
      have hmiss : ∀ (t : Str) (v : Option Str) (l : List Elem), l.length ≤ 1 → (missSel t v l).length ≤ 1 := by
        intro t v l hl
        unfold missSel
        split
        · exact Nat.le_refl _
        · exact hl
      rcases ht with (rfl | rfl | rfl) | rfl | rfl | rfl | rfl
      · rw [sel_putStart (by decide) h2]; frameA; exact h4
      · rw [sel_putStart (by decide) h2]; frameA; exact h4
      · rw [sel_putStart (by decide) h2]; frameA; exact h4
      · rw [sel_putStart (by decide) h2]; frameA; exact hmiss _ _ _ h4
      · rw [sel_putStart (by decide) h2]; frameA; exact hmiss _ _ _ h4
      · rw [sel_putStart (by decide) h2]; frameA; exact h4
      · rw [sel_putStart (by decide) h2]; frameA; exact h4
    have := fun v w => lists_fixed s.sceneContent (s.characters.getD []) (s.locations.getD []) (s.items.getD [])
      (fun t ht => hsel t (List.mem_append_right _ ht)) (fun t ht => hsel t (List.mem_append_left _ ht)) v w
    rw [h3, hm.1]
    exact ⟨(this none none).1, fun v w => (this v w).2⟩
  obtain ⟨hdrop, hagain⟩ := hlists
  -- the first steps
  have hone : ∀ t ∈ sceneTextTags, (sel t ks).length ≤ 1 := fun t ht => (hp t ht).1
  have hSC : hasTag c!"SceneContent" o = true := by
    rw [hasTag_iff, scene_SceneContent h]
    cases s.sceneContent with
    | none => exact missSel_ne
    | some c =>
      dsimp only
      cases hx : missSel c!"SceneContent" (some c) (sel c!"SceneContent" ks) with
      | nil => exact absurd hx missSel_ne
      | cons => exact List.cons_ne_nil _ _
  have a1 := ha.setElement 1 (always_fact (scene_Title h))
  have a2 := a1.putText (text_fact (scene_Desc h))
  have a3 := a2.addMissing s.sceneContent hSC
  have a4 : AlikeL (o ++ [leaf c!"WordCount" (some (Str.ofNat s.wordCount)), leaf c!"LetterCount" (some (Str.ofNat s.letterCount))])
      (addMissing c!"LetterCount" (some (Str.ofNat s.letterCount)) (addMissing c!"WordCount" (some (Str.ofNat s.wordCount))
        (addMissing c!"SceneContent" s.sceneContent (putText c!"Desc" s.desc (setElement c!"Title" s.title (k, 1)).1)))) := by
    generalize (addMissing c!"SceneContent" s.sceneContent (putText c!"Desc" s.desc (setElement c!"Title" s.title (k, 1)).1)) = k3 at a3
    have n1 : hasTag c!"WordCount" k3 = false := by rw [a3.hasTag]; exact hasTag_sel_nil (hdrop _ (by decide))
    have n2 : hasTag c!"LetterCount" k3 = false := by rw [a3.hasTag]; exact hasTag_sel_nil (hdrop _ (by decide))
    have e1 : addMissing c!"WordCount" (some (Str.ofNat s.wordCount)) k3 = k3 ++ [leaf c!"WordCount" (some (Str.ofNat s.wordCount))] := by
      unfold addMissing
      rw [n1]
      rfl
    have n3 : hasTag c!"LetterCount" (k3 ++ [leaf c!"WordCount" (some (Str.ofNat s.wordCount))]) = false := by
      rw [hasTag_eq] at n2 ⊢
      rw [sel_app, sel_leaf_ne (by decide), List.append_nil]
      exact n2
    have e2 : addMissing c!"LetterCount" (some (Str.ofNat s.letterCount)) (k3 ++ [leaf c!"WordCount" (some (Str.ofNat s.wordCount))]) =
        (k3 ++ [leaf c!"WordCount" (some (Str.ofNat s.wordCount))]) ++ [leaf c!"LetterCount" (some (Str.ofNat s.letterCount))] := by
      unfold addMissing
      rw [n3]
      rfl
    rw [e1, e2, List.append_assoc]
    exact a3.append (AlikeL.refl _)
  have o1sel : ∀ t, c!"WordCount" ≠ t → c!"LetterCount" ≠ t → sel t (o ++ [leaf c!"WordCount" (some (Str.ofNat s.wordCount)), leaf c!"LetterCount" (some (Str.ofNat s.letterCount))]) = sel t o := by
    intro t h1 h2
    rw [sel_app]
    have : sel t [leaf c!"WordCount" (some (Str.ofNat s.wordCount)), leaf c!"LetterCount" (some (Str.ofNat s.letterCount))] = [] := by
      unfold sel
      rw [List.filter_cons, if_neg (by rw [decide_eq_true_eq]; exact h1), List.filter_cons, if_neg (by rw [decide_eq_true_eq]; exact h2)]
      rfl
    rw [this, List.append_nil]
  have hag := hagain (some (Str.ofNat s.wordCount)) (some (Str.ofNat s.letterCount))
  generalize o ++ [leaf c!"WordCount" (some (Str.ofNat s.wordCount)), leaf c!"LetterCount" (some (Str.ofNat s.letterCount))] = o1 at a4 o1sel hag
  -- the custom fields
  have hFs : sel c!"Fields" o1 = _ := (o1sel c!"Fields" (by decide) (by decide)).trans hf
  have hfk : ∀ t ∈ [c!"Field_SceneType", c!"Field_SceneArcs", c!"Field_SceneMode"], (sel t (headKids (sel c!"Fields" ks))).length ≤ 1 := by
    intro t ht
    exact (plainOnce_head hk.fields t ht).1
  have hkids : headKids (sel c!"Fields" o1) = _ := congrArg headKids hFs
  rw [headKids_customSel, headKids_customSel, headKids_sceneTypeSel'] at hkids
  have hty : ∀ t, c!"Field_SceneType" ≠ t → ∀ l, sel t (sceneTypeKids ty l) = sel t l := by
    intro t ht l
    cases ty with
    | none => exact sel_removeFirst_ne ht l
    | some v => exact sel_putAlways_ne ht (some v) l
  have f1 : HasField c!"Field_SceneType" ty o1 := by
    refine field_fact (fk := headKids (sel c!"Fields" ks)) ?_ ?_ (hfk _ (by decide))
    · rw [hkids, sel_customKids_ne (by decide), sel_customKids_ne (by decide)]
    · intro hne
      rw [hFs]
      refine customSel_ne (customSel_ne ?_)
      cases ty with
      | none => exact absurd rfl hne
      | some v => exact onFieldsSel_ne (ensureSel_cons _)
  have f2 : HasCustom c!"Field_SceneArcs" (s.kwVar.get? c!"Field_SceneArcs").join o1 := by
    refine custom_fact (fk := sceneTypeKids ty (headKids (sel c!"Fields" ks))) ?_ ?_ ?_
    · rw [hkids, sel_customKids_ne (by decide)]
    · intro hne
      rw [hFs]
      exact customSel_ne (customSel_value hne)
    · rw [hty _ (by decide)]; exact hfk _ (by decide)
  have f3 : HasCustom c!"Field_SceneMode" (s.kwVar.get? c!"Field_SceneMode").join o1 := by
    refine custom_fact (fk := customKids c!"Field_SceneArcs" (s.kwVar.get? c!"Field_SceneArcs").join (sceneTypeKids ty (headKids (sel c!"Fields" ks)))) ?_ ?_ ?_
    · rw [hkids]
    · intro hne
      rw [hFs]
      exact customSel_value hne
    · rw [sel_customKids_ne (by decide), hty _ (by decide)]; exact hfk _ (by decide)
  -- the other steps
  have T : ∀ {t : Str} {v : Option Str} {l : List Elem}, sel t o = textSel t v l → c!"WordCount" ≠ t → c!"LetterCount" ≠ t →
      ∀ w, v = some w → HasText t w o1 ∨ (hasTag t o1 = false ∧ w = []) := fun h h1 h2 => text_fact ((o1sel _ h1 h2).trans h)
  have F : ∀ {t : Str} {b : Bool} {l : List Elem}, sel t o = flagSel t b l → l.length ≤ 1 → c!"WordCount" ≠ t → c!"LetterCount" ≠ t → hasTag t o1 = b :=
    fun h hl h1 h2 => flag_fact ((o1sel _ h1 h2).trans h) hl
  have b1 := a4.putFlag (F hun (hone _ (by decide)) (by decide) (by decide))
  have b2 := b1.putSceneType f1
  have b3 := b2.putExport ((o1sel _ (by decide) (by decide)).trans x1) ((o1sel _ (by decide) (by decide)).trans x2) (hone _ (by decide))
  have b4 := b3.putCustom f2
  have b5 := b4.putCustom f3
  have b6 := b5.putAlways (always_fact ((o1sel _ (by decide) (by decide)).trans (scene_Status h)))
  have b7 := b6.putText (T (scene_Notes h) (by decide) (by decide))
  have b8 := b7.putText (T (scene_Tags h) (by decide) (by decide))
  have b9 := b8.putText (T (scene_Field1 h) (by decide) (by decide))
  have b10 := b9.putText (T (scene_Field2 h) (by decide) (by decide))
  have b11 := b10.putText (T (scene_Field3 h) (by decide) (by decide))
  have b12 := b11.putText (T (scene_Field4 h) (by decide) (by decide))
  have b13 := b12.putFlag (F (scene_AppendToPrev h) (hone _ (by decide)) (by decide) (by decide))
  obtain ⟨k', hk', c0⟩ := putStart_fixed (o := o1) d1 (fun t ht => by
      rw [(d2 t ht).1]
      refine hp t ?_
      simp only [dateTags, List.mem_cons, List.not_mem_nil, or_false] at ht
      rcases ht with rfl | rfl | rfl | rfl | rfl <;> decide) (fun t ht => by
      rw [o1sel t, (d2 t ht).2]
      · simp only [dateTags, List.mem_cons, List.not_mem_nil, or_false] at ht
        rcases ht with rfl | rfl | rfl | rfl | rfl <;> decide
      · simp only [dateTags, List.mem_cons, List.not_mem_nil, or_false] at ht
        rcases ht with rfl | rfl | rfl | rfl | rfl <;> decide) b13 hst
  have c1 := c0.putText (T (scene_LastsDays h) (by decide) (by decide))
  have c2 := c1.putText (T (scene_LastsHours h) (by decide) (by decide))
  have c3 := c2.putText (T (scene_LastsMinutes h) (by decide) (by decide))
  have c4 := c3.putFlag (F (scene_ReactionScene h) (hone _ (by decide)) (by decide) (by decide))
  have c5 := c4.putFlag (F (scene_SubPlot h) (hone _ (by decide)) (by decide) (by decide))
  have c6 := c5.putText (T (scene_Goal h) (by decide) (by decide))
  have c7 := c6.putText (T (scene_Conflict h) (by decide) (by decide))
  have c8 := c7.putText (T (scene_Outcome h) (by decide) (by decide))
  have c9 := c8.putText (T (scene_ImageFile h) (by decide) (by decide))
  have c10 := (c9.putLists (s.characters.getD []) (s.locations.getD []) (s.items.getD [])).finishScene s.sceneContent
  rw [hag] at c10
  refine ⟨finishScene s.sceneContent (buildSceneB s k'), ?_, c10⟩
  have hA : putStart s.date s.time s.day (buildSceneA s u ty k) = .ok k' := hk'
  unfold sceneOut buildScene
  rw [hu]
  dsimp only
  rw [hA]

end Verif
