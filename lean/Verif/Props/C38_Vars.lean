/-
C38: project variables; C46: project data.
-/
import Verif.Lemmas.Yw7ReadTree
import Verif.Props.C22_Structure

namespace Verif
open Xml Elem Spec

/-! ## C38 on the list of project variables -/

theorem textOf_setLocale {lng ctr : Option Str} {t : Str} (ht : c!"Desc" ≠ t) (e : Elem) :
    textOf t (setLocale lng ctr e).kids = textOf t e.kids := by
  unfold setLocale
  split
  · rw [kids_mapKids, textOf_eq, textOf_eq, (touches_modFirst c!"Desc" (by simp)).sel_ne ht]
  · split
    · rw [kids_mapKids, textOf_eq, textOf_eq, (touches_modFirst c!"Desc" (by simp)).sel_ne ht]
    · rfl

theorem langsIn_setLocale (lng ctr : Option Str) (ks : List Elem) :
    langsIn (ks.map (setLocale lng ctr)) = langsIn ks := by
  unfold langsIn
  rw [List.filterMap_map]
  congr 1
  funext e
  show (textOf c!"Title" (setLocale lng ctr e).kids).bind langCode = _
  rw [textOf_setLocale (by decide)]

theorem varIds_setLocale (lng ctr : Option Str) (ks : List Elem) :
    varIds (ks.map (setLocale lng ctr)) = varIds ks := by
  unfold varIds
  rw [List.filterMap_map]
  congr 1
  funext e
  show textOf c!"ID" (setLocale lng ctr e).kids = _
  rw [textOf_setLocale (by decide)]

theorem otherVars_setLocale (lng ctr : Option Str) (ks : List Elem) :
    otherVars (ks.map (setLocale lng ctr)) = otherVars ks := by
  induction ks with
  | nil => rfl
  | cons e r ih =>
    unfold otherVars at ih ⊢
    rw [List.map_cons, List.filter_cons, List.filter_cons, ih, textOf_setLocale (by decide)]
    split
    · rename_i h
      simp only [ne_eq, decide_eq_true_eq] at h
      congr 1
      unfold setLocale
      rw [if_neg h.1, if_neg h.2]
    · rfl

theorem varIds_mkVar (ids : List Str) (ts : List (Str × Option Str)) (h : ids.length = ts.length) :
    varIds ((ids.zip ts).map mkVar) = ids := by
  induction ids generalizing ts with
  | nil => rfl
  | cons i r ih =>
    cases ts with
    | nil => cases h
    | cons t s =>
      have := ih s (by simpa using h)
      unfold varIds at this ⊢
      rw [List.zip_cons_cons, List.map_cons, List.filterMap_cons]
      show i :: _ = _
      rw [this]

theorem langsIn_mkVar (ids : List Str) (ts : List (Str × Option Str)) (h : ids.length = ts.length) :
    langsIn ((ids.zip ts).map mkVar) = ts.filterMap (fun t => langCode t.1) := by
  induction ids generalizing ts with
  | nil =>
    cases ts with
    | nil => rfl
    | cons t s => cases h
  | cons i r ih =>
    cases ts with
    | nil => cases h
    | cons t s =>
      have := ih s (by simpa using h)
      unfold langsIn at this ⊢
      rw [List.zip_cons_cons, List.map_cons, List.filterMap_cons, List.filterMap_cons, this]
      rfl

theorem codes_flatMap (langs : List Str) (h : ∀ c ∈ langs, '=' ∉ c) :
    (langs.flatMap langPair).filterMap (fun t => langCode t.1) = langs := by
  induction langs with
  | nil => rfl
  | cons c r ih =>
    rw [List.flatMap_cons, List.filterMap_append, ih (fun c hc => h c (by simp [hc]))]
    have h1 := langCode_lang c (h c (by simp))
    have h2 := langCode_end c
    unfold langPair
    rw [List.filterMap_cons, h1, List.filterMap_cons, h2]
    rfl

theorem codes_newVars (lng ctr : Option Str) (ks : List Elem) (langs : List Str) (h : ∀ c ∈ langs, '=' ∉ c) :
    (newVars lng ctr ks langs).filterMap (fun t => langCode t.1) = langs := by
  unfold newVars
  rw [List.filterMap_append, List.filterMap_append, codes_flatMap langs h]
  split <;> split <;> rfl

/-- **C38, saving**: the variables of the file are kept, all but those for the document's locale
unchanged; the added ones have new, distinct IDs; every language of the novel that is not registered yet
is registered once. -/
theorem C38_saved (langs : List Str) (lng ctr : Option Str) (ks : List Elem)
    (hk : ∀ e ∈ ks, VarElement e) (hl : langs.Nodup) (hc : ∀ c ∈ langs, '=' ∉ c) :
    ∃ kept new, buildVars langs lng ctr ks = .ok (kept ++ new) ∧
      kept.length = ks.length ∧ otherVars kept = otherVars ks ∧ varIds kept = varIds ks ∧
      (varIds new).Nodup ∧ (∀ i ∈ varIds new, i ∉ varIds ks) ∧
      langsIn (kept ++ new) = langsIn ks ++ langs.filter (fun c => decide (c ∉ langsIn ks)) := by
  obtain ⟨ids, ts, h0, h1, h2, h3, h4⟩ := buildVars_ok (lng := lng) (ctr := ctr) hk hl
  refine ⟨_, _, h4, by simp, otherVars_setLocale _ _ _, varIds_setLocale _ _ _, ?_, ?_, ?_⟩
  · rw [varIds_mkVar _ _ h1]; exact h2
  · rw [varIds_mkVar _ _ h1]; exact fun i hi => (h3 i hi).1
  · rw [langsIn_append, langsIn_setLocale, langsIn_mkVar _ _ h1, h0, codes_newVars]
    intro c hcm
    exact hc c (List.mem_filter.1 hcm).1

/-- The IDs of all variables stay distinct. -/
theorem C38_unique_ids (langs : List Str) (lng ctr : Option Str) (ks out : List Elem)
    (hk : ∀ e ∈ ks, VarElement e) (hl : langs.Nodup) (hu : (varIds ks).Nodup)
    (h : buildVars langs lng ctr ks = .ok out) : (varIds out).Nodup := by
  obtain ⟨ids, ts, h0, h1, h2, h3, h4⟩ := buildVars_ok (lng := lng) (ctr := ctr) hk hl
  rw [h4] at h; cases h
  rw [varIds_append, varIds_setLocale, varIds_mkVar _ _ h1]
  rw [List.nodup_append]
  refine ⟨hu, h2, ?_⟩
  intro a ha b hb hab
  subst hab
  exact (h3 a hb).1 ha

/-- Saving the same languages again adds nothing. -/
theorem C38_once (langs : List Str) (lng ctr : Option Str) (ks out : List Elem)
    (hk : ∀ e ∈ ks, VarElement e) (hl : langs.Nodup) (hc : ∀ c ∈ langs, '=' ∉ c)
    (hr : (langsIn ks).Nodup) (h : buildVars langs lng ctr ks = .ok out) :
    (langsIn out).Nodup ∧ ∀ c, c ∈ langsIn out ↔ c ∈ langsIn ks ∨ c ∈ langs := by
  obtain ⟨kept, new, h1, _, _, _, _, _, h7⟩ := C38_saved langs lng ctr ks hk hl hc
  rw [h1] at h; cases h
  rw [h7]
  constructor
  · rw [List.nodup_append]
    refine ⟨hr, hl.filter _, ?_⟩
    intro a ha b hb hab
    subst hab
    have := (List.mem_filter.1 hb).2
    simp only [decide_eq_true_eq] at this
    exact this ha
  · intro c
    simp only [List.mem_append, List.mem_filter, decide_eq_true_eq]
    constructor
    · rintro (h | h)
      · exact Or.inl h
      · exact Or.inr h.1
    · rintro (h | h)
      · exact Or.inl h
      · by_cases hm : c ∈ langsIn ks
        · exact Or.inl hm
        · exact Or.inr ⟨h, hm⟩

theorem varElement_setLocale {lng ctr : Option Str} {e : Elem} (h : VarElement e) :
    VarElement (setLocale lng ctr e) := by
  have key : ∀ v, VarElement (e.mapKids (modFirst c!"Desc" (setText v))) := by
    intro v
    have hid : ∀ t, c!"Desc" ≠ t → sel t (e.mapKids (modFirst c!"Desc" (setText v))).kids = sel t e.kids := by
      intro t ht
      rw [kids_mapKids, (touches_modFirst c!"Desc" (by simp)).sel_ne ht]
    have htx : ∀ t, c!"Desc" ≠ t →
        textOf t (e.mapKids (modFirst c!"Desc" (setText v))).kids = textOf t e.kids := by
      intro t ht
      rw [textOf_eq, textOf_eq, hid t ht]
    have hsd : sel c!"Desc" (e.mapKids (modFirst c!"Desc" (setText v))).kids =
        match sel c!"Desc" e.kids with | [] => [] | a :: r => setText v a :: r := by
      rw [kids_mapKids]
      exact sel_modFirst_self _ (by simp) _
    refine ⟨?_, ?_, ?_, ?_, ?_⟩
    · rw [tag_mapKids]; exact h.tag
    · intro t ht x hx
      by_cases hd : c!"Desc" = t
      · subst hd
        rw [hsd] at hx
        have hl := h.leaves c!"Desc" (by simp)
        revert hx hl
        generalize sel c!"Desc" e.kids = l
        intro hx hl
        cases l with
        | nil => cases hx
        | cons a r =>
          rcases List.mem_cons.1 hx with rfl | hx
          · rw [kids_setText]; exact hl a (by simp)
          · exact hl x (by simp [hx])
      · rw [hid t hd] at hx
        exact h.leaves t ht x hx
    · rw [htx _ (by decide)]; exact h.id
    · rw [htx _ (by decide)]; exact h.title
    · rw [hsd]
      have := h.desc
      cases hs : sel c!"Desc" e.kids with
      | nil => exact absurd hs this
      | cons a r => simp
  unfold setLocale
  split
  · exact key lng
  · split
    · exact key ctr
    · exact h

theorem varElement_mkVar {i t : Str} {d : Option Str} (hi : GoodId i) (ht : t ≠ []) :
    VarElement (mkVar (i, t, d)) := by
  refine ⟨rfl, ?_, ⟨i, rfl, hi⟩, ⟨t, rfl, ht⟩, by simp [mkVar, sel, leaf]⟩
  intro u hu x hx
  have : x ∈ (mkVar (i, t, d)).kids := (List.mem_filter.1 hx).1
  simp only [mkVar, kids_node, List.mem_cons, List.not_mem_nil, or_false] at this
  rcases this with rfl | rfl | rfl | rfl <;> rfl

theorem newVars_titles {lng ctr : Option Str} {ks : List Elem} {langs : List Str} :
    ∀ t ∈ newVars lng ctr ks langs, t.1 ≠ [] ∧ (t.1 = c!"Language" → t.2 = lng) ∧
      (t.1 = c!"Country" → t.2 = ctr) := by
  intro t ht
  unfold newVars at ht
  simp only [List.mem_append, List.mem_flatMap] at ht
  rcases ht with (ht | ht) | ⟨c, _, ht⟩
  · split at ht
    · cases ht
    · simp only [List.mem_singleton] at ht; subst ht
      exact ⟨by simp, fun _ => rfl, fun h => by revert h; simp⟩
  · split at ht
    · cases ht
    · simp only [List.mem_singleton] at ht; subst ht
      exact ⟨by simp, fun h => by revert h; simp, fun _ => rfl⟩
  · simp only [langPair, List.mem_cons, List.not_mem_nil, or_false] at ht
    rcases ht with rfl | rfl
    · exact ⟨by simp, fun h => by revert h; simp, fun h => by revert h; simp⟩
    · exact ⟨by simp, fun h => by revert h; simp, fun h => by revert h; simp⟩

theorem textOf_desc_setText {v : Option Str} {e : Elem} (h : sel c!"Desc" e.kids ≠ []) :
    textOf c!"Desc" (e.mapKids (modFirst c!"Desc" (setText v))).kids = v := by
  rw [textOf_eq, kids_mapKids, sel_modFirst_self _ (by simp)]
  cases hs : sel c!"Desc" e.kids with
  | nil => exact absurd hs h
  | cons a r => simp

/-- All variables written are regular; those for the locale carry it, and both exist. -/
theorem buildVars_locale {langs : List Str} {lng ctr : Option Str} {ks out : List Elem}
    (hk : ∀ e ∈ ks, VarElement e) (hl : langs.Nodup) (h : buildVars langs lng ctr ks = .ok out) :
    (∀ e ∈ out, VarElement e) ∧
    (∀ e ∈ out, textOf c!"Title" e.kids = some c!"Language" → textOf c!"Desc" e.kids = lng) ∧
    (∀ e ∈ out, textOf c!"Title" e.kids = some c!"Country" → textOf c!"Desc" e.kids = ctr) ∧
    (∃ e ∈ out, textOf c!"Title" e.kids = some c!"Language") ∧
    (∃ e ∈ out, textOf c!"Title" e.kids = some c!"Country") := by
  obtain ⟨ids, ts, h0, h1, h2, h3, h4⟩ := buildVars_ok (lng := lng) (ctr := ctr) hk hl
  rw [h4] at h; cases h
  have hnew : ∀ e ∈ (ids.zip ts).map mkVar, ∃ i t, GoodId i ∧ t ∈ ts ∧ e = mkVar (i, t) := by
    intro e he
    obtain ⟨⟨i, t⟩, hp, rfl⟩ := List.mem_map.1 he
    have := List.of_mem_zip hp
    exact ⟨i, t, (h3 i this.1).2, this.2, rfl⟩
  refine ⟨?_, ?_, ?_, ?_, ?_⟩
  · intro e he
    rcases List.mem_append.1 he with he | he
    · obtain ⟨e0, he0, rfl⟩ := List.mem_map.1 he
      exact varElement_setLocale (hk e0 he0)
    · obtain ⟨i, t, hi, ht, rfl⟩ := hnew e he
      exact varElement_mkVar hi (newVars_titles t (h0 ▸ ht)).1
  · intro e he htl
    rcases List.mem_append.1 he with he | he
    · obtain ⟨e0, he0, rfl⟩ := List.mem_map.1 he
      rw [textOf_setLocale (by decide)] at htl
      unfold setLocale
      rw [if_pos htl]
      exact textOf_desc_setText (hk e0 he0).desc
    · obtain ⟨i, t, hi, ht, rfl⟩ := hnew e he
      have h' : t.1 = c!"Language" := by
        have : textOf c!"Title" (mkVar (i, t)).kids = some t.1 := rfl
        rw [this] at htl; exact Option.some.inj htl
      exact (newVars_titles t (h0 ▸ ht)).2.1 h'
  · intro e he htl
    rcases List.mem_append.1 he with he | he
    · obtain ⟨e0, he0, rfl⟩ := List.mem_map.1 he
      rw [textOf_setLocale (by decide)] at htl
      unfold setLocale
      rw [if_neg (by rw [htl]; decide), if_pos htl]
      exact textOf_desc_setText (hk e0 he0).desc
    · obtain ⟨i, t, hi, ht, rfl⟩ := hnew e he
      have h' : t.1 = c!"Country" := by
        have : textOf c!"Title" (mkVar (i, t)).kids = some t.1 := rfl
        rw [this] at htl; exact Option.some.inj htl
      exact (newVars_titles t (h0 ▸ ht)).2.2 h'
  all_goals skip
  · by_cases hex : ks.any (fun e => decide (textOf c!"Title" e.kids = some c!"Language")) = true
    · obtain ⟨e, he, ht⟩ := List.any_eq_true.1 hex
      refine ⟨setLocale lng ctr e, List.mem_append_left _ (List.mem_map_of_mem he), ?_⟩
      rw [textOf_setLocale (by decide)]
      exact of_decide_eq_true ht
    · have hts : (c!"Language", lng) ∈ ts := by
        rw [h0]; unfold newVars; rw [if_neg hex]; simp
      obtain ⟨k, hk1, hk2⟩ := List.getElem_of_mem hts
      refine ⟨mkVar (ids[k]'(by omega), (c!"Language", lng)), List.mem_append_right _ ?_, rfl⟩
      refine List.mem_map.2 ⟨(ids[k]'(by omega), (c!"Language", lng)), ?_, rfl⟩
      rw [← hk2, ← List.getElem_zip (h := by simp; omega)]
      exact List.getElem_mem _
  · by_cases hex : ks.any (fun e => decide (textOf c!"Title" e.kids = some c!"Country")) = true
    · obtain ⟨e, he, ht⟩ := List.any_eq_true.1 hex
      refine ⟨setLocale lng ctr e, List.mem_append_left _ (List.mem_map_of_mem he), ?_⟩
      rw [textOf_setLocale (by decide)]
      exact of_decide_eq_true ht
    · have hts : (c!"Country", ctr) ∈ ts := by
        rw [h0]; unfold newVars; rw [if_neg hex]; simp
      obtain ⟨k, hk1, hk2⟩ := List.getElem_of_mem hts
      refine ⟨mkVar (ids[k]'(by omega), (c!"Country", ctr)), List.mem_append_right _ ?_, rfl⟩
      refine List.mem_map.2 ⟨(ids[k]'(by omega), (c!"Country", ctr)), ?_, rfl⟩
      rw [← hk2, ← List.getElem_zip (h := by simp; omega)]
      exact List.getElem_mem _

end Verif
