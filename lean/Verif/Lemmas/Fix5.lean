/-
Saving unchanged project variables once more does not change them.
-/
import Verif.Lemmas.Fix4
import Verif.Props.C38_Vars

namespace Verif
open Xml Spec Elem

/-- A text that is there is the same in what differs only in its layout. -/
theorem AlikeL.textOf {o k : List Elem} (h : AlikeL o k) {t v : Str} (hl : ∀ x ∈ Xml.sel t o, x.kids = []) (ht : Verif.textOf t o = some v) (hv : v ≠ []) :
    Verif.textOf t k = some v := by
  have hs := h.sel t
  rw [textOf_eq] at ht ⊢
  cases ho : Xml.sel t o with
  | nil => rw [ho] at ht; cases ht
  | cons e r =>
    rw [ho] at ht hs hl
    cases hk : Xml.sel t k with
    | nil => rw [hk] at hs; exact hs.elim
    | cons e' r' =>
      rw [hk] at hs
      have ha := (alike_iff.1 hs.1).2.1
      have hx : e.text = some v := ht
      rw [hl e List.mem_cons_self] at ha
      rcases ha with ha | ha
      · rw [hx] at ha
        show e'.text = some v
        cases hy : e'.text with
        | none => rw [hy] at ha; exact absurd ha.symm hv
        | some w => rw [hy] at ha; exact congrArg some ha
      · exact absurd rfl ha.1

theorem AlikeL.mapRight {o k : List Elem} (h : AlikeL o k) {f : Elem → Elem} (hf : ∀ e ∈ o, ∀ e' ∈ k, Alike e e' → Alike e (f e')) : AlikeL o (k.map f) := by
  induction o generalizing k with
  | nil => rw [AlikeL] at h; subst h; exact rfl
  | cons e r ih => cases k with
    | nil => exact h.elim
    | cons e' r' =>
      exact ⟨hf e List.mem_cons_self e' List.mem_cons_self h.1, ih h.2 (fun a ha b hb => hf a (List.mem_cons_of_mem _ ha) b (List.mem_cons_of_mem _ hb))⟩

theorem alike_titles {e e' : Elem} (hv : VarElement e) (h : Alike e e') : textOf c!"Title" e'.kids = textOf c!"Title" e.kids := by
  obtain ⟨t, ht, hne⟩ := hv.title
  rw [ht]
  exact h.kids.textOf (hv.leaves _ (by decide)) ht hne

theorem alike_langs {o k : List Elem} (h : AlikeL o k) (hv : ∀ e ∈ o, VarElement e) : langsIn k = langsIn o := by
  induction o generalizing k with
  | nil => rw [AlikeL] at h; subst h; rfl
  | cons e r ih => cases k with
    | nil => exact h.elim
    | cons e' r' =>
      have h1 : langsIn (e' :: r') = langsIn [e'] ++ langsIn r' := langsIn_append [e'] r'
      have h2 : langsIn (e :: r) = langsIn [e] ++ langsIn r := langsIn_append [e] r
      rw [h1, h2, ih h.2 (fun a ha => hv a (List.mem_cons_of_mem _ ha))]
      congr 1
      unfold langsIn
      rw [List.filterMap_cons, List.filterMap_cons, alike_titles (hv e List.mem_cons_self) h.1]

theorem alike_any {o k : List Elem} (h : AlikeL o k) (hv : ∀ e ∈ o, VarElement e) {t : Str} (he : ∃ e ∈ o, textOf c!"Title" e.kids = some t) :
    k.any (fun e => decide (textOf c!"Title" e.kids = some t)) = true := by
  induction o generalizing k with
  | nil => obtain ⟨e, he, _⟩ := he; cases he
  | cons e r ih => cases k with
    | nil => exact h.elim
    | cons e' r' =>
      rw [List.any_cons, Bool.or_eq_true]
      obtain ⟨a, ha, hat⟩ := he
      rcases List.mem_cons.1 ha with rfl | ha
      · left
        rw [alike_titles (hv a List.mem_cons_self) h.1, hat]
        simp
      · exact .inr (ih h.2 (fun b hb => hv b (List.mem_cons_of_mem _ hb)) ⟨a, ha, hat⟩)

theorem alike_desc {e e' : Elem} (h : Alike e e') (hv : VarElement e) {v : Str} (hd : textOf c!"Desc" e.kids = some v) :
    Alike e (e'.mapKids (modFirst c!"Desc" (setText (some v)))) := by
  have hT : HasText c!"Desc" v e.kids := by
    obtain ⟨d, h1, h2⟩ := textOf_eq_some hd
    refine ⟨d, h1, .inl ?_⟩
    rw [h2]
  have := h.kids.setText hT
  rw [alike_iff] at h ⊢
  cases e'
  exact ⟨h.1, h.2.1, h.2.2.1, this⟩

/-- Saving unchanged project variables once more does not change them. -/
theorem vars_fixed {langs : List Str} {l c : Str} {ks o k : List Elem} (hk : ∀ e ∈ ks, VarElement e) (hl : langs.Nodup) (hc : ∀ c ∈ langs, '=' ∉ c)
    (h : buildVars langs (some l) (some c) ks = .ok o) (ha : AlikeL o k) (hv : ∀ e ∈ k, VarElement e) :
    ∃ o', buildVars langs (some l) (some c) k = .ok o' ∧ AlikeL o o' := by
  obtain ⟨v1, v2, v3, v4, v5⟩ := buildVars_locale hk hl h
  obtain ⟨kept, new, s1, _, _, _, _, _, s7⟩ := C38_saved langs (some l) (some c) ks hk hl hc
  rw [h] at s1
  cases s1
  obtain ⟨ids, ts, t0, t1, _, _, t4⟩ := buildVars_ok (lng := some l) (ctr := some c) hv hl
  have hreg : langs.filter (fun x => decide (x ∉ langsIn k)) = [] := by
    rw [List.filter_eq_nil_iff]
    intro x hx
    rw [decide_eq_true_eq, Classical.not_not, alike_langs ha v1, s7]
    by_cases hxk : x ∈ langsIn ks
    · exact List.mem_append_left _ hxk
    · exact List.mem_append_right _ (List.mem_filter.2 ⟨hx, by simpa using hxk⟩)
  have ht : ts = [] := by
    rw [t0, hreg]
    unfold newVars
    rw [if_pos (alike_any ha v1 v4), if_pos (alike_any ha v1 v5)]
    rfl
  subst ht
  have : ids = [] := List.length_eq_zero_iff.1 t1
  subst this
  refine ⟨_, t4, ?_⟩
  have e : k.map (setLocale (some l) (some c)) ++ (([] : List Str).zip ([] : List (Str × Option Str))).map mkVar = k.map (setLocale (some l) (some c)) := List.append_nil _
  rw [e]
  refine ha.mapRight (fun a haa b hb hab => ?_)
  have ht := alike_titles (v1 a haa) hab
  unfold setLocale
  rw [ht]
  split
  · rename_i h1
    exact alike_desc hab (v1 a haa) (v2 a haa h1)
  · split
    · rename_i h1
      exact alike_desc hab (v1 a haa) (v3 a haa h1)
    · exact hab

end Verif
