/-
Trees that differ only in their layout, and the steps of the project file writer that leave a tree as it is.
-/
import Verif.Lemmas.Disk5

namespace Verif
open Xml Spec Elem

/-- The texts of two elements with the children `ks`: the same, or layout before children. -/
def TextAlike (ks : List Elem) (x x' : Option Str) : Prop := x'.getD [] = x.getD [] ∨ (ks ≠ [] ∧ blank x = true ∧ blank x' = true)

/-- The texts after two elements: the same, or layout. -/
def TailAlike (y y' : Option Str) : Prop := y'.getD [] = y.getD [] ∨ (blank y = true ∧ blank y' = true)

mutual
/-- Elements that differ only in their layout. -/
def Alike : Elem → Elem → Prop
  | node t x y ks, e' => e'.tag = t ∧ TextAlike ks x e'.text ∧ TailAlike y e'.tail ∧ AlikeL ks e'.kids
/-- The same for lists. -/
def AlikeL : List Elem → List Elem → Prop
  | [], l => l = []
  | _ :: _, [] => False
  | e :: r, e' :: r' => Alike e e' ∧ AlikeL r r'
end

theorem blank_getD {x x' : Option Str} (h : x'.getD [] = x.getD []) : blank x' = blank x := by
  cases x <;> cases x' <;> dsimp only [Option.getD] at h
  · rfl
  · subst h; rfl
  · subst h; rfl
  · subst h; rfl

theorem TextAlike.refl (ks : List Elem) (x : Option Str) : TextAlike ks x x := .inl rfl

theorem TextAlike.trans {ks : List Elem} {x y z : Option Str} (h : TextAlike ks x y) (h' : TextAlike ks y z) : TextAlike ks x z := by
  rcases h with h | h <;> rcases h' with h' | h'
  · exact .inl (h'.trans h)
  · exact .inr ⟨h'.1, (blank_getD h) ▸ h'.2.1, h'.2.2⟩
  · exact .inr ⟨h.1, h.2.1, (blank_getD h').trans h.2.2⟩
  · exact .inr ⟨h.1, h.2.1, h'.2.2⟩

theorem TextAlike.symm {ks : List Elem} {x y : Option Str} (h : TextAlike ks x y) : TextAlike ks y x := by
  rcases h with h | h
  · exact .inl h.symm
  · exact .inr ⟨h.1, h.2.2, h.2.1⟩

theorem TailAlike.refl (x : Option Str) : TailAlike x x := .inl rfl

theorem TailAlike.trans {x y z : Option Str} (h : TailAlike x y) (h' : TailAlike y z) : TailAlike x z := by
  rcases h with h | h <;> rcases h' with h' | h'
  · exact .inl (h'.trans h)
  · exact .inr ⟨(blank_getD h) ▸ h'.1, h'.2⟩
  · exact .inr ⟨h.1, (blank_getD h').trans h.2⟩
  · exact .inr ⟨h.1, h'.2⟩

theorem alikeL_nil_iff {ks ks' : List Elem} (h : AlikeL ks ks') : ks' = [] ↔ ks = [] := by
  cases ks with
  | nil => rw [AlikeL] at h; simp [h]
  | cons e r => cases ks' with
    | nil => exact h.elim
    | cons => simp

theorem TextAlike.kids {ks ks' : List Elem} {x x' : Option Str} (h : TextAlike ks x x') (hk : ks = [] ↔ ks' = []) : TextAlike ks' x x' := by
  rcases h with h | h
  · exact .inl h
  · exact .inr ⟨fun h0 => h.1 (hk.2 h0), h.2⟩

mutual
theorem Alike.refl : ∀ e : Elem, Alike e e
  | node t x y ks => by
    rw [Alike]
    exact ⟨rfl, .refl _ _, .refl _, AlikeL.refl ks⟩
theorem AlikeL.refl : ∀ l : List Elem, AlikeL l l
  | [] => rfl
  | e :: r => ⟨Alike.refl e, AlikeL.refl r⟩
end

mutual
theorem Alike.trans : ∀ (a b c : Elem), Alike a b → Alike b c → Alike a c
  | node t x y ks, node t' x' y' ks', node t'' x'' y'' ks'', h, h' => by
    rw [Alike] at h h' ⊢
    obtain ⟨h1, h2, h3, h4⟩ := h
    obtain ⟨g1, g2, g3, g4⟩ := h'
    exact ⟨g1.trans h1, h2.trans (g2.kids (alikeL_nil_iff h4)), h3.trans g3, AlikeL.trans _ _ _ h4 g4⟩
theorem AlikeL.trans : ∀ (a b c : List Elem), AlikeL a b → AlikeL b c → AlikeL a c
  | [], b, c, h, h' => by
    rw [AlikeL] at h
    subst h
    exact h'
  | _ :: _, [], _, h, _ => h.elim
  | _ :: _, _ :: _, [], _, h' => h'.elim
  | a :: r, b :: s, c :: t, h, h' => ⟨Alike.trans a b c h.1 h'.1, AlikeL.trans r s t h.2 h'.2⟩
end

theorem Alike.tag {e e' : Elem} (h : Alike e e') : e'.tag = e.tag := by
  cases e
  rw [Alike] at h
  exact h.1

theorem Alike.kids {e e' : Elem} (h : Alike e e') : AlikeL e.kids e'.kids := by
  cases e
  rw [Alike] at h
  exact h.2.2.2

theorem alike_iff {e e' : Elem} : Alike e e' ↔ e'.tag = e.tag ∧ TextAlike e.kids e.text e'.text ∧ TailAlike e.tail e'.tail ∧ AlikeL e.kids e'.kids := by
  cases e
  rw [Alike]
  rfl

theorem AlikeL.append {a b c d : List Elem} (h : AlikeL a b) (h' : AlikeL c d) : AlikeL (a ++ c) (b ++ d) := by
  induction a generalizing b with
  | nil => rw [AlikeL] at h; subst h; exact h'
  | cons e r ih => cases b with
    | nil => exact h.elim
    | cons f s => exact ⟨h.1, ih h.2⟩

theorem AlikeL.sel {a b : List Elem} (h : AlikeL a b) (t : Str) : AlikeL (Xml.sel t a) (Xml.sel t b) := by
  induction a generalizing b with
  | nil => rw [AlikeL] at h; subst h; exact rfl
  | cons e r ih => cases b with
    | nil => exact h.elim
    | cons f s =>
      unfold Xml.sel at ih ⊢
      rw [List.filter_cons, List.filter_cons, h.1.tag]
      split
      · exact ⟨h.1, ih h.2⟩
      · exact ih h.2

theorem AlikeL.hasTag {a b : List Elem} (h : AlikeL a b) (t : Str) : hasTag t b = hasTag t a := by
  rw [hasTag_eq, hasTag_eq]
  have := alikeL_nil_iff (h.sel t)
  cases h1 : Xml.sel t a with
  | nil => rw [this.2 h1]
  | cons =>
    cases h2 : Xml.sel t b with
    | nil => rw [this.1 h2] at h1; cases h1
    | cons => rfl

theorem AlikeL.removeFirst {a b : List Elem} (h : AlikeL a b) (t : Str) : AlikeL (Xml.removeFirst t a) (Xml.removeFirst t b) := by
  induction a generalizing b with
  | nil => rw [AlikeL] at h; subst h; exact rfl
  | cons e r ih => cases b with
    | nil => exact h.elim
    | cons f s =>
      rw [Xml.removeFirst, Xml.removeFirst, h.1.tag]
      split
      · exact h.2
      · exact ⟨h.1, ih h.2⟩

/-- An edit of the first element with a tag that has no effect. -/
theorem AlikeL.modFirst {a b : List Elem} (h : AlikeL a b) (t : Str) {f : Elem → Elem} (hf : ∀ e e', find t a = some e → Alike e e' → Alike e (f e')) : AlikeL a (Xml.modFirst t f b) := by
  induction a generalizing b with
  | nil => rw [AlikeL] at h; subst h; exact rfl
  | cons e r ih => cases b with
    | nil => exact h.elim
    | cons g s =>
      rw [Xml.modFirst, h.1.tag]
      split
      · rename_i ht
        refine ⟨hf e g ?_ h.1, h.2⟩
        rw [find_eq]
        unfold Xml.sel
        rw [List.filter_cons, if_pos (by simpa using ht)]
        rfl
      · rename_i ht
        refine ⟨h.1, ih h.2 ?_⟩
        intro e' e'' he
        apply hf
        rw [find_eq] at he ⊢
        unfold Xml.sel at he ⊢
        rw [List.filter_cons, if_neg (by simpa using ht)]
        exact he

/-! ### Steps without effect -/

/-- The text of the first element is there already. -/
def HasText (t : Str) (v : Str) (ks : List Elem) : Prop := ∃ e, find t ks = some e ∧ TextAlike e.kids e.text (some v)

theorem HasText.tag {t v : Str} {ks : List Elem} (h : HasText t v ks) : hasTag t ks = true := by
  obtain ⟨e, h, _⟩ := h
  unfold hasTag
  rw [h]
  rfl

theorem AlikeL.setText {o k : List Elem} (h : AlikeL o k) {t v : Str} (hv : HasText t v o) : AlikeL o (Xml.modFirst t (Elem.setText (some v)) k) := by
  obtain ⟨e, h1, h2⟩ := hv
  refine h.modFirst t (fun a b ha hb => ?_)
  rw [h1] at ha
  cases ha
  rw [alike_iff] at hb ⊢
  cases b
  exact ⟨hb.1, h2, hb.2.2.1, hb.2.2.2⟩

theorem AlikeL.putText {o k : List Elem} (h : AlikeL o k) {t : Str} {v : Option Str} (hv : ∀ w, v = some w → HasText t w o ∨ (Verif.hasTag t o = false ∧ w = [])) : AlikeL o (Verif.putText t v k) := by
  cases v with
  | none => exact h
  | some w =>
    unfold Verif.putText
    dsimp only
    rw [h.hasTag]
    rcases hv w rfl with hv | ⟨hv, hw⟩
    · rw [if_pos hv.tag]
      exact h.setText hv
    · rw [hv, if_neg (by decide), if_pos hw]
      exact h

theorem AlikeL.putAlways {o k : List Elem} (h : AlikeL o k) {t : Str} {v : Option Str} (hv : ∀ w, v = some w → HasText t w o) : AlikeL o (Verif.putAlways t v k) := by
  cases v with
  | none => exact h
  | some w =>
    unfold Verif.putAlways
    dsimp only
    rw [h.hasTag, if_pos (hv w rfl).tag]
    exact h.setText (hv w rfl)

theorem AlikeL.setElement {o k : List Elem} (h : AlikeL o k) {t : Str} {v : Option Str} (i : Nat) (hv : ∀ w, v = some w → HasText t w o) : AlikeL o (Verif.setElement t v (k, i)).1 := by
  cases v with
  | none => exact h
  | some w =>
    unfold Verif.setElement
    dsimp only
    rw [h.hasTag, if_pos (hv w rfl).tag]
    exact h.setText (hv w rfl)

theorem AlikeL.addMissing {o k : List Elem} (h : AlikeL o k) {t : Str} (v : Option Str) (ht : Verif.hasTag t o = true) : AlikeL o (Verif.addMissing t v k) := by
  unfold Verif.addMissing
  rw [h.hasTag, if_pos ht]
  exact h

theorem AlikeL.without {o k : List Elem} (h : AlikeL o k) {t : Str} (ht : Verif.hasTag t o = false) : Xml.removeFirst t k = k := by
  apply removeFirst_of_none
  have := h.hasTag t
  rw [ht, hasTag_eq] at this
  simpa using this

theorem AlikeL.putFlag {o k : List Elem} (h : AlikeL o k) {t : Str} {b : Bool} (ht : Verif.hasTag t o = b) : AlikeL o (Verif.putFlag t b k) := by
  unfold Verif.putFlag
  cases b with
  | true => rw [if_pos rfl, h.hasTag, ht, if_pos rfl]; exact h
  | false => rw [if_neg (by decide), h.without ht]; exact h

theorem AlikeL.onFields {o k : List Elem} (h : AlikeL o k) {f : List Elem → List Elem} (hf : ∀ F, find c!"Fields" o = some F → ∀ l, AlikeL F.kids l → AlikeL F.kids (f l)) : AlikeL o (Verif.onFields f k) := by
  refine h.modFirst _ (fun e e' he ha => ?_)
  have := hf e he _ ha.kids
  rw [alike_iff] at ha ⊢
  cases e'
  exact ⟨ha.1, ha.2.1, ha.2.2.1, this⟩

theorem AlikeL.ensureFields {o k : List Elem} (h : AlikeL o k) (ht : Verif.hasTag c!"Fields" o = true) : Verif.ensureFields k = k := by
  unfold Verif.ensureFields
  rw [h.hasTag, if_pos ht]

/-- A custom field is there already, or there is none. -/
def HasCustom (field : Str) (v : Option Str) (o : List Elem) : Prop :=
  if v.getD [] = [] then ∀ F, find c!"Fields" o = some F → hasTag field F.kids = false
  else ∃ F, find c!"Fields" o = some F ∧ HasText field (ywConvert v) F.kids

theorem AlikeL.putCustom {o k : List Elem} (h : AlikeL o k) {field : Str} {v : Option Str} (hv : HasCustom field v o) : AlikeL o (Verif.putCustom field v k) := by
  unfold HasCustom at hv
  split at hv
  · rename_i h0
    have : Verif.putCustom field v k = Verif.onFields (Xml.removeFirst field) k := by
      cases v with
      | none => rfl
      | some w =>
        dsimp only [Option.getD] at h0
        subst h0
        rfl
    rw [this]
    refine h.onFields (fun F hF l hl => ?_)
    rw [hl.without (hv F hF)]
    exact hl
  · rename_i h0
    obtain ⟨F, hF, hT⟩ := hv
    have : Verif.putCustom field v k = Verif.onFields (Verif.putAlways field (some (ywConvert v))) (Verif.ensureFields k) := by
      cases v with
      | none => exact absurd rfl h0
      | some w =>
        cases w with
        | nil => exact absurd rfl h0
        | cons => rfl
    rw [this, h.ensureFields (by unfold Verif.hasTag; rw [hF]; rfl)]
    refine h.onFields (fun F' hF' l hl => ?_)
    rw [hF] at hF'
    cases hF'
    exact hl.putAlways (by intro w hw; cases hw; exact hT)

end Verif
