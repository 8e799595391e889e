import Verif.Model.Yw7Tree
import Verif.Spec.Layout
import Verif.Lemmas.Escape

namespace Verif
open Xml Elem Spec

/-! ### Reloading -/

@[simp] theorem readText_readText (v : Option Str) : readText (readText v) = readText v := by
  cases v with
  | none => rfl
  | some s => cases s <;> rfl

@[simp] theorem readText_none : readText none = none := rfl
@[simp] theorem readText_nil : readText (some []) = none := rfl
@[simp] theorem readText_cons (c : Char) (s : Str) : readText (some (c :: s)) = some (c :: s) := rfl

theorem readText_ne {s : Str} (h : s ≠ []) : readText (some s) = some s := by
  cases s with
  | nil => exact absurd rfl h
  | cons c r => rfl

theorem charData_plainStr {s : Str} (h : PlainStr s) : CharData s s := by
  induction s with
  | nil => exact .nil
  | cons c r ih =>
    obtain ⟨h1, h2, h3, h4, h5⟩ := h c (by simp)
    exact .char c h1 h3 h4 h5 h2 (ih (fun d hd => h d (by simp [hd])))

theorem carried_literal {t : Str} {x x' : Option Str} (h : Carried t x x') (hl : Literal t x) :
    x' = readText x := by
  cases h with
  | none => rfl
  | empty => rfl
  | cdata x h1 h2 => exact (readText_ne h2).symm
  | plain x x' h1 h2 h3 =>
    rcases hl with hl | hl
    · exact absurd hl h1
    · have := charData_unique (charData_plainStr (hl x rfl)) h3
      subst this
      exact (readText_ne h2).symm

theorem Spec.Reloaded.tag {e e' : Elem} (h : Reloaded e e') : e'.tag = e.tag := by
  cases h <;> rfl

theorem Spec.Reloaded.kids {e e' : Elem} (h : Reloaded e e') : ReloadedL e.kids e'.kids := by
  cases h with
  | leaf => exact .nil
  | inner t x y x' y' k ks ks' h => exact h

theorem Spec.Reloaded.text {e e' : Elem} (h : Reloaded e e') (hk : e.kids = []) :
    Carried e.tag e.text e'.text := by
  cases h with
  | leaf _ _ _ _ _ h => exact h
  | inner t x y x' y' k ks ks' h => simp at hk

theorem Spec.ReloadedL.sel {ks ks' : List Elem} (h : ReloadedL ks ks') (t : Str) :
    ReloadedL (Xml.sel t ks) (Xml.sel t ks') := by
  induction ks generalizing ks' with
  | nil => cases h; exact .nil
  | cons e r ih =>
    cases h with
    | cons _ e' _ r' h1 h2 =>
      have := h1.tag
      unfold Xml.sel at *
      rw [List.filter_cons, List.filter_cons, this]
      split
      · exact .cons _ _ _ _ h1 (ih h2)
      · exact ih h2

theorem Spec.ReloadedL.nil_iff {ks ks' : List Elem} (h : ReloadedL ks ks') : ks' = [] ↔ ks = [] := by
  cases h <;> simp

theorem Spec.ReloadedL.hasTag {ks ks' : List Elem} (h : ReloadedL ks ks') (t : Str) :
    hasTag t ks' = hasTag t ks := by
  unfold Verif.hasTag
  rw [find_eq, find_eq]
  have := h.sel t
  revert this
  generalize Xml.sel t ks = a
  generalize Xml.sel t ks' = b
  intro h
  cases h <;> rfl

theorem Spec.ReloadedL.carried {ks ks' : List Elem} (h : ReloadedL ks ks') {t : Str}
    (hl : ∀ e ∈ Xml.sel t ks, e.kids = []) : Carried t (textOf t ks) (textOf t ks') := by
  unfold Verif.textOf
  rw [find_eq, find_eq]
  have hs := h.sel t
  have ht : ∀ e ∈ Xml.sel t ks, e.tag = t := by
    intro e he; simpa [Xml.sel] using (List.mem_filter.1 he).2
  revert hs hl ht
  generalize Xml.sel t ks = a
  generalize Xml.sel t ks' = b
  intro hl h ht
  cases h with
  | nil => exact .none
  | cons e e' r r' h1 h2 =>
    simp only [List.head?_cons, Option.bind_some]
    have := h1.text (hl e (by simp))
    rwa [ht e (by simp)] at this

theorem Spec.ReloadedL.textOf {ks ks' : List Elem} (h : ReloadedL ks ks') {t : Str}
    (hl : ∀ e ∈ Xml.sel t ks, e.kids = []) (hp : Literal t (Verif.textOf t ks)) :
    textOf t ks' = readText (textOf t ks) := carried_literal (h.carried hl) hp

theorem reloaded_tail {e m : Elem} (h : Reloaded e m) (y2 : Option Str) :
    Reloaded (node e.tag e.text y2 e.kids) m := by
  cases h with
  | leaf _ _ _ _ _ h => exact .leaf _ _ _ _ _ h
  | inner _ _ _ _ _ _ _ _ h => exact .inner _ _ _ _ _ _ _ _ h

theorem reloaded_fixTail {e m : Elem} (l : Nat) (h : Reloaded (fixTail l e) m) : Reloaded e m := by
  cases e with
  | node t x y ks => exact reloaded_tail h y

mutual
/-- Pretty-printing does not matter to a reader. -/
theorem reloaded_indent (l : Nat) : (e m : Elem) → Reloaded (indent l e) m → Reloaded e m
  | node t x y [], m, h => by
    rw [indent] at h
    exact reloaded_tail h y
  | node t x y (k :: ks), m, h => by
    rw [indent] at h
    cases m with
    | node t' x' y' ks' =>
      have ht := h.tag
      have hk := h.kids
      simp only [Elem.tag_node, Elem.kids_node] at ht hk
      subst ht
      exact .inner _ _ _ _ _ _ _ _ (reloadedL_indent l (k :: ks) ks' hk)
theorem reloadedL_indent (l : Nat) : (ks ms : List Elem) → ReloadedL (indentKids l ks) ms → ReloadedL ks ms
  | [], ms, h => by rw [indentKids] at h; exact h
  | [e], ms, h => by
    rw [indentKids] at h
    cases h with
    | cons _ m _ ms h1 h2 =>
      cases h2
      exact .cons _ _ _ _ (reloaded_indent (l + 1) e m (reloaded_fixTail l h1)) .nil
  | e :: f :: r, ms, h => by
    rw [indentKids] at h
    cases h with
    | cons _ m _ ms h1 h2 =>
      exact .cons _ _ _ _ (reloaded_indent (l + 1) e m h1) (reloadedL_indent l (f :: r) ms h2)
end

/-! ### Frame: which tags a step touches -/

/-- The step changes only children with the tag `t`. -/
def Touches (t : Str) (f : List Elem → List Elem) : Prop :=
  ∀ (p : Str → Bool), p t = false → ∀ ks : List Elem, (f ks).filter (fun e => p e.tag) = ks.filter (fun e => p e.tag)

theorem Touches.sel_ne {t u : Str} {f : List Elem → List Elem} (h : Touches t f) (hne : t ≠ u)
    (ks : List Elem) : Xml.sel u (f ks) = Xml.sel u ks := by
  unfold Xml.sel
  exact h (fun x => decide (x = u)) (by simp [hne]) ks

theorem touches_putText (t : Str) (v : Option Str) : Touches t (putText t v) := by
  intro p hp ks
  unfold putText
  cases v with
  | none => rfl
  | some v =>
    simp only
    split
    · exact filter_modFirst hp (by simp) ks
    · split
      · rfl
      · exact filter_append_one (e := leaf t (some v)) (by simpa using hp) ks

theorem touches_putAlways (t : Str) (v : Option Str) : Touches t (putAlways t v) := by
  intro p hp ks
  unfold putAlways
  cases v with
  | none => rfl
  | some v =>
    simp only
    split
    · exact filter_modFirst hp (by simp) ks
    · exact filter_append_one (e := leaf t (some v)) (by simpa using hp) ks

theorem touches_putNew (t : Str) (v : Option Str) : Touches t (putNew t v) := by
  intro p hp ks
  unfold putNew
  cases v with
  | none => rfl
  | some v => exact filter_append_one (e := leaf t (some v)) (by simpa using hp) ks

theorem touches_addMissing (t : Str) (v : Option Str) : Touches t (addMissing t v) := by
  intro p hp ks
  unfold addMissing
  split
  · rfl
  · exact filter_append_one (e := leaf t v) (by simpa using hp) ks

theorem touches_setElement (t : Str) (v : Option Str) (i : Nat) :
    Touches t (fun ks => (setElement t v (ks, i)).1) := by
  intro p hp ks
  simp only
  unfold setElement
  cases v with
  | none => rfl
  | some v =>
    simp only
    split
    · exact filter_modFirst hp (by simp) ks
    · exact filter_insertAt (e := leaf t (some v)) (by simpa using hp) i ks

theorem touches_removeFirst (t : Str) : Touches t (removeFirst t) := fun _ hp ks =>
  filter_removeFirst hp ks

theorem touches_putFlag (t : Str) (b : Bool) : Touches t (putFlag t b) := by
  intro p hp ks
  unfold putFlag
  split
  · split
    · rfl
    · exact filter_append_one (e := leaf t (some c!"-1")) (by simpa using hp) ks
  · exact filter_removeFirst hp ks

theorem touches_putIds (t sub : Str) (ids : List Str) : Touches t (putIds t sub ids) := by
  intro p hp ks
  unfold putIds
  split
  · exact filter_removeFirst hp ks
  · rw [filter_append_one (e := node t none none _) (by simpa using hp), filter_removeFirst hp]

theorem touches_modFirst (t : Str) {f : Elem → Elem} (hf : ∀ e, (f e).tag = e.tag) :
    Touches t (modFirst t f) := fun _ hp ks => filter_modFirst hp hf ks

theorem touches_onFields (f : List Elem → List Elem) : Touches c!"Fields" (onFields f) := fun _ hp ks =>
  filter_modFirst hp (by simp) ks

theorem touches_ensureFields : Touches c!"Fields" ensureFields := by
  intro p hp ks
  unfold ensureFields
  split
  · rfl
  · exact filter_append_one (e := node c!"Fields" none none []) (by simpa using hp) ks

theorem Touches.comp {t : Str} {f g : List Elem → List Elem} (hg : Touches t g) (hf : Touches t f) :
    Touches t (fun ks => g (f ks)) := fun p hp ks => by
  rw [hg p hp, hf p hp]

theorem touches_putCustom (field : Str) (v : Option Str) : Touches c!"Fields" (putCustom field v) := by
  intro p hp ks
  unfold putCustom
  split
  · exact touches_onFields _ p hp ks
  · exact touches_onFields _ p hp ks
  · exact (touches_onFields _).comp touches_ensureFields p hp ks

/-! ### What a step makes of its own tag -/

theorem hasTag_iff (t : Str) (ks : List Elem) : hasTag t ks = true ↔ Xml.sel t ks ≠ [] := by
  unfold hasTag
  rw [find_eq]
  cases Xml.sel t ks <;> simp

theorem hasTag_eq (t : Str) (ks : List Elem) : hasTag t ks = !(Xml.sel t ks).isEmpty := by
  unfold hasTag
  rw [find_eq]
  cases Xml.sel t ks <;> rfl

theorem textOf_eq (t : Str) (ks : List Elem) : textOf t ks = (Xml.sel t ks).head?.bind Elem.text := by
  unfold textOf
  rw [find_eq]

/-- Replace the text of the first element. -/
def setHead (v : Str) : List Elem → List Elem
  | [] => []
  | e :: r => setText (some v) e :: r

theorem sel_setText (t : Str) (v : Str) (ks : List Elem) :
    Xml.sel t (modFirst t (setText (some v)) ks) = setHead v (Xml.sel t ks) := by
  rw [sel_modFirst_self t (by simp)]
  cases Xml.sel t ks <;> rfl

theorem sel_append_leaf (t : Str) (v : Option Str) (ks : List Elem) :
    Xml.sel t (ks ++ [leaf t v]) = Xml.sel t ks ++ [leaf t v] := sel_append_self ks (leaf t v)

/-- Result lists of the steps, as functions of the elements with the step's tag. -/
def textSel (t : Str) (v : Option Str) (l : List Elem) : List Elem :=
  match v with
  | none => l
  | some v => match l with
    | [] => if v = [] then [] else [leaf t (some v)]
    | e :: r => setText (some v) e :: r

def alwaysSel (t : Str) (v : Option Str) (l : List Elem) : List Elem :=
  match v with
  | none => l
  | some v => match l with
    | [] => [leaf t (some v)]
    | e :: r => setText (some v) e :: r

def newSel (t : Str) (v : Option Str) (l : List Elem) : List Elem :=
  match v with
  | none => l
  | some v => l ++ [leaf t (some v)]

def missSel (t : Str) (v : Option Str) (l : List Elem) : List Elem :=
  match l with
  | [] => [leaf t v]
  | e :: r => e :: r

def flagSel (t : Str) (b : Bool) (l : List Elem) : List Elem :=
  if b then missSel t (some c!"-1") l else l.tail

def idsSel (t sub : Str) (ids : List Str) (l : List Elem) : List Elem :=
  if ids = [] then l.tail else l.tail ++ [node t none none (ids.map (fun i => leaf sub (some i)))]

def onFieldsSel (f : List Elem → List Elem) (l : List Elem) : List Elem :=
  match l with
  | [] => []
  | e :: r => mapKids f e :: r

def ensureSel (l : List Elem) : List Elem :=
  match l with
  | [] => [node c!"Fields" none none []]
  | e :: r => e :: r

def customSel (field : Str) (v : Option Str) (l : List Elem) : List Elem :=
  match v with
  | none => onFieldsSel (removeFirst field) l
  | some [] => onFieldsSel (removeFirst field) l
  | some v => onFieldsSel (putAlways field (some (ywConvert (some v)))) (ensureSel l)

theorem sel_putText (t : Str) (v : Option Str) (ks : List Elem) :
    Xml.sel t (putText t v ks) = textSel t v (Xml.sel t ks) := by
  unfold putText textSel
  cases v with
  | none => rfl
  | some v =>
    simp only [hasTag_eq]
    cases h : Xml.sel t ks with
    | nil =>
      simp only [List.isEmpty_nil, Bool.not_true, Bool.false_eq_true, if_false]
      split
      · exact h
      · rw [sel_append_leaf, h]; rfl
    | cons e r =>
      simp only [List.isEmpty_cons, Bool.not_false, if_true]
      rw [sel_setText, h]; rfl

theorem sel_putAlways (t : Str) (v : Option Str) (ks : List Elem) :
    Xml.sel t (putAlways t v ks) = alwaysSel t v (Xml.sel t ks) := by
  unfold putAlways alwaysSel
  cases v with
  | none => rfl
  | some v =>
    simp only [hasTag_eq]
    cases h : Xml.sel t ks with
    | nil =>
      simp only [List.isEmpty_nil, Bool.not_true, Bool.false_eq_true, if_false]
      rw [sel_append_leaf, h]; rfl
    | cons e r =>
      simp only [List.isEmpty_cons, Bool.not_false, if_true]
      rw [sel_setText, h]; rfl

theorem sel_setElement (t : Str) (v : Option Str) (i : Nat) (ks : List Elem) :
    Xml.sel t (setElement t v (ks, i)).1 = alwaysSel t v (Xml.sel t ks) := by
  unfold setElement alwaysSel
  cases v with
  | none => rfl
  | some v =>
    simp only [hasTag_eq]
    cases h : Xml.sel t ks with
    | nil =>
      simp only [List.isEmpty_nil, Bool.not_true, Bool.false_eq_true, if_false]
      exact sel_insertAt_self i (leaf t (some v)) ks h
    | cons e r =>
      simp only [List.isEmpty_cons, Bool.not_false, if_true]
      rw [sel_setText, h]; rfl

theorem sel_putNew (t : Str) (v : Option Str) (ks : List Elem) :
    Xml.sel t (putNew t v ks) = newSel t v (Xml.sel t ks) := by
  unfold putNew newSel
  cases v with
  | none => rfl
  | some v => exact sel_append_leaf t (some v) ks

theorem sel_addMissing (t : Str) (v : Option Str) (ks : List Elem) :
    Xml.sel t (addMissing t v ks) = missSel t v (Xml.sel t ks) := by
  unfold addMissing missSel
  rw [hasTag_eq]
  cases h : Xml.sel t ks with
  | nil =>
    simp only [List.isEmpty_nil, Bool.not_true, Bool.false_eq_true, if_false]
    rw [sel_append_leaf, h]; rfl
  | cons e r => simp only [List.isEmpty_cons, Bool.not_false, if_true]; exact h

theorem sel_putFlag (t : Str) (b : Bool) (ks : List Elem) :
    Xml.sel t (putFlag t b ks) = flagSel t b (Xml.sel t ks) := by
  unfold putFlag flagSel missSel
  cases b with
  | false => simp only [Bool.false_eq_true, if_false]; exact sel_removeFirst_self t ks
  | true =>
    simp only [if_true, hasTag_eq]
    cases h : Xml.sel t ks with
    | nil =>
      simp only [List.isEmpty_nil, Bool.not_true, Bool.false_eq_true, if_false]
      rw [sel_append_leaf, h]; rfl
    | cons e r => simp only [List.isEmpty_cons, Bool.not_false, if_true]; exact h

theorem sel_putIds (t sub : Str) (ids : List Str) (ks : List Elem) :
    Xml.sel t (putIds t sub ids ks) = idsSel t sub ids (Xml.sel t ks) := by
  unfold putIds idsSel
  split
  · exact sel_removeFirst_self t ks
  · have := sel_append_self (removeFirst t ks) (node t none none (ids.map (fun i => leaf sub (some i))))
    simp only [Elem.tag_node] at this
    rw [this, sel_removeFirst_self]

theorem sel_onFields (f : List Elem → List Elem) (ks : List Elem) :
    Xml.sel c!"Fields" (onFields f ks) = onFieldsSel f (Xml.sel c!"Fields" ks) := sel_modFirst_self _ (by simp) ks

theorem sel_ensureFields (ks : List Elem) :
    Xml.sel c!"Fields" (ensureFields ks) = ensureSel (Xml.sel c!"Fields" ks) := by
  unfold ensureFields ensureSel
  rw [hasTag_eq]
  cases h : Xml.sel c!"Fields" ks with
  | nil =>
    simp only [List.isEmpty_nil, Bool.not_true, Bool.false_eq_true, if_false]
    have := sel_append_self ks (node c!"Fields" none none [])
    simp only [Elem.tag_node] at this
    rw [this, h]; rfl
  | cons e r => simp only [List.isEmpty_cons, Bool.not_false, if_true]; exact h

theorem sel_putCustom (field : Str) (v : Option Str) (ks : List Elem) :
    Xml.sel c!"Fields" (putCustom field v ks) = customSel field v (Xml.sel c!"Fields" ks) := by
  match v with
  | none => exact sel_onFields _ _
  | some [] => exact sel_onFields _ _
  | some (c :: r) =>
    show Xml.sel _ (onFields _ (ensureFields ks)) = onFieldsSel _ (ensureSel _)
    rw [sel_onFields, sel_ensureFields]

/-! ### Frame lemmas for `sel` -/

theorem sel_putText_ne {t u : Str} (h : t ≠ u) (v : Option Str) (ks : List Elem) :
    Xml.sel u (putText t v ks) = Xml.sel u ks := (touches_putText t v).sel_ne h ks
theorem sel_putAlways_ne {t u : Str} (h : t ≠ u) (v : Option Str) (ks : List Elem) :
    Xml.sel u (putAlways t v ks) = Xml.sel u ks := (touches_putAlways t v).sel_ne h ks
theorem sel_putNew_ne {t u : Str} (h : t ≠ u) (v : Option Str) (ks : List Elem) :
    Xml.sel u (putNew t v ks) = Xml.sel u ks := (touches_putNew t v).sel_ne h ks
theorem sel_addMissing_ne {t u : Str} (h : t ≠ u) (v : Option Str) (ks : List Elem) :
    Xml.sel u (addMissing t v ks) = Xml.sel u ks := (touches_addMissing t v).sel_ne h ks
theorem sel_setElement_ne {t u : Str} (h : t ≠ u) (v : Option Str) (i : Nat) (ks : List Elem) :
    Xml.sel u (setElement t v (ks, i)).1 = Xml.sel u ks := (touches_setElement t v i).sel_ne h ks
theorem sel_putFlag_ne {t u : Str} (h : t ≠ u) (b : Bool) (ks : List Elem) :
    Xml.sel u (putFlag t b ks) = Xml.sel u ks := (touches_putFlag t b).sel_ne h ks
theorem sel_putIds_ne {t u : Str} (h : t ≠ u) (sub : Str) (ids : List Str) (ks : List Elem) :
    Xml.sel u (putIds t sub ids ks) = Xml.sel u ks := (touches_putIds t sub ids).sel_ne h ks
theorem sel_removeFirst_ne {t u : Str} (h : t ≠ u) (ks : List Elem) :
    Xml.sel u (removeFirst t ks) = Xml.sel u ks := (touches_removeFirst t).sel_ne h ks
theorem sel_setText_ne {t u : Str} (h : t ≠ u) (v : Option Str) (ks : List Elem) :
    Xml.sel u (modFirst t (setText v) ks) = Xml.sel u ks :=
  (touches_modFirst t (by simp)).sel_ne h ks
theorem sel_onFields_ne {u : Str} (h : c!"Fields" ≠ u) (f : List Elem → List Elem) (ks : List Elem) :
    Xml.sel u (onFields f ks) = Xml.sel u ks := (touches_onFields f).sel_ne h ks
theorem sel_putCustom_ne {u : Str} (h : c!"Fields" ≠ u) (field : Str) (v : Option Str) (ks : List Elem) :
    Xml.sel u (putCustom field v ks) = Xml.sel u ks := (touches_putCustom field v).sel_ne h ks

end Verif
