import Verif.Lemmas.Yw7Scene
import Verif.Spec.Yw7
import Verif.Props.C01_C03_Lists

namespace Verif
open Xml Elem Spec

/-! ### Reading back the results of the steps -/

theorem leaf_textSel {t : Str} {v : Option Str} {l : List Elem} (hl : ∀ e ∈ l, e.kids = []) :
    ∀ e ∈ textSel t v l, e.kids = [] := by
  intro e he
  cases v with
  | none => exact hl e he
  | some v =>
    cases l with
    | nil =>
      unfold textSel at he
      simp only at he
      split at he
      · simp at he
      · simp only [List.mem_singleton] at he; subst he; rfl
    | cons a r =>
      simp only [textSel, List.mem_cons] at he
      rcases he with rfl | he
      · simpa using hl a (by simp)
      · exact hl e (by simp [he])

theorem leaf_alwaysSel {t : Str} {v : Option Str} {l : List Elem} (hl : ∀ e ∈ l, e.kids = []) :
    ∀ e ∈ alwaysSel t v l, e.kids = [] := by
  intro e he
  cases v with
  | none => exact hl e he
  | some v =>
    cases l with
    | nil => simp only [alwaysSel, List.mem_singleton] at he; subst he; rfl
    | cons a r =>
      simp only [alwaysSel, List.mem_cons] at he
      rcases he with rfl | he
      · simpa using hl a (by simp)
      · exact hl e (by simp [he])

theorem head_textSel (t : Str) (v : Option Str) (l : List Elem) :
    (textSel t v l).head?.bind Elem.text = v.or (l.head?.bind Elem.text) ∨
      (v = some [] ∧ (textSel t v l).head?.bind Elem.text = none) := by
  cases v with
  | none => exact Or.inl rfl
  | some v =>
    cases l with
    | nil =>
      by_cases hv : v = []
      · right; simp [textSel, hv]
      · left; simp [textSel, hv]
    | cons e r => left; simp [textSel]

theorem head_alwaysSel (t : Str) (v : Option Str) (l : List Elem) :
    (alwaysSel t v l).head?.bind Elem.text = v.or (l.head?.bind Elem.text) ∨
      (v = some [] ∧ (alwaysSel t v l).head?.bind Elem.text = none) := by
  cases v with
  | none => exact Or.inl rfl
  | some v => left; cases l <;> simp [alwaysSel]

theorem carried_saved {t : Str} {v old x x' : Option Str} (h : Carried t x x')
    (hx : x = v.or old ∨ (v = some [] ∧ x = none)) (hlit : Literal t (v.or old)) :
    x' = saved old v := by
  rcases hx with hx | ⟨rfl, rfl⟩
  · subst hx; exact carried_literal h hlit
  · cases h; rfl

theorem textOf_textSel {out r : List Elem} {t : Str} {v : Option Str} {l : List Elem}
    (hr : ReloadedL out r) (hs : sel t out = textSel t v l) (hl : ∀ e ∈ l, e.kids = [])
    (hlit : Literal t (v.or (l.head?.bind Elem.text))) :
    textOf t r = saved (l.head?.bind Elem.text) v := by
  have hx := head_textSel t v l
  rw [← hs, ← textOf_eq] at hx
  have := hr.carried (t := t) (by rw [hs]; exact leaf_textSel hl)
  exact carried_saved this hx hlit

theorem textOf_alwaysSel {out r : List Elem} {t : Str} {v : Option Str} {l : List Elem}
    (hr : ReloadedL out r) (hs : sel t out = alwaysSel t v l) (hl : ∀ e ∈ l, e.kids = [])
    (hlit : Literal t (v.or (l.head?.bind Elem.text))) :
    textOf t r = saved (l.head?.bind Elem.text) v := by
  have hx := head_alwaysSel t v l
  rw [← hs, ← textOf_eq] at hx
  have := hr.carried (t := t) (by rw [hs]; exact leaf_alwaysSel hl)
  exact carried_saved this hx hlit

theorem hasTag_flagSel {out r : List Elem} {t : Str} {b : Bool} {l : List Elem}
    (hr : ReloadedL out r) (hs : sel t out = flagSel t b l) (hl : l.length ≤ 1) : hasTag t r = b := by
  rw [hr.hasTag, hasTag_eq, hs]
  cases b with
  | true => cases l <;> rfl
  | false =>
    cases l with
    | nil => rfl
    | cons e r => cases r with
      | nil => rfl
      | cons f r => simp at hl

theorem iterTagKids_leaves {sub : Str} {ids : List Str} {r : List Elem}
    (h : ReloadedL (ids.map (fun i => leaf sub (some i))) r) (hid : ∀ i ∈ ids, i ≠ [] ∧ PlainStr i) :
    (iterTagKids sub r).filterMap Elem.text = ids := by
  induction ids generalizing r with
  | nil => cases h; simp [iterTagKids]
  | cons i ids ih =>
    simp only [List.map_cons] at h
    cases h with
    | cons _ e' _ r' h1 h2 =>
      rw [iterTagKids, List.filterMap_append, ih h2 (fun j hj => hid j (by simp [hj]))]
      have hi := hid i (by simp)
      unfold leaf at h1
      cases h1 with
      | leaf _ _ x' _ y' hc =>
        have := carried_literal hc (Or.inr (fun s hs => by cases hs; exact hi.2))
        subst this
        cases i with
        | nil => exact absurd rfl hi.1
        | cons c s => simp [iterTag, iterTagKids]

/-- Reading back a list of IDs: the writer's list element is the only one. -/
theorem readIds_idsSel {out r : List Elem} {t sub : Str} {ids known : List Str} {l : List Elem}
    (hr : ReloadedL out r) (hs : sel t out = idsSel t sub ids l) (hl : l.length ≤ 1) (hne : sub ≠ t)
    (hid : ∀ i ∈ ids, i ∈ known ∧ i ≠ [] ∧ PlainStr i) :
    readIds t sub known r = if ids = [] then none else some ids := by
  have ht : l.tail = [] := by
    cases l with
    | nil => rfl
    | cons e r => cases r with
      | nil => rfl
      | cons f r => simp at hl
  have h := hr.sel t
  rw [hs] at h
  unfold idsSel at h
  rw [ht] at h
  unfold readIds
  rw [find_eq]
  by_cases hi : ids = []
  · simp only [hi, if_true] at h ⊢
    have : sel t r = [] := by
      revert h; generalize sel t r = z; intro h; cases h; rfl
    rw [this]; rfl
  · simp only [hi, if_false, List.nil_append] at h ⊢
    revert h
    generalize sel t r = z
    intro h
    cases h with
    | cons _ e' _ r' h1 h2 =>
      cases h2
      have ht' := h1.tag
      have hk := h1.kids
      simp only [Elem.kids_node] at hk
      have h3 := iterTagKids_leaves hk (fun i hi => (hid i hi).2)
      cases e' with
      | node u x y ks =>
        simp only [Elem.tag_node] at ht'
        simp only [Elem.kids_node] at h3
        have h4 : ids.filter (fun i => decide (i ∈ known)) = ids := by
          rw [List.filter_eq_self]; intro i hi'; simp [(hid i hi').1]
        have h5 : ((iterTag sub (node u x y ks)).filterMap Elem.text).filter
            (fun i => decide (i ∈ known)) = ids := by
          rw [iterTag, if_neg (by rw [ht']; exact fun h => hne h.symm), List.nil_append, h3, h4]
        simp only [List.head?_cons, h5, if_neg hi]

/-! ### The custom fields -/

/-- The children of the first `Fields` element. -/
def headKids (l : List Elem) : List Elem :=
  match l with
  | [] => []
  | f :: _ => f.kids

theorem headKids_onFieldsSel {f : List Elem → List Elem} (hf : f [] = []) (l : List Elem) :
    headKids (onFieldsSel f l) = f (headKids l) := by
  cases l with
  | nil => exact hf.symm
  | cons e r => simp [onFieldsSel, headKids]

theorem headKids_ensure (f : List Elem → List Elem) (l : List Elem) :
    headKids (onFieldsSel f (ensureSel l)) = f (headKids l) := by
  cases l with
  | nil => rfl
  | cons e r => simp [onFieldsSel, ensureSel, headKids]

theorem length_onFieldsSel (f : List Elem → List Elem) (l : List Elem) :
    (onFieldsSel f l).length = l.length := by cases l <;> rfl

theorem length_ensureSel {l : List Elem} (h : l.length ≤ 1) : (ensureSel l).length ≤ 1 := by
  cases l with
  | nil => simp [ensureSel]
  | cons e r => exact h

def customKids (field : Str) (v : Option Str) (fk : List Elem) : List Elem :=
  match v with
  | none => removeFirst field fk
  | some [] => removeFirst field fk
  | some v => putAlways field (some (ywConvert (some v))) fk

theorem headKids_customSel (field : Str) (v : Option Str) (l : List Elem) :
    headKids (customSel field v l) = customKids field v (headKids l) := by
  match v with
  | none => exact headKids_onFieldsSel rfl l
  | some [] => exact headKids_onFieldsSel rfl l
  | some (c :: r) => exact headKids_ensure _ l

theorem length_customSel (field : Str) (v : Option Str) {l : List Elem} (h : l.length ≤ 1) :
    (customSel field v l).length ≤ 1 := by
  match v with
  | none => exact Nat.le_trans (Nat.le_of_eq (length_onFieldsSel _ l)) h
  | some [] => exact Nat.le_trans (Nat.le_of_eq (length_onFieldsSel _ l)) h
  | some (c :: r) => exact Nat.le_trans (Nat.le_of_eq (length_onFieldsSel _ _)) (length_ensureSel h)

theorem touches_customKids (field : Str) (v : Option Str) : Touches field (customKids field v) := by
  match v with
  | none => exact touches_removeFirst field
  | some [] => exact touches_removeFirst field
  | some (c :: r) => exact touches_putAlways field (some (ywConvert (some (c :: r))))

theorem sel_customKids_ne {field u : Str} (h : field ≠ u) (v : Option Str) (fk : List Elem) :
    sel u (customKids field v fk) = sel u fk := (touches_customKids field v).sel_ne h fk

theorem sel_customKids (field : Str) (v : Option Str) (fk : List Elem) :
    sel field (customKids field v fk) = match v with
      | none => (sel field fk).tail
      | some [] => (sel field fk).tail
      | some v => alwaysSel field (some (ywConvert (some v))) (sel field fk) := by
  match v with
  | none => exact sel_removeFirst_self field fk
  | some [] => exact sel_removeFirst_self field fk
  | some (c :: r) => exact sel_putAlways field (some (ywConvert (some (c :: r)))) fk

/-- Reading with at most one `Fields` element. -/
theorem customOf_eq {name : Str} {ks : List Elem} (h : (sel c!"Fields" ks).length ≤ 1) :
    customOf name ks = textOf name (headKids (sel c!"Fields" ks)) := by
  unfold customOf
  revert h
  generalize sel c!"Fields" ks = l
  intro h
  match l, h with
  | [], _ => rfl
  | [f], _ =>
    simp only [List.foldl_cons, List.foldl_nil, headKids, textOf]
    cases find name f.kids <;> rfl

theorem reloaded_headKids {a b : List Elem} (h : ReloadedL a b) : ReloadedL (headKids a) (headKids b) := by
  cases h with
  | nil => exact .nil
  | cons e e' r r' h1 h2 => exact h1.kids

theorem length_reloaded {a b : List Elem} (h : ReloadedL a b) : b.length = a.length := by
  induction a generalizing b with
  | nil => cases h; rfl
  | cons e r ih => cases h with
    | cons _ _ _ _ h1 h2 => simp [ih h2]

/-- The old text is a value the parser may have delivered. -/
theorem tail_of_le_one {α : Type} {l : List α} (h : l.length ≤ 1) : l.tail = [] := by
  match l, h with
  | [], _ => rfl
  | [e], _ => rfl

theorem textOf_of_sel_nil {r : List Elem} {t : Str} (h : sel t r = []) : textOf t r = none := by
  rw [textOf_eq, h]; rfl

theorem reloaded_sel_nil {out r : List Elem} {t : Str} (hr : ReloadedL out r) (h : sel t out = []) :
    sel t r = [] := by
  have := hr.sel t
  rw [h] at this
  revert this; generalize sel t r = z; intro h; cases h; rfl

/-- A custom field without CDATA section is read back as the value. -/
theorem textOf_customKids {fk out r : List Elem} {field : Str} {v : Option Str}
    (hr : ReloadedL out r) (hs : sel field out = sel field (customKids field v fk))
    (hp : (sel field fk).length ≤ 1 ∧ ∀ e ∈ sel field fk, e.kids = [])
    (hf : field ∉ cdataTags) (hv : ∀ s, v = some s → Carriable s) :
    textOf field r = readText v := by
  rw [sel_customKids] at hs
  have ht := tail_of_le_one hp.1
  match v, hv with
  | none, _ => rw [textOf_of_sel_nil (reloaded_sel_nil hr (by rw [hs]; exact ht))]; rfl
  | some [], _ => rw [textOf_of_sel_nil (reloaded_sel_nil hr (by rw [hs]; exact ht))]; rfl
  | some (c :: s), hv =>
    have hc := hr.carried (t := field) (by rw [hs]; exact leaf_alwaysSel hp.2)
    have hx : textOf field out = some (ywConvert (some (c :: s))) := by
      rw [textOf_eq, hs]
      show (alwaysSel field (some (ywConvert (some (c :: s)))) (sel field fk)).head?.bind _ = _
      rcases head_alwaysSel field (some (ywConvert (some (c :: s)))) (sel field fk) with h | h
      · exact h
      · exact absurd h.1 (by
          intro h; simp only [Option.some.injEq] at h
          have := charData_esc (c :: s) (hv _ rfl)
          rw [← ywConvert_eq, h] at this
          have := charData_unique this CharData.nil
          cases this)
    rw [hx] at hc
    have hcd : CharData (ywConvert (some (c :: s))) (c :: s) := by
      rw [ywConvert_eq]; exact charData_esc _ (hv _ rfl)
    revert hc hcd
    generalize ywConvert (some (c :: s)) = z
    generalize textOf field r = w
    intro hc hcd
    cases hc with
    | empty => exact absurd (charData_unique hcd .nil) (by simp)
    | cdata _ h1 h2 => exact absurd h1 hf
    | plain _ x' h1 h2 h3 => rw [charData_unique h3 hcd]; rfl

/-- A custom field with CDATA section is read back as the escaped value. -/
theorem textOf_customKids_cdata {fk out r : List Elem} {field : Str} {v : Option Str}
    (hr : ReloadedL out r) (hs : sel field out = sel field (customKids field v fk))
    (hp : (sel field fk).length ≤ 1 ∧ ∀ e ∈ sel field fk, e.kids = [])
    (hf : field ∈ cdataTags) :
    textOf field r = readText (some (ywConvert v)) := by
  rw [sel_customKids] at hs
  have ht := tail_of_le_one hp.1
  match v with
  | none => rw [textOf_of_sel_nil (reloaded_sel_nil hr (by rw [hs]; exact ht))]; rfl
  | some [] => rw [textOf_of_sel_nil (reloaded_sel_nil hr (by rw [hs]; exact ht))]; rfl
  | some (c :: s) =>
    rw [textOf_alwaysSel hr hs hp.2 (Or.inl hf)]
    rfl

end Verif

namespace Verif
open Spec

theorem plain_digit {c : Char} (h : c.isDigit = true) :
    xmlLegal c = true ∧ c ≠ '\r' ∧ c ≠ '<' ∧ c ≠ '>' ∧ c ≠ '&' := by
  have h2 : 48 ≤ c.toNat ∧ c.toNat ≤ 57 := by
    simp only [Char.isDigit, Bool.and_eq_true, decide_eq_true_eq] at h
    exact h
  refine ⟨?_, ?_, ?_, ?_, ?_⟩
  · unfold xmlLegal
    have : (0x20 ≤ c.toNat && c.toNat != 0xfffe && c.toNat != 0xffff) = true := by
      simp only [Bool.and_eq_true, decide_eq_true_eq, bne_iff_ne, ne_eq]; omega
    rw [this]; simp
  all_goals (intro he; subst he; exact absurd h2 (by decide))

theorem plainStr_ofNat (n : Nat) : PlainStr (Str.ofNat n) := fun _ hc =>
  plain_digit (Str.isDigit_of_mem_ofNat hc)

theorem plainStr_ofInt (i : Int) : PlainStr (Str.ofInt i) := by
  cases i with
  | ofNat n => exact plainStr_ofNat n
  | negSucc n =>
    intro c hc
    simp only [Str.ofInt, List.mem_cons] at hc
    rcases hc with rfl | hc
    · decide
    · exact plainStr_ofNat _ c hc

theorem ofInt_ne_nil (i : Int) : Str.ofInt i ≠ [] := by
  cases i with
  | ofNat n => exact Str.ofNat_ne_nil n
  | negSucc n => simp [Str.ofInt]

theorem ofInt_injective {i j : Int} (h : Str.ofInt i = Str.ofInt j) : i = j := by
  have hd : ∀ (n : Nat) (m : Nat), Str.ofNat n ≠ '-' :: Str.ofNat m := by
    intro n m he
    have := Str.isDigit_of_mem_ofNat (n := n) (c := '-') (by rw [he]; simp)
    exact absurd this (by decide)
  cases i with
  | ofNat n =>
    cases j with
    | ofNat m => simp only [Str.ofInt] at h; rw [Str.ofNat_injective h]
    | negSucc m => exact absurd h (hd _ _)
  | negSucc n =>
    cases j with
    | ofNat m => exact absurd h.symm (hd _ _)
    | negSucc m =>
      simp only [Str.ofInt, List.cons.injEq, true_and] at h
      have := Str.ofNat_injective h
      have : n = m := by omega
      rw [this]

open Classical in
/-- The assumptions about the Python library are consistent. -/
theorem PyLib.exists (f : Str → Option (Str × Str)) : ∃ lib : PyLib, lib.fromIso = f :=
  ⟨{ int := fun s => if h : ∃ n, Str.ofInt n = s then some h.choose else none,
     int_str := by
       intro n
       have hex : ∃ m, Str.ofInt m = Str.ofInt n := ⟨n, rfl⟩
       show (if h : ∃ m, Str.ofInt m = Str.ofInt n then some h.choose else none) = some n
       rw [dif_pos hex]
       congr 1
       exact ofInt_injective hex.choose_spec,
     fromIso := f }, rfl⟩

end Verif
