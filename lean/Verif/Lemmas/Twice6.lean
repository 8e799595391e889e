/-
The readers for the lists (ODS) in two runs.
-/
import Verif.Lemmas.Twice5
import Verif.Model.OdsRead

namespace Verif.Twice
open Verif

/-- What the rows do to a field: they give it a value, they keep it, or they clear it (`z`). -/
def Acts {β : Type} (z : β → β) (F : β → β) : Prop := (∃ c, ∀ v, F v = c) ∨ (∀ v, F v = v) ∨ ∀ v, F v = z v

theorem Acts.comp {β : Type} {z F H : β → β} (hz : ∀ v, z (z v) = z v) (hF : Acts z F) (hH : Acts z H) : Acts z (fun v => H (F v)) := by
  rcases hH with ⟨c, hc⟩ | hi | hh
  · exact .inl ⟨c, fun v => hc _⟩
  · simpa only [hi] using hF
  · rcases hF with ⟨c, hc⟩ | hi | hf
    · exact .inl ⟨z c, fun v => (hh _).trans (by rw [hc])⟩
    · exact .inr (.inr (fun v => (hh _).trans (by rw [hi])))
    · exact .inr (.inr (fun v => (hh _).trans (by rw [hf, hz])))

theorem Acts.idem {β : Type} {z F : β → β} (hz : ∀ v, z (z v) = z v) (hF : Acts z F) (v : β) : F (F v) = F v := by
  rcases hF with ⟨c, hc⟩ | hi | hf
  · rw [hc, hc]
  · rw [hi]
  · rw [hf, hf, hz]

/-- A change of an element, as far as one of its fields is concerned. -/
def Through {α β : Type} (p : α → β) (z : β → β) (F : α → α) : Prop := ∃ F', Acts z F' ∧ ∀ a, p (F a) = F' (p a)

theorem Through.const {α β : Type} {p : α → β} (z : β → β) {F : α → α} {c : β} (h : ∀ a, p (F a) = c) : Through p z F :=
  ⟨fun _ => c, .inl ⟨c, fun _ => rfl⟩, h⟩

theorem Through.keep {α β : Type} {p : α → β} {F : α → α} (h : ∀ a, p (F a) = p a) : Through p id F := ⟨id, .inr (.inl (fun _ => rfl)), h⟩

theorem Through.foldl {α β : Type} {p : α → β} {z : β → β} (hz : ∀ v, z (z v) = z v) {upd : List Str → α → α} :
    ∀ (rows : List (List Str)), (∀ row, Through p z (upd row)) → Through p z (fun a => rows.foldl (fun a row => upd row a) a)
  | [], _ => ⟨id, .inr (.inl (fun _ => rfl)), fun _ => rfl⟩
  | row :: rows, h => by
    obtain ⟨F1, h1, e1⟩ := h row
    obtain ⟨F2, h2, e2⟩ := Through.foldl hz rows h
    exact ⟨fun v => F2 (F1 v), h1.comp hz h2, fun a => by simp only [List.foldl_cons]; rw [e2, e1]⟩

theorem Through.idem {α β : Type} {p : α → β} {z : β → β} (hz : ∀ v, z (z v) = z v) {F : α → α} (h : Through p z F) (a : α) :
    p (F (F a)) = p (F a) := by
  obtain ⟨F', h1, h2⟩ := h
  rw [h2, h2, h1.idem hz]

/-- The rows applied twice. -/
def Idem {α : Type} (upd : List Str → α → α) : Prop :=
  ∀ (rows : List (List Str)) (a : α), rows.foldl (fun a row => upd row a) (rows.foldl (fun a row => upd row a) a) = rows.foldl (fun a row => upd row a) a

/-! ### Fields -/

/-- An empty cell clears a field that is set. -/
def clear (v : Option Str) : Option Str := if isSetCell v then some [] else v

theorem clear_clear (v : Option Str) : clear (clear v) = clear v := by
  unfold clear
  cases h : isSetCell v
  · simp only [h, Bool.false_eq_true, ↓reduceIte]
  · rfl

/-- The same for tags. -/
def clearTags (v : Option (List Str)) : Option (List Str) := if v ≠ none ∧ v ≠ some [] then some [] else v

theorem clearTags_clearTags (v : Option (List Str)) : clearTags (clearTags v) = clearTags v := by
  unfold clearTags
  by_cases h : v ≠ none ∧ v ≠ some []
  · rw [if_pos h]; rfl
  · rw [if_neg h, if_neg h]

theorem putCell_acts (cell value : Str) (hv : cell = [] → value = []) : Acts clear (fun v => putCell v cell value) := by
  by_cases h : cell = []
  · refine .inr (.inr (fun v => ?_))
    simp only [putCell, clear, h, hv h, ne_eq, not_true_eq_false, or_false]
  · refine .inl ⟨some value, fun v => ?_⟩
    simp only [putCell, h, ne_eq, not_false_eq_true, or_true, ↓reduceIte]

theorem putCellTags_acts (cell : Str) : Acts clearTags (fun v => putCellTags v cell) := by
  by_cases h : cell = []
  · refine .inr (.inr (fun v => ?_))
    have : stringToList (some []) exportDivider = [] := by decide
    simp only [putCellTags, clearTags, h, ne_eq, not_true_eq_false, or_false, this]
  · refine .inl ⟨some (stringToList (some cell) exportDivider), fun v => ?_⟩
    simp only [putCellTags, h, ne_eq, not_false_eq_true, or_true, ↓reduceIte]

theorem rstrip_nil {c : Str} (h : c = []) : Str.rstrip c = [] := by
  subst h
  rfl

theorem put_through {α : Type} {p : α → Option Str} {F : α → α} (cell value : Str) (hv : cell = [] → value = [])
    (h : ∀ a, p (F a) = putCell (p a) cell value) : Through p clear F := ⟨_, putCell_acts cell value hv, h⟩

theorem tags_through {α : Type} {p : α → Option (List Str)} {F : α → α} (cell : Str) (h : ∀ a, p (F a) = putCellTags (p a) cell) :
    Through p clearTags F := ⟨_, putCellTags_acts cell, h⟩

theorem world_idem : Idem worldFromRow := by
  intro rows a
  have t1 := (Through.foldl (p := fun e : WorldElement => e.title) clear_clear rows (fun row => put_through (F := worldFromRow row) (cellAt row 1) _ rstrip_nil (fun _ => rfl))).idem clear_clear a
  have t2 := (Through.foldl (p := fun e : WorldElement => e.desc) clear_clear rows (fun row => put_through (F := worldFromRow row) (cellAt row 2) _ rstrip_nil (fun _ => rfl))).idem clear_clear a
  have t3 := (Through.foldl (p := fun e : WorldElement => e.aka) clear_clear rows (fun row => put_through (F := worldFromRow row) (cellAt row 3) _ rstrip_nil (fun _ => rfl))).idem clear_clear a
  have t4 := (Through.foldl (p := fun e : WorldElement => e.tags) clearTags_clearTags rows (fun row => tags_through (F := worldFromRow row) (cellAt row 4) (fun _ => rfl))).idem clearTags_clearTags a
  have t5 := (Through.foldl (p := fun e : WorldElement => ({ e with title := none, desc := none, aka := none, tags := none } : WorldElement)) (z := id) (fun _ => rfl) rows
    (fun row => Through.keep (F := worldFromRow row) (fun _ => rfl))).idem (fun _ => rfl) a
  generalize rows.foldl (fun a row => worldFromRow row a) (rows.foldl (fun a row => worldFromRow row a) a) = x at *
  generalize rows.foldl (fun a row => worldFromRow row a) a = y at *
  cases x
  cases y
  simp_all

theorem char_idem : Idem charFromRow := by
  intro rows a
  have t1 := (Through.foldl (p := fun e : Character => e.title) clear_clear rows (fun row => put_through (F := charFromRow row) (cellAt row 1) _ id (fun _ => rfl))).idem clear_clear a
  have t2 := (Through.foldl (p := fun e : Character => e.fullName) clear_clear rows (fun row => put_through (F := charFromRow row) (cellAt row 2) _ id (fun _ => rfl))).idem clear_clear a
  have t3 := (Through.foldl (p := fun e : Character => e.aka) clear_clear rows (fun row => put_through (F := charFromRow row) (cellAt row 3) _ id (fun _ => rfl))).idem clear_clear a
  have t4 := (Through.foldl (p := fun e : Character => e.desc) clear_clear rows (fun row => put_through (F := charFromRow row) (cellAt row 4) _ rstrip_nil (fun _ => rfl))).idem clear_clear a
  have t5 := (Through.foldl (p := fun e : Character => e.bio) clear_clear rows (fun row => put_through (F := charFromRow row) (cellAt row 5) _ rstrip_nil (fun _ => rfl))).idem clear_clear a
  have t6 := (Through.foldl (p := fun e : Character => e.goals) clear_clear rows (fun row => put_through (F := charFromRow row) (cellAt row 6) _ rstrip_nil (fun _ => rfl))).idem clear_clear a
  have t7 := (Through.foldl (p := fun e : Character => e.isMajor) (z := id) (fun _ => rfl) rows (fun row => Through.const (F := charFromRow row) id (fun _ => rfl))).idem (fun _ => rfl) a
  have t8 := (Through.foldl (p := fun e : Character => e.tags) clearTags_clearTags rows (fun row => tags_through (F := charFromRow row) (cellAt row 8) (fun _ => rfl))).idem clearTags_clearTags a
  have t9 := (Through.foldl (p := fun e : Character => e.notes) clear_clear rows (fun row => put_through (F := charFromRow row) (cellAt row 9) _ rstrip_nil (fun _ => rfl))).idem clear_clear a
  have t10 := (Through.foldl (p := fun e : Character => ({ e with title := none, fullName := none, aka := none, desc := none, bio := none, goals := none, isMajor := none, tags := none, notes := none } : Character)) (z := id) (fun _ => rfl) rows
    (fun row => Through.keep (F := charFromRow row) (fun _ => rfl))).idem (fun _ => rfl) a
  generalize rows.foldl (fun a row => charFromRow row a) (rows.foldl (fun a row => charFromRow row a) a) = x at *
  generalize rows.foldl (fun a row => charFromRow row a) a = y at *
  rcases x with ⟨⟨_, _, _, _, _, _⟩, _, _, _, _, _⟩
  rcases y with ⟨⟨_, _, _, _, _, _⟩, _, _, _, _, _⟩
  simp_all

theorem scene_idem : Idem sceneFromRow := by
  intro rows a
  have t1 := (Through.foldl (p := fun e : Scene => e.title) (z := id) (fun _ => rfl) rows (fun row => Through.const (F := sceneFromRow row) id (fun _ => rfl))).idem (fun _ => rfl) a
  have t2 := (Through.foldl (p := fun e : Scene => e.desc) (z := id) (fun _ => rfl) rows (fun row => Through.const (F := sceneFromRow row) id (fun _ => rfl))).idem (fun _ => rfl) a
  have t3 := (Through.foldl (p := fun e : Scene => e.tags) clearTags_clearTags rows (fun row => tags_through (F := sceneFromRow row) (cellAt row 3) (fun _ => rfl))).idem clearTags_clearTags a
  have t4 := (Through.foldl (p := fun e : Scene => e.notes) clear_clear rows (fun row => put_through (F := sceneFromRow row) (cellAt row 4) _ rstrip_nil (fun _ => rfl))).idem clear_clear a
  have t5 := (Through.foldl (p := fun e : Scene => e.isReactionScene) (z := id) (fun _ => rfl) rows (fun row => Through.const (F := sceneFromRow row) id (fun _ => rfl))).idem (fun _ => rfl) a
  have t6 := (Through.foldl (p := fun e : Scene => e.goal) clear_clear rows (fun row => put_through (F := sceneFromRow row) (cellAt row 6) _ rstrip_nil (fun _ => rfl))).idem clear_clear a
  have t7 := (Through.foldl (p := fun e : Scene => e.conflict) clear_clear rows (fun row => put_through (F := sceneFromRow row) (cellAt row 7) _ rstrip_nil (fun _ => rfl))).idem clear_clear a
  have t8 := (Through.foldl (p := fun e : Scene => e.outcome) clear_clear rows (fun row => put_through (F := sceneFromRow row) (cellAt row 8) _ rstrip_nil (fun _ => rfl))).idem clear_clear a
  have t9 := (Through.foldl (p := fun e : Scene => e.field1) (z := id) (fun _ => rfl) rows (fun row => Through.const (F := sceneFromRow row) id (fun _ => rfl))).idem (fun _ => rfl) a
  have t10 := (Through.foldl (p := fun e : Scene => e.field2) (z := id) (fun _ => rfl) rows (fun row => Through.const (F := sceneFromRow row) id (fun _ => rfl))).idem (fun _ => rfl) a
  have t11 := (Through.foldl (p := fun e : Scene => e.field3) (z := id) (fun _ => rfl) rows (fun row => Through.const (F := sceneFromRow row) id (fun _ => rfl))).idem (fun _ => rfl) a
  have t12 := (Through.foldl (p := fun e : Scene => e.field4) (z := id) (fun _ => rfl) rows (fun row => Through.const (F := sceneFromRow row) id (fun _ => rfl))).idem (fun _ => rfl) a
  have t13 := (Through.foldl (p := fun e : Scene => e.status) (z := id) (fun _ => rfl) rows (fun row => (by
    cases h : statusIndex (cellAt row 17) with
    | none => exact Through.keep (fun a => by simp only [sceneFromRow, h])
    | some i => exact Through.const (c := some i) id (fun a => by simp only [sceneFromRow, h]) : Through _ id (sceneFromRow row)))).idem (fun _ => rfl) a
  have t14 := (Through.foldl (p := fun e : Scene => ({ e with title := none, desc := none, tags := none, notes := none, isReactionScene := none, goal := none, conflict := none, outcome := none, field1 := none, field2 := none, field3 := none, field4 := none, status := none } : Scene)) (z := id) (fun _ => rfl) rows
    (fun row => Through.keep (F := sceneFromRow row) (fun _ => rfl))).idem (fun _ => rfl) a
  generalize rows.foldl (fun a row => sceneFromRow row a) (rows.foldl (fun a row => sceneFromRow row a) a) = x at *
  generalize rows.foldl (fun a row => sceneFromRow row a) a = y at *
  cases x
  cases y
  simp_all

/-! ### The loop -/

/-- The rows of an element. -/
def rowsOf (mark : Str) (id : Str) (rows : List (List Str)) : List (List Str) :=
  rows.filter (fun row => Str.contains (cellAt row 0) mark && decide ((searchId mark (cellAt row 0)).toOption = some id))

theorem loop_spec {α : Type} {mark : Str} {new : α} {upd : List Str → α → α} {rows : List (List Str)} {d : Dict α} {l : List Str} {r : Dict α × List Str}
    (h : rowsLoop mark new upd rows (d, l) = .ok r) : (∀ k, d.has k = true → r.1.has k = true) ∧ (d.keys.Nodup → r.1.keys.Nodup) ∧
    ∀ id a', r.1.get? id = some a' → a' = (rowsOf mark id rows).foldl (fun a row => upd row a) ((d.get? id).getD new) := by
  induction rows generalizing d l with
  | nil =>
    cases h
    exact ⟨fun _ h => h, fun h => h, fun id a' h => by simp only [h, Option.getD_some, rowsOf, List.filter_nil, List.foldl_nil]⟩
  | cons row rows ih =>
    simp only [rowsLoop] at h
    by_cases hm : Str.contains (cellAt row 0) mark = true
    · simp only [hm, ↓reduceIte, Bind.bind, Except.bind] at h
      cases e : searchId mark (cellAt row 0) with
      | error x => simp only [e] at h; exact nomatch h
      | ok k =>
        simp only [e] at h
        obtain ⟨h1, h2, h3⟩ := ih h
        have hd : ∀ id, (Dict.modify (if d.has k = true then d else d.set k new) k (upd row)).get? id =
            if k = id then some (upd row ((d.get? k).getD new)) else d.get? id := by
          intro id
          rw [Dict.get?_modify]
          by_cases hk : d.has k = true
          · obtain ⟨a, ha⟩ := Option.isSome_iff_exists.1 hk
            simp only [hk, ↓reduceIte, ha]
            split
            · rename_i e; subst e; simp only [ha, Option.map_some, Option.getD_some]
            · rfl
          · have hk' : d.get? k = none := by
              simp only [Dict.has, Bool.not_eq_true, Option.isSome_eq_false_iff, Option.isNone_iff_eq_none] at hk
              exact hk
            simp only [hk, Bool.false_eq_true, ↓reduceIte, Dict.get?_set, hk']
            split
            · rfl
            · rfl
        refine ⟨fun x hx => h1 x ?_, fun hn => h2 ?_, fun id a' ha => ?_⟩
        · show (Dict.get? _ x).isSome = true
          rw [hd]
          split
          · rfl
          · exact hx
        · rw [Dict.keys_modify]
          split
          · exact hn
          · rename_i hk
            have hk' : d.get? k = none := by
              simp only [Dict.has, Bool.not_eq_true, Option.isSome_eq_false_iff, Option.isNone_iff_eq_none] at hk
              exact hk
            rw [Dict.keys_set_of_not_mem _ _ _ ((Dict.get?_eq_none_iff _ _).1 hk')]
            refine List.nodup_append.2 ⟨hn, by simp, ?_⟩
            intro x hx y hy e'
            simp only [List.mem_cons, List.not_mem_nil, or_false] at hy
            subst hy e'
            exact (Dict.get?_eq_none_iff _ _).1 hk' hx
        · rw [h3 id a' ha, hd]
          by_cases hid : k = id
          · subst hid
            simp only [rowsOf, List.filter_cons, hm, e, Except.toOption, decide_true, Bool.and_self, ↓reduceIte, Option.getD_some, List.foldl_cons]
          · simp only [rowsOf, List.filter_cons, hm, e, Except.toOption, Option.some.injEq, hid, decide_false, Bool.and_false, Bool.false_eq_true, ↓reduceIte]
    · simp only [hm, Bool.false_eq_true, ↓reduceIte] at h
      obtain ⟨h1, h2, h3⟩ := ih h
      refine ⟨h1, h2, fun id a' ha => ?_⟩
      rw [h3 id a' ha]
      simp only [rowsOf, List.filter_cons, hm, Bool.false_and, Bool.false_eq_true, ↓reduceIte]

theorem loop_has {α : Type} {mark : Str} {new : α} {upd : List Str → α → α} {rows : List (List Str)} {d : Dict α} {l : List Str} {r : Dict α × List Str}
    (h : rowsLoop mark new upd rows (d, l) = .ok r) {d2 : Dict α} (hk : ∀ k, r.1.has k = true → d2.has k = true) :
    ∃ d3, rowsLoop mark new upd rows (d2, l) = .ok (d3, r.2) ∧ d3.keys = d2.keys := by
  induction rows generalizing d l d2 with
  | nil => cases h; exact ⟨d2, rfl, rfl⟩
  | cons row rows ih =>
    simp only [rowsLoop] at h ⊢
    by_cases hm : Str.contains (cellAt row 0) mark = true
    · simp only [hm, ↓reduceIte, Bind.bind, Except.bind] at h ⊢
      cases e : searchId mark (cellAt row 0) with
      | error x => simp only [e] at h; exact nomatch h
      | ok k =>
        simp only [e] at h ⊢
        have hk2 : d2.has k = true := by
          refine hk k ((loop_spec h).1 k ?_)
          simp only [has_modify]
          split
          · assumption
          · simp [Dict.has]
        simp only [hk2, ↓reduceIte]
        obtain ⟨d3, e3, h3⟩ := ih h (d2 := d2.modify k (upd row)) (fun x hx => by rw [has_modify]; exact hk x hx)
        exact ⟨d3, e3, h3.trans (Dict.keys_modify _ _ _)⟩
    · simp only [hm, Bool.false_eq_true, ↓reduceIte] at h ⊢
      exact ih h hk

theorem loop_twice {α : Type} {mark : Str} {new : α} {upd : List Str → α → α} (hu : Idem upd) {rows : List (List Str)} {d : Dict α} {l : List Str}
    {r : Dict α × List Str} (hn : d.keys.Nodup) (h : rowsLoop mark new upd rows (d, l) = .ok r) : rowsLoop mark new upd rows (r.1, l) = .ok r := by
  obtain ⟨d3, e3, h3⟩ := loop_has h (d2 := r.1) (fun _ h => h)
  obtain ⟨h1, h2, h4⟩ := loop_spec h
  obtain ⟨_, _, h5⟩ := loop_spec e3
  rw [e3]
  have : d3 = r.1 := by
    refine dict_ext h3 (h3 ▸ h2 hn) ?_
    intro k hk
    rw [h3, Dict.mem_keys_iff] at hk
    obtain ⟨m, hm⟩ := hk
    have hk3 : k ∈ d3.keys := by rw [h3, Dict.mem_keys_iff]; exact ⟨m, hm⟩
    obtain ⟨b, hb⟩ := (Dict.mem_keys_iff _ _).1 hk3
    rw [hb, hm, h5 k b hb, hm, Option.getD_some, h4 k m hm, hu]
  rw [this]

end Verif.Twice
