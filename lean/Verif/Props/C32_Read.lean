/-
C32, reading: which tables the ODS readers accept, and what they get.
-/
import Verif.Model.OdsRead
import Verif.Spec.Ods
import Verif.Lemmas.Export

namespace Verif
open XNode Spec

theorem repeats_pos (c : XNode) : 0 < repeats c := by
  unfold repeats
  split <;> first | omega | (split <;> omega)

theorem replicate_take {α : Type} {n m : Nat} (x : α) (h : m ≤ n) : (List.replicate n x).take m = List.replicate m x := by
  rw [List.take_replicate, Nat.min_eq_left h]

theorem cellText_eq (c : XNode) : cellText c = (odsCellText c).getD [] := by
  unfold cellText odsCellText
  cases sel c!"text:p" c.kids <;> rfl

theorem odsCells_ok {k : Nat} : ∀ {cells : List XNode} {i : Nat} {r : List Str}, i < k →
    ¬((∃ c, cells.head? = some c ∧ odsCellText c = none) ∧ i = 0) →
    odsCells k i cells = .ok r → r.length = k - i → r = (columns cells).take (k - i) ∧ k - i ≤ (columns cells).length := by
  intro cells
  induction cells with
  | nil =>
    intro i r hi _ h hl
    injection h with h; subst h
    simp at hl; omega
  | cons c cs ih =>
    intro i r hi hh h hl
    have hh' : ¬((odsCellText c).isNone ∧ i = 0) := by
      intro ⟨a, b⟩
      exact hh ⟨⟨c, rfl, by simpa using a⟩, b⟩
    unfold odsCells at h
    rw [if_neg hh'] at h
    simp only at h
    rw [← cellText_eq] at h
    have hcol : columns (c :: cs) = List.replicate (repeats c) (cellText c) ++ columns cs := rfl
    have hpos := repeats_pos c
    by_cases h1 : i + 1 ≥ k
    · rw [if_pos h1] at h
      injection h with h; subst h
      have : k - i = 1 := by omega
      rw [this, hcol]
      obtain ⟨n, hn⟩ : ∃ n, repeats c = n + 1 := ⟨repeats c - 1, by omega⟩
      rw [hn]
      simp [List.replicate_succ]
    · rw [if_neg h1] at h
      have single : repeats c = 1 → (do let rest ← odsCells k (i + 1) cs; Except.ok (cellText c :: rest)) = Except.ok r →
          r = (columns (c :: cs)).take (k - i) ∧ k - i ≤ (columns (c :: cs)).length := by
        intro hr h
        obtain ⟨rest, hrest, h⟩ := bind_ok h
        injection h with h; subst h
        have := ih (i := i + 1) (r := rest) (by omega) (by rintro ⟨_, h⟩; omega) hrest (by simp at hl; omega)
        rw [hcol, hr]
        have e : k - i = (k - (i + 1)) + 1 := by omega
        rw [e]
        simp only [List.replicate_succ, List.replicate_zero, List.cons_append, List.nil_append, List.take_succ_cons, List.length_cons]
        exact ⟨by rw [← this.1], by omega⟩
      cases ha : c.attr c!"table:number-columns-repeated" with
      | none =>
        rw [ha] at h
        exact single (by unfold repeats; rw [ha]) h
      | some a =>
        rw [ha] at h
        cases a with
        | nil => exact single (by unfold repeats; rw [ha]) h
        | cons a0 a =>
          simp only at h
          cases hn : Str.toNat? (a0 :: a) with
          | none => rw [hn] at h; cases h
          | some n =>
            rw [hn] at h
            obtain ⟨rest, hrest, h⟩ := bind_ok h
            injection h with h; subst h
            have hrep : repeats c = max 1 n := by unfold repeats; rw [ha]; have : decimal (a0 :: a) = some n := hn; simp only [this, Option.getD_some]
            simp only [List.length_cons, List.length_append, List.length_replicate] at hl
            rw [hcol, hrep]
            have e : k - i = (k - (i + 1)) + 1 := by omega
            have e2 : max 1 n = (n - 1) + 1 := by omega
            rw [e, e2]
            simp only [List.replicate_succ, List.cons_append, List.take_succ_cons, List.length_cons, List.length_append, List.length_replicate]
            by_cases hm : n - 1 < k - (i + 1)
            · rw [Nat.min_eq_left (by omega)] at hrest hl ⊢
              have := ih (i := i + 1 + (n - 1)) (r := rest) (by omega) (by rintro ⟨_, h⟩; omega) hrest (by omega)
              refine ⟨?_, by omega⟩
              rw [List.take_append, List.take_of_length_le (by simp; omega), List.length_replicate]
              rw [show k - (i + 1) - (n - 1) = k - (i + 1 + (n - 1)) by omega, ← this.1]
            · rw [Nat.min_eq_right (by omega)] at hrest hl ⊢
              have : rest = [] := by
                apply List.length_eq_zero_iff.mp; omega
              subst this
              refine ⟨?_, by omega⟩
              rw [List.append_nil, List.take_append, replicate_take _ (by omega), List.length_replicate,
                show k - (i + 1) - (n - 1) = 0 by omega]
              simp

theorem odsCells_head {k : Nat} {cells : List XNode} {r : List Str} (hk : 0 < k) (h : odsCells k 0 cells = .ok r) :
    r = [] ↔ ∀ c, cells.head? = some c → odsCellText c = none := by
  cases cells with
  | nil => injection h with h; subst h; simp
  | cons c cs =>
    unfold odsCells at h
    by_cases hh : odsCellText c = none
    · rw [if_pos ⟨by simp [hh], rfl⟩] at h
      injection h with h; subst h
      simp [hh]
    · rw [if_neg (by simp [hh])] at h
      have : ¬ r = [] := by
        intro hr; subst hr
        simp only at h
        split at h
        · injection h with h; cases h
        · split at h
          · obtain ⟨_, _, h⟩ := bind_ok h; injection h with h; cases h
          · obtain ⟨_, _, h⟩ := bind_ok h; injection h with h; cases h
          · split at h
            · cases h
            · obtain ⟨_, _, h⟩ := bind_ok h; injection h with h; cases h
      simp [this, hh]

theorem hasId_iff (row : XNode) : hasId row = true ↔ ¬ ∀ c, (tableCells row).head? = some c → odsCellText c = none := by
  unfold hasId
  cases h : (tableCells row).head? with
  | none => simp
  | some c =>
    unfold odsCellText
    cases h2 : sel c!"text:p" c.kids with
    | nil => simp [h2]
    | cons => simp [h2]

theorem odsRows_ok {k : Nat} (hk : 0 < k) : ∀ {rows : List XNode} {r : List (List Str)}, odsRows k rows = .ok r →
    (∀ row ∈ r, row.length = k) →
    r = (rows.filter hasId).map (fun row => (columns (tableCells row)).take k) ∧
    ∀ row ∈ rows, hasId row = true → k ≤ (columns (tableCells row)).length := by
  intro rows
  induction rows with
  | nil => intro r h _; injection h with h; subst h; exact ⟨rfl, by simp⟩
  | cons row rows ih =>
    intro r h hl
    unfold odsRows at h
    obtain ⟨cells, hc, h⟩ := bind_ok h
    obtain ⟨rest, hrest, h⟩ := bind_ok h
    injection h with h
    have hid := odsCells_head hk hc
    by_cases he : cells = []
    · rw [if_pos he] at h
      subst h
      have hno : hasId row = false := by
        cases hh : hasId row with
        | false => rfl
        | true => exact absurd (hid.mp he) ((hasId_iff row).mp hh)
      have := ih hrest hl
      refine ⟨by rw [List.filter_cons, hno]; simpa using this.1, ?_⟩
      intro x hx hx2
      rcases List.mem_cons.mp hx with rfl | hx
      · rw [hno] at hx2; cases hx2
      · exact this.2 x hx hx2
    · rw [if_neg he] at h
      subst h
      have hyes : hasId row = true := by
        rw [hasId_iff]
        exact fun hh => he (hid.mpr hh)
      have := ih hrest (fun x hx => hl x (by simp [hx]))
      have hrow := odsCells_ok (k := k) hk (by
        rintro ⟨⟨c, hc1, hc2⟩, _⟩
        exact (hasId_iff row).mp hyes (fun d hd => by
          have : some c = some d := hc1.symm.trans hd
          injection this with this
          rw [← this]; exact hc2)) hc (by rw [hl cells (by simp)]; omega)
      rw [Nat.sub_zero] at hrow
      refine ⟨by rw [List.filter_cons, hyes]; simp only [if_true, List.map_cons]; rw [← this.1]; congr 1; exact hrow.1, ?_⟩
      intro x hx hx2
      rcases List.mem_cons.mp hx with rfl | hx
      · exact hrow.2
      · exact this.2 x hx hx2

theorem findOr_ok {t : Str} {ks : List XNode} {e : XNode} (h : findOr t ks = .ok e) : find t ks = some e := by
  unfold findOr at h
  split at h
  · injection h with h; subst h; assumption
  · cases h

/-- C32, reading: a table that is accepted has at least `k` columns in every row with an ID, and what is read are the texts of the first
`k` columns of these rows. In particular a table with a row of fewer columns is refused. -/
theorem C32_accepted {k : Nat} (hk : 0 < k) {root : XNode} {rows : List (List Str)} (h : readTable k root = .ok rows) :
    ∃ table, TableOf root table ∧
      rows = ((tableRows table).filter hasId).map (fun row => (columns (tableCells row)).take k) ∧
      (∀ row ∈ tableRows table, hasId row = true → k ≤ (columns (tableCells row)).length) ∧
      (∀ row ∈ rows, row.length = k) := by
  unfold readTable at h
  obtain ⟨r, hr, h⟩ := bind_ok h
  split at h
  · rename_i hall
    injection h with h; subst h
    unfold getRows at hr
    obtain ⟨body, h1, hr⟩ := bind_ok hr
    obtain ⟨sheet, h2, hr⟩ := bind_ok hr
    obtain ⟨table, h3, hr⟩ := bind_ok hr
    have hl : ∀ row ∈ r, row.length = k := by simpa using hall
    have := odsRows_ok hk hr hl
    exact ⟨table, ⟨body, sheet, findOr_ok h1, findOr_ok h2, findOr_ok h3⟩, this.1, this.2, hl⟩
  · cases h

/-- C32, reading: a document with a row of too few columns is refused. -/
theorem C32_refused_partial {k : Nat} (hk : 0 < k) {root table row : XNode} (ht : TableOf root table) (hr : row ∈ tableRows table)
    (hid : hasId row = true) (hc : (columns (tableCells row)).length < k) : ∀ rows, readTable k root ≠ .ok rows := by
  intro rows h
  obtain ⟨table', ht', _, h2, _⟩ := C32_accepted hk h
  obtain ⟨b, s, x1, x2, x3⟩ := ht
  obtain ⟨b', s', y1, y2, y3⟩ := ht'
  rw [x1] at y1; injection y1 with y1; subst y1
  rw [x2] at y2; injection y2 with y2; subst y2
  rw [x3] at y3; injection y3 with y3; subst y3
  have := h2 row hr hid
  omega

end Verif
