/-
Titles in documents: the layout marks are removed from the escaped title, and what is left is an escaped text again.
-/
import Verif.Lemmas.Markup5

namespace Verif
open Spec Re

/-- The characters of a layout mark. -/
def layoutChar (c : Char) : Bool := decide (c ∈ c!"/h|crsu]") || Char.isDigit c

theorem layout_match {b : Bool} {s : Str} {n : Nat} (h : layoutTag b s = some n) :
    ∃ m u, s = '[' :: (m ++ u) ∧ n = m.length + 1 ∧ ∀ c ∈ m, layoutChar c = true := by
  unfold layoutTag at h
  split at h
  · rename_i r
    simp only at h
    split at h
    · rename_i c b' e
      split at h
      · rename_i hc
        split at h
        · rename_i z e2
          have h1 : r = r.takeWhile (· = '/') ++ c :: b' := by rw [← e, List.takeWhile_append_dropWhile]
          have h2 : b' = b'.takeWhile (fun c => '0' ≤ c && c ≤ '9') ++ ']' :: z := by rw [← e2, List.takeWhile_append_dropWhile]
          have hA : ∀ d ∈ r.takeWhile (· = '/'), d = '/' := by
            intro d hd
            have := List.all_eq_true.1 List.all_takeWhile _ hd
            simpa only [decide_eq_true_eq] using this
          have hB : ∀ d ∈ b'.takeWhile (fun c => '0' ≤ c && c ≤ '9'), ('0' ≤ d && d ≤ '9') = true := fun d hd => List.all_eq_true.1 (List.all_takeWhile (p := fun c => '0' ≤ c && c ≤ '9') (l := b')) d hd
          generalize r.takeWhile (· = '/') = A at h1 hA
          generalize b'.takeWhile (fun c => '0' ≤ c && c ≤ '9') = B at h2 hB
          subst h2
          subst h1
          refine ⟨A ++ c :: (B ++ c!"]"), z, by simp, ?_, ?_⟩
          · injection h with h
            simp only [List.length_cons, List.length_append, List.length_nil] at h ⊢
            omega
          · intro d hd
            simp only [List.mem_append, List.mem_cons, List.not_mem_nil, or_false] at hd
            rcases hd with hd | rfl | hd | rfl
            · rw [hA d hd]
              decide
            · unfold layoutChar
              rw [Bool.or_eq_true]
              left
              rw [decide_eq_true_eq]
              simp only [List.mem_cons, List.not_mem_nil, or_false] at hc ⊢
              rcases hc with h | h | h | h | h | h <;> simp [h]
            · have := hB d hd
              unfold layoutChar
              rw [Bool.or_eq_true]
              right
              simp only [Bool.and_eq_true, decide_eq_true_eq] at this
              simp only [Char.isDigit, Bool.and_eq_true, decide_eq_true_eq]
              exact this
            · decide
        · cases h
      · cases h
    · cases h
  · cases h

/-- Characters that are not escaped. -/
theorem esc_prefix {m t u : Str} (hm : ∀ c ∈ m, layoutChar c = true) (h : t.flatMap escChar = m ++ u) : ∃ t', t = m ++ t' ∧ u = t'.flatMap escChar := by
  induction m generalizing t with
  | nil => exact ⟨t, rfl, h.symm⟩
  | cons c m ih =>
    cases t with
    | nil => cases h
    | cons d t =>
      obtain ⟨x, y, e, hx⟩ := escChar_head d
      have hc := hm c (by simp)
      rw [List.flatMap_cons] at h
      have hxc : x = c := by
        rw [e, List.cons_append, List.cons_append] at h
        injection h
      subst hxc
      have hne : x ≠ '&' := by rintro rfl; revert hc; decide
      have hd : escChar d = [d] ∧ d = x := by
        revert e
        unfold escChar
        split
        · intro e; injection e with e; exact absurd e.symm hne
        split
        · intro e; injection e with e; exact absurd e.symm hne
        split
        · intro e; injection e with e; exact absurd e.symm hne
        split
        · intro e; injection e with e; exact absurd e.symm hne
        split
        · intro e; injection e with e; exact absurd e.symm hne
        intro e
        injection e with e
        exact ⟨rfl, e⟩
      obtain ⟨hd, rfl⟩ := hd
      rw [hd] at h
      obtain ⟨t', rfl, h2⟩ := ih (fun c hc => hm c (by simp [hc])) (t := t) (by simpa using h)
      exact ⟨t', rfl, h2⟩

theorem subGo_matched (m : Matcher) (rep : Str) (b : Bool) (a s : Str) : ∃ b', subGo m rep b a.length (a ++ s) = subGo m rep b' 0 s := by
  induction a generalizing b with
  | nil => exact ⟨b, rfl⟩
  | cons c a ih =>
    obtain ⟨b', h⟩ := ih (c = '\n')
    exact ⟨b', by rw [← h]; rfl⟩

/-- An escaped text without its layout marks is an escaped text, made of characters of the text. -/
theorem layout_escaped (t : Str) (b : Bool) : ∃ t' : Str, subGo layoutTag [] b 0 (t.flatMap escChar) = t'.flatMap escChar ∧ t'.Sublist t := by
  generalize hn : t.length = n
  induction n using Nat.strongRecOn generalizing t b with
  | _ n ih =>
    cases t with
    | nil => exact ⟨[], rfl, List.Sublist.refl _⟩
    | cons c t =>
      by_cases hc : c = '['
      · subst hc
        show ∃ t' : Str, subGo layoutTag [] b 0 ('[' :: t.flatMap escChar) = t'.flatMap escChar ∧ t'.Sublist ('[' :: t)
        cases hm : layoutTag b ('[' :: t.flatMap escChar) with
        | none =>
          obtain ⟨t', h1, h2⟩ := ih t.length (by rw [← hn]; simp) t (decide ('[' = '\n')) rfl
          refine ⟨'[' :: t', ?_, h2.cons_cons _⟩
          simp only [subGo, hm]
          rw [h1]
          rfl
        | some k =>
          obtain ⟨m, u, e1, e2, e3⟩ := layout_match hm
          injection e1 with _ e1
          obtain ⟨t2, rfl, e4⟩ := esc_prefix e3 e1
          obtain ⟨b', h3⟩ := subGo_matched layoutTag [] (decide ('[' = '\n')) m u
          obtain ⟨t', h1, h2⟩ := ih t2.length (by rw [← hn]; simp; omega) t2 b' rfl
          refine ⟨t', ?_, (h2.trans (List.sublist_append_right m t2)).cons _⟩
          rw [← h1, ← e4, ← h3, e1]
          subst e2
          simp only [subGo, e1 ▸ hm, List.nil_append]
      · obtain ⟨b', e⟩ := layout_skip b (escChar c) (t.flatMap escChar) (not_mem_esc (by decide) hc)
        obtain ⟨t', h1, h2⟩ := ih t.length (by rw [← hn]; simp) t b' rfl
        refine ⟨c :: t', ?_, h2.cons_cons _⟩
        rw [List.flatMap_cons, e, h1]
        rfl

/-- The title in a document. -/
theorem convert_title (reps : List (Str × Str)) (ls : List Str) (t : Str) :
    ∃ t' : Str, formattedConvert reps ls (some t) true = t'.flatMap escChar ∧ t'.Sublist t := by
  cases t with
  | nil => exact ⟨[], rfl, List.Sublist.refl _⟩
  | cons c t =>
    have : formattedConvert reps ls (some (c :: t)) true = subGo layoutTag [] true 0 ((c :: t).flatMap escChar) := by
      show sub layoutTag [] (replaceAll xmlReplacements (c :: t)) = _
      rw [replaceAll_xml]
      rfl
    rw [this]
    exact layout_escaped _ _

end Verif
