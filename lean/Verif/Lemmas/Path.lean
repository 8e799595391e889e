import Verif.Spec.Converter
import Verif.Model.Converter
import Verif.Lemmas.Globals

namespace Verif
open Spec Path

theorem ofNat_toNat (c : Char) : Char.ofNat c.toNat = c := Char.ofNat_toNat c

theorem toNat_ofNat_small {n : Nat} (h : n < 200) : (Char.ofNat n).toNat = n := by
  have hv : n.isValidChar := Or.inl (by omega)
  unfold Char.ofNat
  rw [dif_pos hv]
  rfl

theorem lowerChar_eq (c : Char) : Str.lowerChar c = if 65 ≤ c.toNat ∧ c.toNat ≤ 90 then Char.ofNat (c.toNat + 32) else c := by
  unfold Str.lowerChar
  have e : ('A' ≤ c ∧ c ≤ 'Z') ↔ (65 ≤ c.toNat ∧ c.toNat ≤ 90) := by
    constructor
    · rintro ⟨h1, h2⟩; exact ⟨h1, h2⟩
    · rintro ⟨h1, h2⟩; exact ⟨h1, h2⟩
  by_cases h : 65 ≤ c.toNat ∧ c.toNat ≤ 90
  · rw [if_pos (e.2 h), if_pos h]
  · rw [if_neg (fun x => h (e.1 x)), if_neg h]

theorem lowerChar_same_iff (a b : Char) : Str.lowerChar a = Str.lowerChar b ↔ SameLetter a b := by
  constructor
  · intro h
    rw [lowerChar_eq, lowerChar_eq] at h
    by_cases ha : 65 ≤ a.toNat ∧ a.toNat ≤ 90 <;> by_cases hb : 65 ≤ b.toNat ∧ b.toNat ≤ 90
    · rw [if_pos ha, if_pos hb] at h
      have h := congrArg Char.toNat h
      rw [toNat_ofNat_small (by omega), toNat_ofNat_small (by omega)] at h
      have : a = b := Char.toNat_inj.1 (by omega)
      subst this; exact .same a
    · rw [if_pos ha, if_neg hb] at h
      subst h
      have := SameLetter.upper a.toNat ha
      rwa [ofNat_toNat] at this
    · rw [if_neg ha, if_pos hb] at h
      subst h
      have := SameLetter.lower b.toNat hb
      rwa [ofNat_toNat] at this
    · rw [if_neg ha, if_neg hb] at h
      subst h; exact .same a
  · intro h
    cases h with
    | same => rfl
    | upper n h =>
      rw [lowerChar_eq, lowerChar_eq, toNat_ofNat_small (by omega), toNat_ofNat_small (by omega), if_pos h, if_neg (by omega)]
    | lower n h =>
      rw [lowerChar_eq, lowerChar_eq, toNat_ofNat_small (by omega), toNat_ofNat_small (by omega), if_pos h, if_neg (by omega)]

theorem lower_same_iff : ∀ (a b : Str), Str.lower a = Str.lower b ↔ SameText a b
  | [], [] => ⟨fun _ => .nil, fun _ => rfl⟩
  | [], _ :: _ => ⟨(fun h => by simp [Str.lower] at h), (fun h => by cases h)⟩
  | _ :: _, [] => ⟨(fun h => by simp [Str.lower] at h), (fun h => by cases h)⟩
  | x :: a, y :: b => by
    have ih := lower_same_iff a b
    constructor
    · intro h
      have h : Str.lowerChar x :: Str.lower a = Str.lowerChar y :: Str.lower b := h
      injection h with h1 h2
      exact .cons ((lowerChar_same_iff _ _).1 h1) (ih.1 h2)
    · intro h
      cases h with
      | cons h1 h2 =>
        show Str.lowerChar x :: Str.lower a = Str.lowerChar y :: Str.lower b
        rw [(lowerChar_same_iff _ _).2 h1, ih.2 h2]

theorem endsWith_iff (s e : Str) : Str.endsWith s e = true ↔ e <:+ s := List.isSuffixOf_iff_suffix

theorem endsIgnoringCase_iff (s e : Str) :
    Str.endsWith (Str.lower s) (Str.lower e) = true ↔ EndsIgnoringCase s e := by
  rw [endsWith_iff]
  constructor
  · rintro ⟨t, ht⟩
    unfold Str.lower at ht
    obtain ⟨a, b, h1, h2, h3⟩ := List.map_eq_append_iff.1 ht.symm
    exact ⟨a, b, h1, (lower_same_iff _ _).1 h3⟩
  · rintro ⟨a, b, rfl, h⟩
    refine ⟨Str.lower a, ?_⟩
    rw [← (lower_same_iff _ _).2 h]
    unfold Str.lower
    rw [List.map_append]

/-! ### `splitext` -/

theorem takeWhile_append_of_not {α : Type} (p : α → Bool) {a : List α} {c : α} (b : List α) (ha : ∀ x ∈ a, p x = true) (hc : p c = false) :
    (a ++ c :: b).takeWhile p = a := by
  induction a with
  | nil => simp [hc]
  | cons x a ih =>
    rw [List.cons_append, List.takeWhile_cons, ha x (by simp)]
    simp [ih (fun y hy => ha y (by simp [hy]))]

theorem takeWhile_all {α : Type} (p : α → Bool) {a : List α} (ha : ∀ x ∈ a, p x = true) : a.takeWhile p = a := by
  induction a with
  | nil => rfl
  | cons x a ih =>
    rw [List.takeWhile_cons, ha x (by simp)]
    simp [ih (fun y hy => ha y (by simp [hy]))]

theorem mem_takeWhile {α : Type} (p : α → Bool) {a : List α} {x : α} (h : x ∈ a.takeWhile p) : p x = true := by
  induction a with
  | nil => cases h
  | cons y a ih =>
    rw [List.takeWhile_cons] at h
    by_cases hy : p y = true
    · rw [if_pos hy] at h
      rcases List.mem_cons.1 h with rfl | h
      · exact hy
      · exact ih h
    · rw [if_neg hy] at h; cases h

/-- The name part of a path. -/
theorem name_any {p : Str} (h : HasName p) : (p.reverse.takeWhile (fun c => c ≠ '/')).any (fun c => c ≠ '.') = true := by
  obtain ⟨d, n, hp, hn, c, hc, hcd⟩ := h
  have : p.reverse.takeWhile (fun c => c ≠ '/') = n.reverse := by
    rcases hp with rfl | rfl
    · refine takeWhile_all _ ?_
      intro x hx
      have hx : x ∈ p := by simpa using hx
      have : x ≠ '/' := fun e => hn (e ▸ hx)
      simp [this]
    · rw [List.reverse_append, List.reverse_cons, List.append_assoc, List.singleton_append]
      refine takeWhile_append_of_not _ _ ?_ (by simp)
      intro x hx
      have hx : x ∈ n := by simpa using hx
      have : x ≠ '/' := fun e => hn (e ▸ hx)
      simp [this]
  rw [this, List.any_eq_true]
  exact ⟨c, by simpa using hc, by simpa using hcd⟩

theorem hasName_of_any {p : Str} (h : (p.reverse.takeWhile (fun c => c ≠ '/')).any (fun c => c ≠ '.') = true) : HasName p := by
  have key : p.reverse = p.reverse.takeWhile (fun c => c ≠ '/') ++ p.reverse.dropWhile (fun c => c ≠ '/') := List.takeWhile_append_dropWhile.symm
  have hn : '/' ∉ p.reverse.takeWhile (fun c => c ≠ '/') := by
    intro hm
    have := mem_takeWhile _ hm
    simp at this
  rw [List.any_eq_true] at h
  obtain ⟨c, hc, hcd⟩ := h
  have hp : p = (p.reverse.dropWhile (fun c => c ≠ '/')).reverse ++ (p.reverse.takeWhile (fun c => c ≠ '/')).reverse := by
    rw [← List.reverse_append, ← key, List.reverse_reverse]
  cases hd : p.reverse.dropWhile (fun c => c ≠ '/') with
  | nil =>
    rw [hd] at hp
    refine ⟨[], (p.reverse.takeWhile (fun c => c ≠ '/')).reverse, Or.inl (by simpa using hp), by simpa using hn, c, by simpa using hc, by simpa using hcd⟩
  | cons x r =>
    have hx : x = '/' := by
      have := Str.dropWhile_head (fun c => decide (c ≠ '/')) p.reverse x (by rw [hd]; rfl)
      simpa using this
    subst hx
    rw [hd] at hp
    refine ⟨r.reverse, (p.reverse.takeWhile (fun c => c ≠ '/')).reverse, Or.inr ?_, by simpa using hn, c, by simpa using hc, by simpa using hcd⟩
    simpa using hp

theorem splitext_append {f e : Str} (hf : HasName f) (he : ∀ c ∈ e, c ≠ '.' ∧ c ≠ '/') : splitext (f ++ '.' :: e) = (f, '.' :: e) := by
  unfold splitext
  have h1 : (f ++ '.' :: e).reverse = e.reverse ++ '.' :: f.reverse := by simp
  have h2 : (e.reverse ++ '.' :: f.reverse).takeWhile (fun c => c ≠ '.' && c ≠ '/') = e.reverse := by
    refine takeWhile_append_of_not _ _ ?_ (by simp)
    intro x hx
    have := he x (by simpa using hx)
    simp [this.1, this.2]
  simp only [h1, h2]
  rw [List.drop_left]
  simp only [name_any hf, if_true, List.reverse_reverse]

theorem splitext_some {p f e : Str} {c : Char} (h : splitext p = (f, c :: e)) : p = f ++ c :: e ∧ HasName f ∧ c = '.' := by
  unfold splitext at h
  dsimp only at h
  generalize hE : p.reverse.takeWhile (fun c => c ≠ '.' && c ≠ '/') = E at h
  have key : p.reverse = E ++ p.reverse.drop E.length := by
    conv => lhs; rw [← List.takeWhile_append_dropWhile (p := fun c => c ≠ '.' && c ≠ '/') (l := p.reverse)]
    rw [hE]
    congr 1
    conv => rhs; rw [← List.takeWhile_append_dropWhile (p := fun c => c ≠ '.' && c ≠ '/') (l := p.reverse), hE, List.drop_left]
  split at h
  · next r hd =>
    split at h
    · next ha =>
      injection h with h1 h2
      injection h2 with h2 h3
      have hr : r = f.reverse := by rw [← h1, List.reverse_reverse]
      subst hr
      refine ⟨?_, hasName_of_any ha, h2.symm⟩
      rw [hd] at key
      have := congrArg List.reverse key
      rw [List.reverse_reverse] at this
      rw [this, ← h3, ← h2]
      simp
    · injection h with _ h; cases h
  · injection h with _ h; cases h

/-! ### Classes -/

/-- Two classes whose endings are endings of one path are the same. -/
theorem ending_unique : ∀ a ∈ importSources, ∀ b ∈ importSources, a.ending <:+ b.ending → a = b := by
  have : (importSources.all fun a => importSources.all fun b => !a.ending.isSuffixOf b.ending || decide (a = b)) = true := by decide +kernel
  intro a ha b hb h
  rw [List.all_eq_true] at this
  have := this a ha
  rw [List.all_eq_true] at this
  have := this b hb
  rw [Bool.or_eq_true, Bool.not_eq_true', decide_eq_true_eq] at this
  rcases this with h' | h'
  · rw [List.isSuffixOf_iff_suffix.2 h] at h'; cases h'
  · exact h'

theorem suffix_total {a b s : Str} (ha : a <:+ s) (hb : b <:+ s) : a <:+ b ∨ b <:+ a := by
  rcases Nat.le_total a.length b.length with h | h
  · exact Or.inl (List.suffix_of_suffix_length_le ha hb h)
  · exact Or.inr (List.suffix_of_suffix_length_le hb ha h)

theorem importSource_eq {c : DocClass} (hc : c ∈ importSources) {path : Str} (h : c.ending <:+ path) :
    importSource importSources path = some (mkDoc c path) := by
  unfold importSource
  have hsome : ∀ a ∈ importSources, a.suffix.isSome = true := by decide
  cases hf : importSources.find? (fun c => c.suffix.isSome && Str.endsWith path c.ending) with
  | none =>
    have := List.find?_eq_none.1 hf c hc
    rw [hsome c hc, (endsWith_iff _ _).2 h] at this
    exact absurd rfl this
  | some d =>
    have hd := List.find?_some hf
    have hm := List.mem_of_find?_eq_some hf
    rw [Bool.and_eq_true, endsWith_iff] at hd
    have : d = c := by
      rcases suffix_total hd.2 h with h1 | h1
      · exact ending_unique d hm c hc h1
      · exact (ending_unique c hc d hm h1).symm
    rw [this]; rfl

theorem importSource_none {path : Str} (h : ∀ c ∈ importSources, ¬ c.ending <:+ path) :
    importSource importSources path = none := by
  unfold importSource
  cases hf : importSources.find? (fun c => c.suffix.isSome && Str.endsWith path c.ending) with
  | none => rfl
  | some d =>
    have hd := List.find?_some hf
    rw [Bool.and_eq_true, endsWith_iff] at hd
    exact absurd hd.2 (h d (List.mem_of_find?_eq_some hf))

end Verif
