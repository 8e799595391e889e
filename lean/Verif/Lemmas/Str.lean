/-
Helper lemmas about the Python string functions of `Verif.Py.Str`.
-/
import Verif.Py.Str

namespace Verif
namespace Str

/-! ### strip -/

theorem rstripBy_append_single (p : Char → Bool) (s : Str) (c : Char) :
    rstripBy p (s ++ [c]) = if p c then rstripBy p s else s ++ [c] := by
  induction s with
  | nil => simp [rstripBy]
  | cons d ds ih =>
    simp only [List.cons_append, rstripBy, ih]
    by_cases h : p c
    · simp [h]
    · simp only [h]
      simp only [Bool.false_eq_true, if_false]
      cases ds <;> simp

theorem rstripBy_eq_self_iff (p : Char → Bool) (s : Str) :
    rstripBy p s = s ↔ ∀ c, s.getLast? = some c → p c = false := by
  rcases List.eq_nil_or_concat s with h | ⟨t, c, h⟩
  · subst h; simp [rstripBy]
  · subst h
    simp only [List.concat_eq_append]
    rw [rstripBy_append_single]
    constructor
    · intro h d hd
      simp at hd; subst hd
      cases hp : p c with
      | false => rfl
      | true =>
        simp only [hp, if_true] at h
        have := congrArg List.length h
        have hle : ∀ s : Str, (rstripBy p s).length ≤ s.length := by
          intro s
          induction s with
          | nil => simp [rstripBy]
          | cons x xs ih =>
            simp only [rstripBy]
            cases hx : rstripBy p xs with
            | nil => simp only; split <;> simp
            | cons y ys => rw [hx] at ih; simp at ih ⊢; omega
        have := hle t
        simp at *; omega
    · intro h
      simp [h c (by simp)]

theorem rstripBy_prefix (p : Char → Bool) (s : Str) :
    ∃ t, s = rstripBy p s ++ t ∧ ∀ c ∈ t, p c = true := by
  induction s with
  | nil => exact ⟨[], by simp [rstripBy]⟩
  | cons c cs ih =>
    obtain ⟨t, h1, h2⟩ := ih
    simp only [rstripBy]
    cases hx : rstripBy p cs with
    | nil =>
      rw [hx] at h1
      simp only
      by_cases hc : p c
      · refine ⟨c :: t, by simp [hc]; simpa using h1, ?_⟩
        intro d hd
        rcases List.mem_cons.1 hd with rfl | hd
        · exact hc
        · exact h2 _ hd
      · exact ⟨t, by simp [hc]; simpa using h1, h2⟩
    | cons d ds =>
      rw [hx] at h1
      exact ⟨t, by simp only [List.cons_append]; rw [h1]; simp, h2⟩

theorem rstripBy_getLast (p : Char → Bool) (s : Str) (c : Char)
    (h : (rstripBy p s).getLast? = some c) : p c = false := by
  induction s with
  | nil => simp [rstripBy] at h
  | cons d ds ih =>
    simp only [rstripBy] at h
    cases hx : rstripBy p ds with
    | nil =>
      rw [hx] at h
      simp only at h
      by_cases hd : p d
      · simp [hd] at h
      · simp [hd] at h; subst h; simpa using hd
    | cons e es =>
      rw [hx] at h ih
      simp only at h
      apply ih
      simpa [List.getLast?_cons_cons] using h

theorem rstripBy_idem (p : Char → Bool) (s : Str) : rstripBy p (rstripBy p s) = rstripBy p s :=
  (rstripBy_eq_self_iff p _).2 (fun _ h => rstripBy_getLast p s _ h)

theorem rstripBy_head (p : Char → Bool) (s : Str) (c : Char)
    (h : (rstripBy p s).head? = some c) : s.head? = some c := by
  obtain ⟨t, h1, _⟩ := rstripBy_prefix p s
  rw [h1]
  cases hx : rstripBy p s with
  | nil => rw [hx] at h; simp at h
  | cons d ds => rw [hx] at h; simpa using h

theorem dropWhile_head {α : Type} (p : α → Bool) (s : List α) (c : α)
    (h : (s.dropWhile p).head? = some c) : p c = false := by
  induction s with
  | nil => simp at h
  | cons d ds ih =>
    simp only [List.dropWhile_cons] at h
    by_cases hd : p d
    · simp only [hd, if_true] at h; exact ih h
    · simp only [hd] at h; simp at h; subst h; simpa using hd

theorem dropWhile_eq_self {α : Type} (p : α → Bool) (s : List α)
    (h : ∀ c, s.head? = some c → p c = false) : s.dropWhile p = s := by
  cases s with
  | nil => rfl
  | cons d ds => simp [h d rfl]

/-- A string is stripped when it has neither leading nor trailing `p`-characters. -/
theorem stripBy_eq_self_iff (p : Char → Bool) (s : Str) :
    stripBy p s = s ↔
      (∀ c, s.head? = some c → p c = false) ∧ (∀ c, s.getLast? = some c → p c = false) := by
  constructor
  · intro h
    have h1 : ∀ c, s.head? = some c → p c = false := by
      intro c hc
      rw [← h] at hc
      exact dropWhile_head p s c (rstripBy_head p _ c hc)
    refine ⟨h1, ?_⟩
    intro c hc
    rw [← h] at hc
    exact rstripBy_getLast p _ c hc
  · rintro ⟨h1, h2⟩
    unfold stripBy lstripBy
    rw [dropWhile_eq_self p s h1]
    exact (rstripBy_eq_self_iff p s).2 h2

theorem stripBy_idem (p : Char → Bool) (s : Str) : stripBy p (stripBy p s) = stripBy p s := by
  rw [stripBy_eq_self_iff]
  constructor
  · intro c hc
    exact dropWhile_head p s c (rstripBy_head p _ c hc)
  · intro c hc
    exact rstripBy_getLast p _ c hc

theorem strip_idem (s : Str) : strip (strip s) = strip s := stripBy_idem _ _

theorem rstrip_idem (s : Str) : rstrip (rstrip s) = rstrip s := rstripBy_idem _ _

theorem strip_eq_nil_iff (s : Str) : strip s = [] ↔ ∀ c ∈ s, isWs c = true := by
  unfold strip stripBy lstripBy
  constructor
  · intro h
    obtain ⟨t, h1, h2⟩ := rstripBy_prefix isWs (s.dropWhile isWs)
    rw [h, List.nil_append] at h1
    intro c hc
    rw [← List.takeWhile_append_dropWhile (p := isWs) (l := s), List.mem_append] at hc
    rcases hc with hc | hc
    · exact List.all_eq_true.1 List.all_takeWhile c hc
    · rw [h1] at hc; exact h2 c hc
  · intro h
    have : s.dropWhile isWs = [] := by
      induction s with
      | nil => rfl
      | cons d r ih =>
        rw [List.dropWhile_cons, if_pos (h d (by simp))]
        exact ih (fun c hc => h c (by simp [hc]))
    rw [this]; rfl

/-! ### split and join -/

theorem consHead_ne_nil (c : Char) (l : List Str) : consHead c l ≠ [] := by
  cases l <;> simp [consHead]

theorem splitGo_ne_nil (sep : Str) (n : Nat) (s : Str) : splitGo sep n s ≠ [] := by
  induction s generalizing n with
  | nil => simp [splitGo]
  | cons c cs ih =>
    cases n with
    | zero => simp only [splitGo]; split
              · simp
              · exact consHead_ne_nil _ _
    | succ n => simp only [splitGo]; exact ih n

theorem split_ne_nil (s sep : Str) : split s sep ≠ [] := splitGo_ne_nil _ _ _

theorem join_cons_of_ne (sep a : Str) (l : List Str) (h : l ≠ []) :
    join sep (a :: l) = a ++ sep ++ join sep l := by
  cases l with
  | nil => exact absurd rfl h
  | cons b r => rfl

theorem join_consHead (sep : Str) (c : Char) (l : List Str) (h : l ≠ []) :
    join sep (consHead c l) = c :: join sep l := by
  cases l with
  | nil => exact absurd rfl h
  | cons a r =>
    cases r with
    | nil => rfl
    | cons b r => simp [consHead, join]

theorem splitGo_skip (sep : Str) (n : Nat) (s : Str) (h : n ≤ s.length) :
    splitGo sep n s = splitGo sep 0 (s.drop n) := by
  induction s generalizing n with
  | nil => simp at h; subst h; rfl
  | cons c cs ih =>
    cases n with
    | zero => rfl
    | succ n => simp only [splitGo, List.drop_succ_cons]; exact ih n (by simpa using h)

theorem split_nil (sep : Str) : split [] sep = [[]] := rfl

/-- Unfolding `split` at a separator. -/
theorem split_sep_append (sep s : Str) (hs : sep ≠ []) :
    split (sep ++ s) sep = [] :: split s sep := by
  cases sep with
  | nil => exact absurd rfl hs
  | cons a as =>
    unfold split
    simp only [List.cons_append, splitGo]
    have hp : (a :: as).isPrefixOf (a :: (as ++ s)) = true := by
      rw [List.isPrefixOf_iff_prefix]; exact ⟨s, by simp⟩
    rw [if_pos hp, splitGo_skip _ _ _ (by simp)]
    simp

theorem split_cons_not_prefix (sep : Str) (c : Char) (s : Str)
    (h : ¬ sep <+: (c :: s)) : split (c :: s) sep = consHead c (split s sep) := by
  unfold split
  simp only [splitGo]
  rw [if_neg]
  rw [List.isPrefixOf_iff_prefix]; exact h

/-- Splitting and joining with the same separator restores the text. -/
theorem join_split (sep : Str) (hs : sep ≠ []) : ∀ s : Str, join sep (split s sep) = s := by
  intro s
  induction hn : s.length using Nat.strongRecOn generalizing s with
  | ind n ih =>
    cases s with
    | nil => rfl
    | cons c cs =>
      by_cases h : sep <+: (c :: cs)
      · obtain ⟨t, ht⟩ := h
        rw [← ht, split_sep_append sep t hs, join_cons_of_ne _ _ _ (split_ne_nil _ _)]
        rw [ih t.length _ t rfl]
        · simp
        · rw [← hn, ← ht, List.length_append]
          have : 0 < sep.length := List.length_pos_iff.2 hs
          omega
      · rw [split_cons_not_prefix _ _ _ h, join_consHead _ _ _ (split_ne_nil _ _)]
        rw [ih cs.length (by rw [← hn]; simp) cs rfl]

/-- `sep` does not occur in `x`, not even straddling into a separator that follows:
exactly the condition under which the first occurrence of `sep` in `x ++ sep ++ …`
is the one after `x`. -/
def FreeOf (sep x : Str) : Prop := ¬ sep <:+: (x ++ sep.dropLast)

theorem FreeOf.tail {sep : Str} {c : Char} {x : Str} (h : FreeOf sep (c :: x)) : FreeOf sep x := by
  intro ⟨a, b, hab⟩
  exact h ⟨c :: a, b, by simp [← hab]⟩

theorem freeOf_singleton (c : Char) (x : Str) : FreeOf [c] x ↔ c ∉ x := by
  unfold FreeOf
  simp only [List.dropLast_singleton, List.append_nil]
  refine not_congr ?_
  constructor
  · rintro ⟨a, b, rfl⟩; simp
  · intro h
    obtain ⟨a, b, rfl⟩ := List.append_of_mem h
    exact ⟨a, b, by simp⟩

theorem prefix_dropLast_of {sep u v : Str} (h : sep <+: u ++ v) (hl : sep.length ≤ u.length) :
    sep <+: u := by
  exact List.prefix_of_prefix_length_le h (List.prefix_append _ _) hl

theorem split_append_sep (sep x s : Str) (hs : sep ≠ []) (hx : FreeOf sep x) :
    split (x ++ sep ++ s) sep = x :: split s sep := by
  induction x with
  | nil => simpa using split_sep_append sep s hs
  | cons c x ih =>
    have ih := ih hx.tail
    simp only [List.cons_append]
    rw [split_cons_not_prefix, ih]
    · rfl
    · intro hp
      apply hx
      have h2 : sep <+: (c :: x ++ sep.dropLast) := by
        refine List.prefix_of_prefix_length_le hp ?_ (by simp; omega)
        have : sep = sep.dropLast ++ [sep.getLast hs] := (List.dropLast_concat_getLast hs).symm
        refine ⟨[sep.getLast hs] ++ s, ?_⟩
        conv => rhs; rw [this]
        simp
      exact h2.isInfix

theorem split_free (sep x : Str) (hx : ¬ sep <:+: x) : split x sep = [x] := by
  induction x with
  | nil => rfl
  | cons c x ih =>
    have : ¬ sep <:+: x := fun h => hx (h.trans (List.suffix_cons c x).isInfix)
    rw [split_cons_not_prefix, ih this]
    · rfl
    · exact fun h => hx h.isInfix

theorem FreeOf.not_infix {sep x : Str} (h : FreeOf sep x) : ¬ sep <:+: x :=
  fun hi => h (hi.trans (List.prefix_append _ _).isInfix)

/-- Joining separator-free segments and splitting again restores the list. -/
theorem split_join (sep : Str) (hs : sep ≠ []) (xs : List Str) (hne : xs ≠ [])
    (hx : ∀ x ∈ xs, FreeOf sep x) : split (join sep xs) sep = xs := by
  induction xs with
  | nil => exact absurd rfl hne
  | cons a r ih =>
    cases r with
    | nil => simpa [join] using split_free sep a (hx a (by simp)).not_infix
    | cons b r =>
      simp only [join]
      rw [split_append_sep sep a _ hs (hx a (by simp))]
      rw [ih (by simp) (fun x h => hx x (by simp [h]))]

/-- The pieces of a split are free of the separator, the last one in the weaker
sense that it has no occurrence at all. -/
theorem not_infix_of_mem_split (sep : Str) (hs : sep ≠ []) :
    ∀ s x : Str, x ∈ split s sep → ¬ sep <:+: x := by
  intro s
  induction hn : s.length using Nat.strongRecOn generalizing s with
  | ind n ih =>
    intro x hx
    cases s with
    | nil =>
      simp only [split_nil, List.mem_singleton] at hx
      subst hx
      intro h
      exact hs (by simpa using h)
    | cons c cs =>
      by_cases h : sep <+: (c :: cs)
      · obtain ⟨t, ht⟩ := h
        rw [← ht, split_sep_append sep t hs] at hx
        rcases List.mem_cons.1 hx with rfl | hx
        · intro h
          exact hs (by simpa using h)
        · refine ih t.length ?_ t rfl x hx
          rw [← hn, ← ht, List.length_append]
          have : 0 < sep.length := List.length_pos_iff.2 hs
          omega
      · rw [split_cons_not_prefix _ _ _ h] at hx
        have ih' := ih cs.length (by rw [← hn]; simp) cs rfl
        cases hsp : split cs sep with
        | nil => exact absurd hsp (split_ne_nil _ _)
        | cons a r =>
          rw [hsp] at hx
          simp only [consHead, List.mem_cons] at hx
          rcases hx with rfl | hx
          · have ha := ih' a (by rw [hsp]; simp)
            intro hi
            rcases List.infix_cons_iff.1 hi with hp | hi
            · apply h
              have : cs = join sep (split cs sep) := (join_split sep hs cs).symm
              rw [hsp] at this
              have hpre : a <+: cs := by
                rw [this]
                cases r with
                | nil => simp [join]
                | cons b r => exact ⟨sep ++ join sep (b :: r), by simp [join]⟩
              exact hp.trans (List.cons_prefix_cons.2 ⟨rfl, hpre⟩)
            · exact ha hi
          · exact ih' x (by rw [hsp]; simp [hx])

/-! ### decimal numerals -/

theorem ofNat_injective {m n : Nat} (h : ofNat m = ofNat n) : m = n := by
  have := congrArg (fun l => Nat.ofDigitChars 10 l 0) h
  simpa [ofNat, Nat.ofDigitChars_ten_toDigits] using this

theorem ofNat_ne_nil (n : Nat) : ofNat n ≠ [] := Nat.toDigits_ne_nil

theorem isDigit_of_mem_ofNat {n : Nat} {c : Char} (h : c ∈ ofNat n) : c.isDigit = true :=
  Nat.isDigit_of_mem_toDigits (by decide) (by decide) h

end Str
end Verif
