import Verif.Lemmas.Str
import Verif.Model.Globals
import Verif.Spec.Lists

namespace Verif
open Spec

/-! ### create_id -/

theorem createIdLoop_some {els : List Str} {fuel i : Nat} {r : Str}
    (h : createIdLoop els fuel i = some r) :
    ∃ n, i ≤ n ∧ r = Str.ofNat n ∧ r ∉ els ∧ ∀ m, i ≤ m → m < n → Str.ofNat m ∈ els := by
  induction fuel generalizing i with
  | zero => simp [createIdLoop] at h
  | succ f ih =>
    simp only [createIdLoop] at h
    by_cases hm : Str.ofNat i ∈ els
    · rw [if_pos hm] at h
      obtain ⟨n, h1, h2, h3, h4⟩ := ih h
      refine ⟨n, by omega, h2, h3, fun m hm1 hm2 => ?_⟩
      by_cases e : m = i
      · exact e ▸ hm
      · exact h4 m (by omega) hm2
    · rw [if_neg hm] at h
      simp at h
      exact ⟨i, Nat.le_refl _, h.symm, h ▸ hm, fun m h1 h2 => by omega⟩

theorem createIdLoop_none {els : List Str} {fuel i : Nat}
    (h : createIdLoop els fuel i = none) : ∀ m, i ≤ m → m < i + fuel → Str.ofNat m ∈ els := by
  induction fuel generalizing i with
  | zero => intro m h1 h2; omega
  | succ f ih =>
    simp only [createIdLoop] at h
    by_cases hm : Str.ofNat i ∈ els
    · rw [if_pos hm] at h
      intro m h1 h2
      by_cases e : m = i
      · exact e ▸ hm
      · exact ih h m (by omega) (by omega)
    · rw [if_neg hm] at h; simp at h

/-- Pigeonhole: `n` distinct members need a list of length at least `n`. -/
theorem length_le_of_nodup_subset {α : Type} [DecidableEq α] :
    ∀ (a b : List α), a.Nodup → (∀ x ∈ a, x ∈ b) → a.length ≤ b.length := by
  intro a
  induction a with
  | nil => intro b _ _; simp
  | cons x xs ih =>
    intro b hn hs
    have hx : x ∈ b := hs x (by simp)
    have hn' := List.nodup_cons.1 hn
    have := ih (b.erase x) hn'.2 (fun y hy => by
      have hne : y ≠ x := fun e => hn'.1 (e ▸ hy)
      exact (List.mem_erase_of_ne hne).2 (hs y (by simp [hy])))
    rw [List.length_erase_of_mem hx] at this
    have : 0 < b.length := List.length_pos_of_mem hx
    simp; omega

theorem createIdLoop_ne_none (els : List Str) (fuel i : Nat) (h : els.length < fuel) :
    createIdLoop els fuel i ≠ none := by
  intro hn
  have hall := createIdLoop_none hn
  have hnd : ((List.range fuel).map (fun k => Str.ofNat (i + k))).Nodup := by
    rw [List.nodup_iff_pairwise_ne, List.pairwise_map]
    refine List.Pairwise.imp ?_ List.nodup_range
    intro a b hab he
    have := Str.ofNat_injective he
    omega
  have := length_le_of_nodup_subset _ els hnd (by
    intro x hx
    simp only [List.mem_map, List.mem_range] at hx
    obtain ⟨k, hk, rfl⟩ := hx
    exact hall (i + k) (by omega) (by omega))
  simp at this
  omega

theorem createIdLoop_eq (els : List Str) :
    createIdLoop els (els.length + 1) 1 = some (createId els) := by
  cases h : createIdLoop els (els.length + 1) 1 with
  | none => exact absurd h (createIdLoop_ne_none els _ 1 (by omega))
  | some r => simp [createId, h]

theorem createIdLoop_mono {els : List Str} {fuel fuel' i : Nat} {r : Str}
    (h : createIdLoop els fuel i = some r) (hle : fuel ≤ fuel') :
    createIdLoop els fuel' i = some r := by
  induction fuel generalizing i fuel' with
  | zero => simp [createIdLoop] at h
  | succ f ih =>
    cases fuel' with
    | zero => omega
    | succ f' =>
      simp only [createIdLoop] at h ⊢
      by_cases hm : Str.ofNat i ∈ els
      · rw [if_pos hm] at h ⊢; exact ih h (by omega)
      · rw [if_neg hm] at h ⊢; exact h

theorem createId_not_mem (els : List Str) : createId els ∉ els := by
  obtain ⟨n, _, h2, h3, _⟩ := createIdLoop_some (createIdLoop_eq els)
  exact h3

/-! ### string_to_list -/

theorem idxOf_append_mem {l m : List Str} {a : Str} (h : a ∈ l) :
    (l ++ m).idxOf a = l.idxOf a := by
  rw [List.idxOf_append, if_pos h]

theorem idxOf_append_not_mem {l m : List Str} {a : Str} (h : a ∉ l) :
    (l ++ m).idxOf a = m.idxOf a + l.length := by
  rw [List.idxOf_append, if_neg h]

theorem stringToListLoop_mem (parts acc : List Str) (x : Str) :
    x ∈ stringToListLoop acc parts ↔ x ∈ acc ∨ (x ≠ [] ∧ x ∈ parts.map Str.strip) := by
  induction parts generalizing acc with
  | nil => simp [stringToListLoop]
  | cons e r ih =>
    simp only [stringToListLoop, List.map_cons, List.mem_cons]
    split
    · rename_i h
      rw [ih]
      simp only [List.mem_append, List.mem_singleton]
      constructor
      · rintro ((h1 | h1) | ⟨h1, h2⟩)
        · exact .inl h1
        · exact .inr ⟨h1 ▸ h.1, .inl h1⟩
        · exact .inr ⟨h1, .inr h2⟩
      · rintro (h1 | ⟨h1, h2 | h2⟩)
        · exact .inl (.inl h1)
        · exact .inl (.inr h2)
        · exact .inr ⟨h1, h2⟩
    · rename_i h
      rw [ih]
      constructor
      · rintro (h1 | ⟨h1, h2⟩)
        · exact .inl h1
        · exact .inr ⟨h1, .inr h2⟩
      · rintro (h1 | ⟨h1, h2 | h2⟩)
        · exact .inl h1
        · subst h2
          left
          by_cases hm : Str.strip e ∈ acc
          · exact hm
          · exact absurd ⟨h1, hm⟩ h
        · exact .inr ⟨h1, h2⟩

/-- The loop keeps the accumulated elements in front. -/
theorem stringToListLoop_eq (parts acc : List Str) :
    ∃ t, stringToListLoop acc parts = acc ++ t := by
  induction parts generalizing acc with
  | nil => exact ⟨[], by simp [stringToListLoop]⟩
  | cons e r ih =>
    simp only [stringToListLoop]
    split
    · obtain ⟨t, ht⟩ := ih (acc ++ [Str.strip e])
      exact ⟨Str.strip e :: t, by simp [ht]⟩
    · exact ih acc

/-- Loop invariant: `acc` is in first-occurrence order for the processed part `pre`. -/
theorem stringToListLoop_first (parts : List Str) : ∀ (pre acc : List Str),
    (∀ x, x ∈ acc ↔ x ∈ pre) → acc.Nodup →
    acc.Pairwise (fun x y => pre.idxOf x < pre.idxOf y) →
    (stringToListLoop acc parts).Nodup ∧
    (stringToListLoop acc parts).Pairwise (fun x y =>
      (pre ++ (parts.map Str.strip).filter (· ≠ [])).idxOf x <
      (pre ++ (parts.map Str.strip).filter (· ≠ [])).idxOf y) := by
  induction parts with
  | nil => intro pre acc h1 h2 h3; simpa [stringToListLoop] using ⟨h2, h3⟩
  | cons e r ih =>
    intro pre acc hmem hnd hord
    simp only [stringToListLoop, List.map_cons]
    by_cases h : Str.strip e ≠ [] ∧ Str.strip e ∉ acc
    · rw [if_pos h]
      have key := ih (pre ++ [Str.strip e]) (acc ++ [Str.strip e]) (by
          intro x; simp [hmem]) (by
          refine List.nodup_append.2 ⟨hnd, by simp, ?_⟩
          intro a ha b hb; simp at hb; subst hb
          exact fun e' => h.2 (e' ▸ ha)) (by
          rw [List.pairwise_append]
          refine ⟨?_, by simp, ?_⟩
          · refine hord.imp_of_mem ?_
            intro a b ha hb hab
            rw [idxOf_append_mem ((hmem a).1 ha), idxOf_append_mem ((hmem b).1 hb)]
            exact hab
          · intro a ha b hb
            simp at hb; subst hb
            have hs : Str.strip e ∉ pre := fun hp => h.2 ((hmem _).2 hp)
            rw [idxOf_append_mem ((hmem a).1 ha), idxOf_append_not_mem hs]
            have := List.idxOf_lt_length_of_mem ((hmem a).1 ha)
            omega)
      rw [List.filter_cons_of_pos (by simpa using h.1)]
      simpa [List.append_assoc] using key
    · rw [if_neg h]
      by_cases hne : Str.strip e = []
      · rw [List.filter_cons_of_neg (by simp [hne])]
        exact ih pre acc hmem hnd hord
      · have hin : Str.strip e ∈ acc := by
          by_cases hm : Str.strip e ∈ acc
          · exact hm
          · exact absurd ⟨hne, hm⟩ h
        have hp := (hmem _).1 hin
        rw [List.filter_cons_of_pos (by simpa using hne)]
        have key := ih (pre ++ [Str.strip e]) acc (by
          intro x
          simp only [List.mem_append, List.mem_singleton, hmem]
          constructor
          · exact .inl
          · rintro (h | rfl)
            · exact h
            · exact hp) hnd (by
          refine hord.imp_of_mem ?_
          intro a b ha hb hab
          rw [idxOf_append_mem ((hmem a).1 ha), idxOf_append_mem ((hmem b).1 hb)]
          exact hab)
        simpa [List.append_assoc] using key

/-- Elements that are already clean pass through the loop unchanged. -/
theorem stringToListLoop_clean (parts : List Str) : ∀ acc : List Str,
    (acc ++ parts).Nodup → (∀ x ∈ parts, x ≠ [] ∧ Str.strip x = x) →
    stringToListLoop acc parts = acc ++ parts := by
  induction parts with
  | nil => intro acc _ _; simp [stringToListLoop]
  | cons e r ih =>
    intro acc hnd hc
    have he := hc e (by simp)
    simp only [stringToListLoop, he.2]
    have hna : e ∉ acc := by
      intro hm
      exact (List.nodup_append.1 hnd).2.2 e hm e (by simp) rfl
    rw [if_pos ⟨he.1, hna⟩, ih (acc ++ [e]) (by simpa using hnd) (fun x hx => hc x (by simp [hx]))]
    simp

theorem split_segments (sep : Str) (hs : sep ≠ []) :
    ∀ s : Str, Segments sep s (Str.split s sep) := by
  intro s
  induction hn : s.length using Nat.strongRecOn generalizing s with
  | ind n ih =>
    -- either there is no occurrence, or we cut at the leftmost one
    by_cases hi : sep <:+: s
    · -- leftmost occurrence
      have : ∃ x rest, s = x ++ sep ++ rest ∧ ¬ sep <:+: (x ++ sep.dropLast) := by
        clear ih hn
        induction s with
        | nil => exact absurd (by simpa using hi) hs
        | cons c cs ih2 =>
          by_cases hp : sep <+: (c :: cs)
          · obtain ⟨t, ht⟩ := hp
            refine ⟨[], t, by simp [ht], ?_⟩
            intro h
            have := h.length_le
            simp at this
            have : 0 < sep.length := List.length_pos_iff.2 hs
            omega
          · have hi' : sep <:+: cs := by
              rcases List.infix_cons_iff.1 hi with h | h
              · exact absurd h hp
              · exact h
            obtain ⟨x, rest, h1, h2⟩ := ih2 hi'
            refine ⟨c :: x, rest, by simp [h1], ?_⟩
            intro h
            rw [List.cons_append] at h
            rcases List.infix_cons_iff.1 h with h | h
            · apply hp
              refine h.trans ?_
              rw [h1]
              refine ⟨[sep.getLast hs] ++ rest, ?_⟩
              have e : sep.dropLast ++ [sep.getLast hs] = sep := List.dropLast_concat_getLast hs
              have e2 : x ++ sep ++ rest = x ++ (sep.dropLast ++ [sep.getLast hs]) ++ rest := by
                rw [e]
              rw [e2]; simp
            · exact h2 h
      obtain ⟨x, rest, h1, h2⟩ := this
      subst h1
      rw [Str.split_append_sep sep x rest hs h2]
      refine .more x rest _ h2 (ih rest.length ?_ rest rfl)
      have : 0 < sep.length := List.length_pos_iff.2 hs
      simp at hn; omega
    · rw [Str.split_free sep s hi]
      exact .last s hi

theorem segments_unique (sep : Str) (hs : sep ≠ []) {s : Str} {p : List Str}
    (h : Segments sep s p) : p = Str.split s sep := by
  induction h with
  | last x hx => rw [Str.split_free sep x hx]
  | more x rest parts hx _ ih => rw [Str.split_append_sep sep x rest hs hx, ← ih]

theorem freeOf_of_borderFree {d x : Str} (hd : d ≠ []) (hb : BorderFree d) (hx : ¬ d <:+: x) :
    Str.FreeOf d x := by
  rintro ⟨a, b, hab⟩
  have hlen := congrArg List.length hab
  simp only [List.length_append, List.length_dropLast] at hlen
  have hd0 : 0 < d.length := List.length_pos_iff.2 hd
  by_cases h1 : a.length + d.length ≤ x.length
  · apply hx
    have : a ++ d <+: x := by
      refine List.prefix_of_prefix_length_le (l₃ := x ++ d.dropLast) ⟨b, hab⟩
        (List.prefix_append _ _) (by simpa using h1)
    obtain ⟨t, ht⟩ := this
    exact ⟨a, t, ht⟩
  · have h2 : a.length < x.length := by omega
    -- x = a ++ y with y a proper prefix of d
    have hax : a <+: x := by
      refine List.prefix_of_prefix_length_le (l₃ := x ++ d.dropLast) ⟨d ++ b, by simpa using hab⟩
        (List.prefix_append _ _) (by omega)
    obtain ⟨y, rfl⟩ := hax
    have hyb : d ++ b = y ++ d.dropLast := by
      have := hab
      simp only [List.append_assoc] at this
      exact List.append_cancel_left this
    simp only [List.length_append] at h1 h2 hlen
    have hy : y = d.take y.length := by
      have := congrArg (List.take y.length) hyb
      rw [List.take_append_of_le_length (by omega), List.take_append_of_le_length (by omega)] at this
      simpa using this.symm
    have hk : d.drop y.length = d.take (d.length - y.length) := by
      have := congrArg (fun l => (l.drop y.length).take (d.length - y.length)) hyb
      simp only [List.drop_append_of_le_length (show y.length ≤ d.length by omega),
        List.drop_left] at this
      rw [List.take_append_of_le_length (by simp), List.take_of_length_le (by simp)] at this
      rw [this, List.dropLast_eq_take, List.take_take]
      congr 1
      omega
    refine hb (d.length - y.length) (by omega) (by omega) ?_
    rw [← hk]
    congr 1
    omega

theorem infix_of_strip {x y : Str} (h : x <:+: Str.strip y) : x <:+: y := by
  refine h.trans ?_
  unfold Str.strip Str.stripBy
  obtain ⟨t, ht, _⟩ := Str.rstripBy_prefix Str.isWs (Str.lstripBy Str.isWs y)
  have h1 : Str.rstripBy Str.isWs (Str.lstripBy Str.isWs y) <:+: Str.lstripBy Str.isWs y :=
    ⟨[], t, by simpa using ht.symm⟩
  exact h1.trans (List.dropWhile_suffix _).isInfix

end Verif
