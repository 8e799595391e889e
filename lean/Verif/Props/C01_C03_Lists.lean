/-
C01 new IDs, C02 normalised lists, C03 tag list round trip.
-/
import Verif.Lemmas.Globals

namespace Verif
open Spec

/-! ## C01 -/

/-- The `while` loop of `create_id` terminates on every collection: it is finished after at most
`len(elements) + 1` iterations, and more iterations never change the result. -/
theorem C01_terminates (elements : List Str) (fuel : Nat) (h : elements.length < fuel) :
    createIdLoop elements fuel 1 = some (createId elements) :=
  createIdLoop_mono (createIdLoop_eq elements) h

/-- `create_id` returns the decimal numeral of the smallest positive integer whose numeral is
not in use; in particular the result is not in use. -/
theorem C01_fresh_minimal (elements : List Str) :
    createId elements ∉ elements ∧
    ∃ n, 1 ≤ n ∧ createId elements = Str.ofNat n ∧
      ∀ m, 1 ≤ m → m < n → Str.ofNat m ∈ elements := by
  obtain ⟨n, h1, h2, h3, h4⟩ := createIdLoop_some (createIdLoop_eq elements)
  exact ⟨h3, n, h1, h2, h4⟩

/-- Different integers have different numerals, so "smallest" is meaningful. -/
theorem C01_numerals_distinct (m n : Nat) : Str.ofNat m = Str.ofNat n ↔ m = n :=
  ⟨Str.ofNat_injective, fun h => h ▸ rfl⟩

/-- Test on a concrete collection with a gap, a non-number and a duplicate. -/
example : createId [c!"2", c!"1", c!"x", c!"4", c!"1"] = c!"3" := by decide

/-! ## C02 -/

/-- Every text has exactly one decomposition into segments for a non-empty divider. -/
theorem C02_segments_exist_unique (divider text : Str) (h : divider ≠ []) :
    ∃ parts, Segments divider text parts ∧ ∀ p, Segments divider text p → p = parts :=
  ⟨_, split_segments divider h text, fun _ hp => segments_unique divider h hp⟩

/-- `string_to_list` returns the distinct non-empty stripped segments in the order of first
occurrence. -/
theorem C02_string_to_list (text divider : Str) (parts : List Str) (hd : divider ≠ [])
    (hparts : Segments divider text parts) :
    FirstOccurrences ((parts.map Str.strip).filter (· ≠ [])) (stringToList (some text) divider) := by
  have hp := segments_unique divider hd hparts
  simp only [stringToList, hd, if_false, ← hp]
  have h := stringToListLoop_first parts [] [] (by simp) (by simp) (by simp)
  refine ⟨h.1, fun x => ?_, by simpa using h.2⟩
  rw [stringToListLoop_mem]
  simp [and_comm]

/-- No element is empty or has surrounding whitespace, and none is repeated — for every input,
including the ones on which the implementation swallows an exception. -/
theorem C02_clean (text : Option Str) (divider : Str) :
    (stringToList text divider).Nodup ∧
    ∀ x ∈ stringToList text divider, x ≠ [] ∧
      (∀ c, x.head? = some c → Str.isWs c = false) ∧
      (∀ c, x.getLast? = some c → Str.isWs c = false) := by
  cases text with
  | none => simp [stringToList]
  | some t =>
    by_cases hd : divider = []
    · simp [stringToList, hd]
    · have h := C02_string_to_list t divider _ hd (split_segments divider hd t)
      refine ⟨h.nodup, fun x hx => ?_⟩
      have := (h.mem x).1 hx
      simp only [List.mem_filter, List.mem_map, decide_eq_true_eq] at this
      obtain ⟨⟨y, _, rfl⟩, hne⟩ := this
      exact ⟨hne, (Str.stripBy_eq_self_iff _ _).1 (Str.strip_idem y)⟩

example : Segments c!";" c!" a;b ;;a" [c!" a", c!"b ", c!"", c!"a"] :=
  split_segments c!";" (by decide) _
example : stringToList (some c!" a;b ;;a") c!";" = [c!"a", c!"b"] := by decide

/-! ## C03 -/

/-- Tags that are distinct, non-empty, stripped and do not interact with the divider survive the
conversion to text and back. "Do not interact" is exact: the divider does not occur in the tag
followed by the divider without its last character; for a one-character divider it just means
that the tag does not contain it. -/
theorem C03_roundtrip (tags : List Str) (divider : Str) (hd : divider ≠ []) (hn : tags.Nodup)
    (hclean : ∀ t ∈ tags, t ≠ [] ∧ Str.strip t = t)
    (hfree : ∀ t ∈ tags, ¬ divider <:+: (t ++ divider.dropLast)) :
    stringToList (some (listToString (some tags) divider)) divider = tags := by
  simp only [stringToList, listToString, hd, if_false]
  cases tags with
  | nil => rfl
  | cons a r =>
    rw [Str.split_join divider hd (a :: r) (by simp) hfree]
    rw [stringToListLoop_clean _ _ (by simpa using hn) hclean]
    simp

/-- The same for one-character dividers such as `;`. -/
theorem C03_roundtrip_char (tags : List Str) (c : Char) (hn : tags.Nodup)
    (hclean : ∀ t ∈ tags, t ≠ [] ∧ Str.strip t = t) (hfree : ∀ t ∈ tags, c ∉ t) :
    stringToList (some (listToString (some tags) [c])) [c] = tags :=
  C03_roundtrip tags [c] (by simp) hn hclean
    (fun t ht => (Str.freeOf_singleton c t).2 (hfree t ht))

/-- Any text, once converted to a list, is stable under further conversions, for every divider
without a border (all the dividers PyWriter uses). -/
theorem C03_normal_form (text : Option Str) (divider : Str) (hb : BorderFree divider) :
    stringToList (some (listToString (some (stringToList text divider)) divider)) divider
      = stringToList text divider := by
  by_cases hd : divider = []
  · cases text <;> simp [stringToList, hd]
  · refine C03_roundtrip _ divider hd (C02_clean text divider).1 ?_ ?_
    · intro t ht
      have h := (C02_clean text divider).2 t ht
      exact ⟨h.1, (Str.stripBy_eq_self_iff _ _).2 h.2⟩
    · intro t ht
      cases text with
      | none => simp [stringToList] at ht
      | some s =>
        have hm := ((C02_string_to_list s divider _ hd (split_segments divider hd s)).mem t).1 ht
        simp only [List.mem_filter, List.mem_map] at hm
        obtain ⟨⟨y, hy, rfl⟩, _⟩ := hm
        exact freeOf_of_borderFree hd hb
          (fun hi => Str.not_infix_of_mem_split divider hd s y hy (infix_of_strip hi))

/-- The dividers used by PyWriter (`;` for tags, `, ` in exports) have no border. -/
theorem C03_dividers : BorderFree c!";" ∧ BorderFree c!", " := by
  constructor
  · intro k h1 h2; simp at h2; omega
  · intro k h1 h2
    have : k = 1 := by simp at h2; omega
    subst this; decide

example : ([c!"one", c!"two three"] : List Str).Nodup ∧
    (∀ t ∈ [c!"one", c!"two three"], t ≠ [] ∧ Str.strip t = t) ∧
    (∀ t ∈ [c!"one", c!"two three"], ';' ∉ t) := by decide

/-- The condition cannot be dropped: a tag containing the divider is torn apart. -/
example : stringToList (some (listToString (some [c!"a;b"]) c!";")) c!";" ≠ [c!"a;b"] := by decide

end Verif
