import Verif.Lemmas.Links
import Verif.Props.C27_C42_Paths
import Verif.Spec.Roundtrip

namespace Verif
open Spec

/-! ### The name of a project -/

/-- No end of the text, except the text itself, is its beginning. -/
def Borderless (e : Str) : Prop := ∀ x y, e = x ++ y → x ≠ [] → y ≠ [] → ¬ y <+: e

theorem borderless_of {e : Str} (h : ∀ k < e.length, k ≠ 0 → (e.drop k).isPrefixOf e = false) : Borderless e := by
  intro x y he hx hy hp
  have hk : x.length < e.length := by
    rw [he, List.length_append]
    have := List.length_pos_iff.2 hy
    omega
  have := h x.length hk (by intro e0; exact hx (List.length_eq_zero_iff.1 e0))
  rw [he, List.drop_left, ← he] at this
  rw [List.isPrefixOf_iff_prefix.2 hp] at this
  cases this

theorem replace_ending {e : Str} (he : Borderless e) (hne : e ≠ []) (b : Str) (h : ¬ e <:+: b) : Str.replace (b ++ e) e [] = b := by
  show Str.replaceGo e [] 0 (b ++ e) = b
  induction b with
  | nil =>
    have := Str.replaceGo_match (new := []) hne []
    rw [List.append_nil] at this
    rw [List.nil_append, this]
    cases e <;> rfl
  | cons c b ih =>
    have hp : e.isPrefixOf (c :: (b ++ e)) = false := by
      cases hpe : e.isPrefixOf (c :: (b ++ e)) with
      | false => rfl
      | true =>
        exfalso
        have hpre : e <+: (c :: b) ++ e := List.isPrefixOf_iff_prefix.1 hpe
        by_cases hl : e.length ≤ (c :: b).length
        · exact h (List.prefix_of_prefix_length_le hpre (List.prefix_append _ _) hl).isInfix
        · have h2 : c :: b <+: e := List.prefix_of_prefix_length_le (List.prefix_append _ _) hpre (by omega)
          obtain ⟨y, hy⟩ := h2
          have hy0 : y ≠ [] := by
            rintro rfl
            rw [← hy] at hl
            simp at hl
          refine he (c :: b) y hy.symm (by simp) hy0 ?_
          obtain ⟨z, hz⟩ := hpre
          refine ⟨z, ?_⟩
          have : (c :: b) ++ (y ++ z) = (c :: b) ++ e := by rw [← List.append_assoc, hy, hz]
          exact List.append_cancel_left this
    rw [List.cons_append]
    simp only [Str.replaceGo, hp, Bool.false_eq_true, if_false]
    rw [ih (fun hi => h (hi.trans (List.suffix_cons c b).isInfix))]

/-- The file classes of the converter, the project among them. -/
theorem endings_shape : ∀ c ∈ yw7Class :: exportTargets, c.ending ≠ [] ∧ '/' ∉ c.ending ∧ '\\' ∉ c.ending ∧
    ∀ k < c.ending.length, k ≠ 0 → (c.ending.drop k).isPrefixOf c.ending = false := by decide +kernel

theorem fileName_append {a e : Str} (h : '/' ∉ e) : fileName (a ++ e) = fileName a ++ e := by
  unfold fileName
  rw [List.reverse_append, List.takeWhile_append_of_pos (by intro x hx; have : x ≠ '/' := by rintro rfl; exact h (List.mem_reverse.1 hx)
                                                            simpa using this), List.reverse_append, List.reverse_reverse]

theorem folder_append {a e : Str} (h : '/' ∉ e) : folder (a ++ e) = folder a := by
  unfold folder
  rw [List.reverse_append, List.dropWhile_append_of_pos (by intro x hx; have : x ≠ '/' := by rintro rfl; exact h (List.mem_reverse.1 hx)
                                                            simpa using this)]

theorem folder_fileName (a : Str) : folder a ++ fileName a = a := by
  unfold folder fileName
  rw [← List.reverse_append, List.takeWhile_append_dropWhile, List.reverse_reverse]

theorem fileName_slash (a : Str) : '/' ∉ fileName a := by
  unfold fileName
  intro h
  rw [List.mem_reverse] at h
  have := List.all_takeWhile (p := fun c => decide (c ≠ '/')) (l := a.reverse)
  rw [List.all_eq_true] at this
  have := this _ h
  simp at this

theorem pathSplit_tail (p : Str) : (pathSplit p).2 = fileName p := rfl

theorem projectNames_of {real : Str → Option Str} {c : DocClass} (hc : c ∈ yw7Class :: exportTargets) {base : Str} (hb : '\\' ∉ base)
    (hr : fileName ((real (base ++ c.ending)).getD (base ++ c.ending)) = fileName (base ++ c.ending)) (hn : ¬ c.ending <:+: fileName base) :
    ∃ path, projectNames real c (base ++ c.ending) = some (path, quote (fileName base) c!"/") := by
  obtain ⟨h1, h2, h3, h4⟩ := endings_shape c hc
  unfold projectNames
  have hs : Path.slashes (base ++ c.ending) = base ++ c.ending := slashes_id (by rw [List.mem_append]; rintro (h | h); exact hb h; exact h3 h)
  simp only [hs]
  rw [if_pos]
  · rw [pathSplit_tail, hr, fileName_append h2, replace_ending (borderless_of h4) h1 _ hn]
    exact ⟨_, rfl⟩
  · rw [endsWith_iff]
    unfold Str.lower
    rw [List.map_append]
    exact List.suffix_append _ _

theorem utf8_slash {s : Str} {b : UInt8} (hb : b ∈ utf8 s) (h : Char.ofNat b.toNat = '/') : '/' ∈ s := by
  unfold utf8 at hb
  obtain ⟨c, hc, hb⟩ := List.mem_flatMap.1 hb
  have hn : b.toNat = 47 := by
    have := ofNat_byte b
    rw [h] at this
    exact this.symm
  by_cases hl : c.toNat < 128
  · rw [utf8_ascii_char hl, List.mem_singleton] at hb
    rw [hb] at hn
    have : c.toNat = 47 := by
      have e : (UInt8.ofNat c.toNat).toNat = c.toNat % 256 := rfl
      rw [e] at hn
      omega
    have : c = '/' := Char.toNat_inj.1 this
    rwa [← this]
  · have := utf8_high_char hl b hb
    omega

theorem quote_slash {s : Str} (h : '/' ∉ s) : ∀ c ∈ quote s c!"/", c ∈ quoteChars := by
  intro c hc
  unfold quote at hc
  obtain ⟨b, hb, hc⟩ := List.mem_flatMap.1 hc
  have hb' : b.toNat < 256 := b.toNat_lt
  unfold quoteByte at hc
  split at hc
  · rename_i hs
    cases List.mem_singleton.1 hc
    rcases hs with hs | hs
    · exact safe_mem _ hs
    · exact absurd (utf8_slash hb (List.mem_singleton.1 hs)) h
  · simp only [List.mem_cons, List.not_mem_nil, or_false] at hc
    rcases hc with rfl | rfl | rfl
    · decide
    · exact hex_mem _ (by omega)
    · exact hex_mem _ (by omega)

theorem endings_chars : ∀ c ∈ yw7Class :: exportTargets, ∀ x ∈ c.ending, x ∈ quoteChars ∧ x ≠ '%' := by decide +kernel

theorem quoteChars_plain : ∀ c ∈ quoteChars, c ∉ c!"/?#" ∧ c.toNat < 128 := by decide +kernel

theorem takeWhile_stop {a b : Str} (h : '#' ∉ a) : (a ++ '#' :: b).takeWhile (· ≠ '#') = a ∧ (a ++ '#' :: b).dropWhile (· ≠ '#') = '#' :: b := by
  induction a with
  | nil => simp
  | cons x a ih =>
    have hx : x ≠ '#' := by rintro rfl; exact h (by simp)
    obtain ⟨h1, h2⟩ := ih (fun hm => h (by simp [hm]))
    constructor
    · rw [List.cons_append, List.takeWhile_cons_of_pos (by simpa using hx), h1]
    · rw [List.cons_append, List.dropWhile_cons_of_pos (by simpa using hx), h2]

theorem digit_ascii {c : Char} (h : Digit c) : c ≠ '%' ∧ c.toNat < 128 := by
  have h2 : c.toNat ≤ 57 := h.2
  have h1 : 48 ≤ c.toNat := h.1
  refine ⟨?_, by omega⟩
  rintro rfl
  exact absurd h1 (by decide)

theorem link_place {c d : DocClass} (hc : c ∈ yw7Class :: exportTargets) (hd : d ∈ yw7Class :: exportTargets) (base : Str)
    {mark : Str} (hm : mark ∈ [c!"ScID:", c!"ChID:", c!"CrID:", c!"LcID:", c!"ItID:"]) {id : Str} (hid : NumId id) :
    linkedPlace (base ++ c.ending) (c!"../" ++ quote (fileName base) c!"/" ++ d.ending ++ c!"#" ++ mark ++ id ++ c!"%7Cregion") =
      some (base ++ d.ending, mark ++ id ++ c!"|region") := by
  have hmark : ∀ mark ∈ [c!"ScID:", c!"ChID:", c!"CrID:", c!"LcID:", c!"ItID:"], ∀ x ∈ mark, x ≠ '%' ∧ x.toNat < 128 := by decide
  have hsafe : SafeSet c!"/" := by unfold SafeSet; decide
  have hq := quote_slash (fileName_slash base)
  have he := endings_chars d hd
  have hrel : ∀ x ∈ quote (fileName base) c!"/" ++ d.ending, x ∉ c!"/?#" := by
    intro x hx
    rcases List.mem_append.1 hx with h | h
    · exact (quoteChars_plain x (hq x h)).1
    · exact (quoteChars_plain x (he x h).1).1
  have e0 : c!"../" ++ quote (fileName base) c!"/" ++ d.ending ++ c!"#" ++ mark ++ id ++ c!"%7Cregion" =
      c!"../" ++ ((quote (fileName base) c!"/" ++ d.ending) ++ '#' :: (mark ++ id ++ c!"%7Cregion")) := by simp
  rw [e0]
  unfold linkedPlace
  rw [if_pos (by rfl)]
  have e1 : List.drop 3 (c!"../" ++ ((quote (fileName base) c!"/" ++ d.ending) ++ '#' :: (mark ++ id ++ c!"%7Cregion"))) =
      (quote (fileName base) c!"/" ++ d.ending) ++ '#' :: (mark ++ id ++ c!"%7Cregion") := rfl
  obtain ⟨t1, t2⟩ := takeWhile_stop (a := quote (fileName base) c!"/" ++ d.ending) (b := mark ++ id ++ c!"%7Cregion") (fun h => hrel _ h (by decide))
  simp only [e1, t1, t2]
  rw [if_neg]
  · have u1 : uriText (quote (fileName base) c!"/" ++ d.ending) = some (fileName base ++ d.ending) := by
      refine uriText_quote hsafe _ _ _ ?_
      have := percentDecode_plain (r := d.ending) (fun x hx => ⟨(he x hx).2, (quoteChars_plain x (he x hx).1).2⟩) []
      rw [List.append_nil] at this
      rw [this]
      simp [percentDecode]
    have u2 : uriText (List.drop 1 ('#' :: (mark ++ id ++ c!"%7Cregion"))) = some (mark ++ id ++ c!"|region") := by
      show uriText (mark ++ id ++ c!"%7Cregion") = _
      unfold uriText
      have hp : SafeSet (mark ++ id) := by
        intro x hx
        rcases List.mem_append.1 hx with h | h
        · exact hmark mark hm x h
        · exact digit_ascii (hid.2 x h)
      rw [percentDecode_plain hp]
      have : percentDecode c!"%7Cregion" = some (utf8 c!"|region") := by decide +kernel
      rw [this]
      show Enc.utf8.decode (utf8 (mark ++ id) ++ utf8 c!"|region") = _
      rw [show utf8 (mark ++ id) ++ utf8 c!"|region" = utf8 (mark ++ id ++ c!"|region") from by unfold utf8; rw [List.flatMap_append (xs := mark ++ id)]]
      exact utf8_decode _
    rw [u1, u2]
    show (if (fileName base ++ d.ending).any (fun x => decide (x = '/')) then none else some (folder (base ++ c.ending) ++ (fileName base ++ d.ending), mark ++ id ++ c!"|region")) = _
    rw [if_neg, folder_append (endings_shape c hc).2.1, ← List.append_assoc, folder_fileName]
    rw [List.any_eq_true]
    rintro ⟨x, hx, hx2⟩
    have : x = '/' := by simpa using hx2
    subst this
    rcases List.mem_append.1 hx with h | h
    · exact fileName_slash base h
    · exact (endings_shape d hd).2.1 h
  · rw [List.any_eq_true]
    rintro ⟨x, hx, hx2⟩
    have hx2 : x = '/' ∨ x = '?' := by simpa using hx2
    refine hrel x hx ?_
    rcases hx2 with rfl | rfl <;> decide

end Verif
