/-
A written INI file is parsed into what was written; settings are read back.
-/
import Verif.Lemmas.Ini
import Verif.Lemmas.Text3
import Verif.Lemmas.Path

namespace Verif
open Verif.Str Verif.Spec Verif.Ini

/-- What the final blank line of a section does to the last option. -/
def blankEnd (d : Dict (List Str)) (o : Str) : Dict (List Str) := if o = [] then d else d.modify o (fun l => l ++ [[]])

theorem line_blank {pre : Dict (Dict (List Str))} {s : Str} (hs : s ∉ pre.keys) (d : Dict (List Str)) (o : Str) :
    (inSection pre s d o).line [] = .ok (inSection pre s (blankEnd d o) o) := by
  show (if o = [] then Except.ok _ else _) = _
  by_cases h : o = []
  · rw [if_pos h]
    simp [blankEnd, h]
  · rw [if_neg h]
    simp only [Ini.State.append, inSection, blankEnd, if_neg h]
    rw [Dict.modify_snoc _ _ _ _ hs]

theorem joined_modify (d : Dict (List Str)) (o : Str) (h : ∀ p ∈ d, p.2 ≠ []) : joined (d.modify o (fun l => l ++ [[]])) = joined d := by
  induction d with
  | nil => rfl
  | cons p r ih =>
    obtain ⟨k, v⟩ := p
    have hv := h (k, v) (by simp)
    have ih := ih (fun p hp => h p (by simp [hp]))
    simp only [Dict.modify]
    by_cases hk : k = o
    · rw [if_pos hk]
      simp only [joined, List.map_cons]
      congr 2
      have : ∀ l : List Str, l ≠ [] → join c!"\n" (l ++ [[]]) = join c!"\n" l ++ c!"\n" := by
        intro l
        induction l with
        | nil => intro h; exact absurd rfl h
        | cons a r ih =>
          intro _
          cases r with
          | nil => simp [join]
          | cons b r =>
            have := ih (by simp)
            simp only [List.cons_append, join] at this ⊢
            rw [this]
            simp
      rw [this v hv, rstrip_append_ws _ _ (by decide)]
    · rw [if_neg hk]
      simp only [joined, List.map_cons] at ih ⊢
      rw [ih]

theorem joined_rawLines {items : Dict Str} (h : ∀ p ∈ items, GoodValue p.2) : joined (rawLines items) = items := by
  induction items with
  | nil => rfl
  | cons p r ih =>
    have ih := ih (fun q hq => h q (by simp [hq]))
    simp only [joined, rawLines, List.map_cons] at ih ⊢
    rw [ih, join_split _ (by simp), (h p (by simp)).noTrailing]

theorem joined_section {items : Dict Str} (h : GoodItems items) (o : Str) : joined (blankEnd (rawLines items) o) = items := by
  unfold blankEnd
  by_cases ho : o = []
  · rw [if_pos ho, joined_rawLines h.values]
  · rw [if_neg ho, joined_modify, joined_rawLines h.values]
    intro p hp
    simp only [rawLines, List.mem_map] at hp
    obtain ⟨q, _, rfl⟩ := hp
    exact split_ne_nil _ _

/-- The lines of a section. -/
def sectionLines (name : Str) (items : Dict Str) : List Str := (c!"[" ++ name ++ c!"]") :: items.flatMap itemLines ++ [[]]

/-- A section header that the writer writes. -/
structure HeaderOk (name : Str) : Prop where
  strip : Str.strip (c!"[" ++ name ++ c!"]") = c!"[" ++ name ++ c!"]"
  header : Ini.header (c!"[" ++ name ++ c!"]") = some name
  noComment : isComment (c!"[" ++ name ++ c!"]") = false
  notDefault : name ≠ c!"DEFAULT"
  chars : ∀ c ∈ name, c ≠ '\n' ∧ c ≠ '\r'

theorem settings_ok : HeaderOk c!"SETTINGS" := ⟨by decide, by decide, by decide, by decide, by decide⟩
theorem options_ok : HeaderOk c!"OPTIONS" := ⟨by decide, by decide, by decide, by decide, by decide⟩

theorem section_lines {name : Str} (hn : HeaderOk name) {items : Dict Str} (h : GoodItems items) (st : Ini.State)
    (hb : st.bad = false) (hi : st.indent = 0) (hnew : name ∉ st.sects.keys) :
    ∃ o, st.lines (sectionLines name items) = .ok (inSection st.sects name (blankEnd (rawLines items) o) o) := by
  have hline : st.line (c!"[" ++ name ++ c!"]") = .ok (inSection st.sects name [] []) := by
    have hsec : st.section_ 0 name = .ok (inSection st.sects name [] []) := by
      unfold Ini.State.section_
      rw [if_neg hn.notDefault]
      have : st.sects.has name = false := by
        cases hh : st.sects.has name with
        | false => rfl
        | true => exact absurd ((Dict.has_iff _ _).1 hh) hnew
      rw [this, Dict.set_snoc _ _ _ hnew]
      simp [inSection, hb]
    have hlvl : ((c!"[" ++ name ++ c!"]").takeWhile isWs).length = 0 := by
      show ((('[' : Char) :: (name ++ c!"]")).takeWhile isWs).length = 0
      rw [List.takeWhile_cons_of_neg (by decide)]
      rfl
    unfold Ini.State.line
    rw [if_neg (by rw [hn.noComment]; decide)]
    simp only [hn.strip, hlvl, hn.header]
    rw [if_neg (by simp)]
    cases st.cur with
    | none => exact hsec
    | some s =>
      simp only
      rw [if_neg (by rw [hi]; simp)]
      exact hsec
  unfold sectionLines
  rw [List.cons_append]
  simp only [Ini.State.lines]
  rw [hline]
  simp only
  rw [State.lines_append]
  rw [items_lines hnew items [] [] h.keys h.values h.lower (by simpa [Dict.keys] using h.nodup)]
  simp only [Except.bind, List.nil_append, Ini.State.lines]
  rw [line_blank hnew]
  exact ⟨_, rfl⟩

theorem goodLine_of_items {items : Dict Str} (h : GoodItems items) {l : Str} (hl : l ∈ items.flatMap itemLines) : ∀ c ∈ l, c ≠ '\n' ∧ c ≠ '\r' := by
  rw [List.mem_flatMap] at hl
  obtain ⟨p, hp, hl⟩ := hl
  intro c hc
  unfold itemLines at hl
  cases hs : split p.2 ['\n'] with
  | nil => exact absurd hs (split_ne_nil _ _)
  | cons a r =>
    rw [hs] at hl
    have hv : ∀ x ∈ split p.2 ['\n'], ∀ c ∈ x, c ≠ '\n' ∧ c ≠ '\r' := by
      intro x hx c hc
      have := mem_of_mem_split hx hc
      exact ⟨this.2, ((h.values p hp).chars c this.1).1⟩
    rw [hs] at hv
    simp only [List.mem_cons, List.mem_map] at hl
    rcases hl with rfl | ⟨x, hx, rfl⟩
    · rw [List.mem_append, List.mem_append] at hc
      rcases hc with (hc | hc) | hc
      · have := (h.keys p hp).chars c hc
        exact ⟨this.2.2.1, this.2.2.2⟩
      · simp at hc
        rcases hc with rfl | rfl | rfl <;> decide
      · exact hv a (by simp) c hc
    · rcases List.mem_cons.1 hc with rfl | hc
      · decide
      · exact hv x (by simp [hx]) c hc

theorem sectionLines_chars {name : Str} (hn : HeaderOk name) {items : Dict Str} (h : GoodItems items) :
    ∀ l ∈ sectionLines name items, ∀ c ∈ l, c ≠ '\n' ∧ c ≠ '\r' := by
  intro l hl c hc
  unfold sectionLines at hl
  rw [List.cons_append, List.mem_cons, List.mem_append] at hl
  rcases hl with hl | hl | hl
  · have hl' : l = c!"[" ++ name ++ c!"]" := hl
    rw [hl', List.mem_append, List.mem_append] at hc
    rcases hc with (hc | hc) | hc
    · simp at hc; subst hc; decide
    · exact hn.chars c hc
    · simp at hc; subst hc; decide
  · exact goodLine_of_items h hl c hc
  · simp at hl; subst hl; cases hc

/-- The sections of a written file. -/
def iniOf (s o : Dict Str) : Dict (Dict Str) :=
  (if s = [] then [] else [(c!"SETTINGS", s)]) ++ (if o = [] then [] else [(c!"OPTIONS", o)])

theorem parse_written {s o : Dict Str} (hs : GoodItems s) (ho : GoodItems o) :
    parse ((if s = [] then [] else writeSection c!"SETTINGS" s) ++ (if o = [] then [] else writeSection c!"OPTIONS" o)) = .ok (iniOf s o) := by
  have key : ∀ ls, (∀ l ∈ ls, ∀ c ∈ l, c ≠ '\n' ∧ c ≠ '\r') → ∀ st : Ini.State, ({} : Ini.State).lines ls = .ok st → st.bad = false →
      parse (unlines ls) = .ok (st.sects.map fun p => (p.1, joined p.2)) := by
    intro ls hls st hst hb
    unfold parse
    rw [fileLines_unlines ls hls, hst]
    simp [hb]
  rw [writeSection_unlines, writeSection_unlines]
  by_cases h1 : s = []
  · by_cases h2 : o = []
    · simp only [h1, h2, if_true, iniOf]; rfl
    · simp only [if_pos h1, if_neg h2, List.nil_append, iniOf]
      obtain ⟨x, hx⟩ := section_lines options_ok ho {} rfl rfl (by simp [Dict.keys])
      refine (key _ (sectionLines_chars options_ok ho) _ hx rfl).trans ?_
      simp only [inSection, List.nil_append, List.map_cons, List.map_nil]
      rw [joined_section ho]
  · obtain ⟨x, hx⟩ := section_lines settings_ok hs {} rfl rfl (by simp [Dict.keys])
    by_cases h2 : o = []
    · simp only [if_neg h1, if_pos h2, List.append_nil, iniOf]
      refine (key _ (sectionLines_chars settings_ok hs) _ hx rfl).trans ?_
      simp only [inSection, List.nil_append, List.map_cons, List.map_nil]
      rw [joined_section hs]
    · simp only [if_neg h1, if_neg h2, iniOf]
      rw [← unlines_append]
      obtain ⟨y, hy⟩ := section_lines options_ok ho (inSection [] c!"SETTINGS" (blankEnd (rawLines s) x) x) rfl rfl (by simp [inSection, Dict.keys])
      have hxy : ({} : Ini.State).lines (sectionLines c!"SETTINGS" s ++ sectionLines c!"OPTIONS" o) = .ok (inSection (inSection [] c!"SETTINGS" (blankEnd (rawLines s) x) x).sects c!"OPTIONS" (blankEnd (rawLines o) y) y) := by
        rw [State.lines_append, hx]
        exact hy
      refine (key _ (by
        intro l hl
        rcases List.mem_append.1 hl with hl | hl
        · exact sectionLines_chars settings_ok hs l hl
        · exact sectionLines_chars options_ok ho l hl) _ hxy rfl).trans ?_
      simp only [inSection, List.nil_append, List.cons_append, List.map_cons, List.map_nil]
      rw [joined_section ho, joined_section hs]

/-! ### `set` and `get` -/

theorem lowerChar_idem (c : Char) : lowerChar (lowerChar c) = lowerChar c := by
  unfold lowerChar
  split
  · rename_i h
    rw [if_neg]
    intro h2
    have : (Char.ofNat (c.toNat + 32)).toNat = c.toNat + 32 := by
      have a : c.toNat ≤ 90 := h.2
      exact toNat_ofNat_small (by omega)
    have h4 : (Char.ofNat (c.toNat + 32)).toNat ≤ 90 := h2.2
    have h5 : 65 ≤ c.toNat := h.1
    omega
  · rfl

theorem lower_idem (s : Str) : lower (lower s) = lower s := by
  simp [lower, lowerChar_idem, Function.comp_def]

/-- Lower case does not produce the characters that matter to the INI syntax. -/
theorem lowerChar_inv {c d : Char} (h : lowerChar c = d) (hd : ¬ ('a' ≤ d ∧ d ≤ 'z')) : c = d := by
  unfold lowerChar at h
  split at h
  · rename_i hc
    exfalso
    apply hd
    subst h
    have h1 : 65 ≤ c.toNat := hc.1
    have h2 : c.toNat ≤ 90 := hc.2
    have : (Char.ofNat (c.toNat + 32)).toNat = c.toNat + 32 := by
      exact toNat_ofNat_small (by omega)
    constructor
    · show 97 ≤ (Char.ofNat (c.toNat + 32)).toNat; omega
    · show (Char.ofNat (c.toNat + 32)).toNat ≤ 122; omega
  · exact h

theorem isWs_lowerChar (c : Char) : isWs (lowerChar c) = isWs c := by
  unfold lowerChar
  split
  · rename_i hc
    have h1 : 65 ≤ c.toNat := hc.1
    have h2 : c.toNat ≤ 90 := hc.2
    have h3 : (Char.ofNat (c.toNat + 32)).toNat = c.toNat + 32 := by
      exact toNat_ofNat_small (by omega)
    have e1 : isWs c = false := by
      unfold isWs
      simp only [Bool.or_eq_false_iff, Bool.and_eq_false_iff, decide_eq_false_iff_not, beq_eq_false_iff_ne]
      omega
    have e2 : isWs (Char.ofNat (c.toNat + 32)) = false := by
      unfold isWs
      rw [h3]
      simp only [Bool.or_eq_false_iff, Bool.and_eq_false_iff, decide_eq_false_iff_not, beq_eq_false_iff_ne]
      omega
    rw [e1, e2]
  · rfl

theorem goodKey_lower {k : Str} (h : GoodKey k) : GoodKey (lower k) where
  nonempty := by
    intro he
    apply h.nonempty
    simpa [lower] using he
  stripped := by
    have := h.stripped
    unfold strip at this ⊢
    rw [stripBy_eq_self_iff] at this ⊢
    constructor
    · intro c hc
      simp only [lower, List.head?_map, Option.map_eq_some_iff] at hc
      obtain ⟨a, ha, rfl⟩ := hc
      rw [isWs_lowerChar]; exact this.1 a ha
    · intro c hc
      simp only [lower, List.getLast?_map, Option.map_eq_some_iff] at hc
      obtain ⟨a, ha, rfl⟩ := hc
      rw [isWs_lowerChar]; exact this.2 a ha
  chars := by
    intro c hc
    simp only [lower, List.mem_map] at hc
    obtain ⟨a, ha, rfl⟩ := hc
    have := h.chars a ha
    refine ⟨fun e => this.1 (lowerChar_inv e (by decide)), fun e => this.2.1 (lowerChar_inv e (by decide)),
      fun e => this.2.2.1 (lowerChar_inv e (by decide)), fun e => this.2.2.2 (lowerChar_inv e (by decide))⟩
  start := by
    intro c hc
    simp only [lower, List.head?_map, Option.map_eq_some_iff] at hc
    obtain ⟨a, ha, rfl⟩ := hc
    have := h.start a ha
    exact ⟨fun e => this.1 (lowerChar_inv e (by decide)), fun e => this.2.1 (lowerChar_inv e (by decide)),
      fun e => this.2.2 (lowerChar_inv e (by decide))⟩

/-- The items of a section as written. -/
def lowered (d : Dict Str) : Dict Str := d.map fun p => (lower p.1, p.2)

theorem sub_mem {m : Re.Matcher} {s : Str} : ∀ {b : Bool} {n : Nat} {c : Char}, c ∈ Re.subGo m [] b n s → c ∈ s := by
  induction s with
  | nil => intro b n c h; cases n <;> (simp [Re.subGo] at h)
  | cons d r ih =>
    intro b n c h
    cases n with
    | succ n => simp only [Re.subGo] at h; exact List.mem_cons_of_mem _ (ih h)
    | zero =>
      simp only [Re.subGo] at h
      split at h
      · simp only [List.nil_append] at h
        exact List.mem_cons_of_mem _ (ih h)
      · rcases List.mem_cons.1 h with rfl | h
        · simp
        · exact List.mem_cons_of_mem _ (ih h)

theorem acceptable_of_good {v : Str} (h : GoodValue v) : acceptable v = true := by
  unfold acceptable
  simp only [Bool.not_eq_true', decide_eq_false_iff_not]
  intro hm
  have h2 := sub_mem hm
  have h1 : contains v c!"%%" = false := by
    cases hc : contains v c!"%%" with
    | false => rfl
    | true =>
      have : '%' ∈ v := by
        have := (contains_iff v c!"%%").1 hc
        obtain ⟨a, b, rfl⟩ := this
        simp
      exact absurd rfl (h.chars _ this).2
  rw [replace_of_not_contains h1] at h2
  exact (h.chars _ h2).2 rfl

theorem setAll_spec (d : Dict Str) : ∀ acc : Dict Str, (∀ p ∈ d, acceptable p.2 = true) → (acc.keys ++ d.keys.map lower).Nodup →
    Configuration.setAll acc d = .ok (acc ++ lowered d) := by
  induction d with
  | nil => intro acc _ _; simp [Configuration.setAll, lowered]
  | cons p r ih =>
    intro acc h1 h2
    obtain ⟨k, v⟩ := p
    simp only [Configuration.setAll]
    rw [if_pos (h1 (k, v) (by simp))]
    have hk : lower k ∉ acc.keys := by
      intro hm
      rw [List.nodup_append] at h2
      exact h2.2.2 _ hm (lower k) (by simp [Dict.keys]) rfl
    rw [Dict.set_snoc _ _ _ hk, ih _ (fun p hp => h1 p (by simp [hp]))]
    · simp [lowered]
    · simpa [Dict.keys] using h2

theorem goodItems_lowered {d : Dict Str} (h1 : ∀ p ∈ d, GoodKey p.1) (h2 : ∀ p ∈ d, GoodValue p.2) (h3 : DistinctKeys d) : GoodItems (lowered d) where
  keys p hp := by
    simp only [lowered, List.mem_map] at hp
    obtain ⟨q, hq, rfl⟩ := hp
    exact goodKey_lower (h1 q hq)
  values p hp := by
    simp only [lowered, List.mem_map] at hp
    obtain ⟨q, hq, rfl⟩ := hp
    exact h2 q hq
  lower p hp := by
    simp only [lowered, List.mem_map] at hp
    obtain ⟨q, hq, rfl⟩ := hp
    exact lower_idem _
  nodup := by
    have : (lowered d).keys = d.keys.map Str.lower := by simp [lowered, Dict.keys, Function.comp_def]
    rw [this]; exact h3

theorem get?_lowered {d : Dict Str} (k : Str) : (lowered d).get? (lower k) = valueOf d k := by
  induction d with
  | nil => rfl
  | cons p r ih =>
    simp only [lowered, List.map_cons, Dict.get?, valueOf, List.find?_cons] at ih ⊢
    by_cases h : lower p.1 = lower k
    · simp [h]
    · simp only [h, if_false, decide_false]
      exact ih

theorem interpolate_plain {m : Str → Option Str} {v : Str} (h : '%' ∉ v) (n : Nat) : interpolate m (n + 1) v = .ok v := by
  unfold interpolate
  generalize interpolate m n = rec
  induction v with
  | nil => rfl
  | cons c r ih =>
    simp only [List.mem_cons, not_or] at h
    unfold interpolateGo
    rw [if_pos (Ne.symm h.1), ih h.2]
    rfl

theorem readLoop_spec {α : Type} (f : Str → α → Except Exc α) (g : Str → α → α) (d : Dict α) (h : ∀ p ∈ d, f p.1 p.2 = .ok (g p.1 p.2)) :
    Configuration.readLoop f d = (d.map (fun p => (p.1, g p.1 p.2)), none) := by
  induction d with
  | nil => rfl
  | cons p r ih =>
    obtain ⟨k, v⟩ := p
    have h1 := h (k, v) (by simp)
    simp only [Configuration.readLoop]
    simp only at h1
    rw [h1, ih (fun p hp => h p (by simp [hp]))]
    rfl

end Verif
