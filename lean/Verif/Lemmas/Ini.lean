/-
Lemmas about the INI parser and writer.
-/
import Verif.Spec.Config
import Verif.Lemmas.Str
import Verif.Lemmas.Escape
import Verif.Lemmas.Text

namespace Verif
open Verif.Str Verif.Spec Verif.Ini

/-! ### Lines -/

theorem universalNewlines_noCR {s : Str} (h : ∀ c ∈ s, c ≠ '\r') : universalNewlines s = s := by
  induction s with
  | nil => rfl
  | cons c r ih =>
    have hc := h c (by simp)
    unfold universalNewlines
    split
    · rename_i heq; cases heq
    · rename_i heq; cases heq; exact absurd rfl hc
    · rename_i heq; cases heq; exact absurd rfl hc
    · rename_i heq; cases heq
      rw [ih (fun c hc => h c (by simp [hc]))]

/-- Lines, each followed by a newline. -/
def unlines (ls : List Str) : Str := ls.flatMap (fun l => l ++ ['\n'])

theorem unlines_append (a b : List Str) : unlines (a ++ b) = unlines a ++ unlines b := by
  simp [unlines, List.flatMap_append]

theorem split_unlines (ls : List Str) (h : ∀ l ∈ ls, '\n' ∉ l) : split (unlines ls) ['\n'] = ls ++ [[]] := by
  induction ls with
  | nil => rfl
  | cons a r ih =>
    have : unlines (a :: r) = a ++ ['\n'] ++ unlines r := rfl
    rw [this, split_append_sep ['\n'] a _ (by simp) ((freeOf_singleton _ _).2 (h a (by simp))), ih (fun l hl => h l (by simp [hl]))]
    rfl

theorem fileLines_unlines (ls : List Str) (h : ∀ l ∈ ls, ∀ c ∈ l, c ≠ '\n' ∧ c ≠ '\r') : fileLines (unlines ls) = ls := by
  unfold fileLines
  have hu : universalNewlines (unlines ls) = unlines ls := by
    apply universalNewlines_noCR
    intro c hc
    unfold unlines at hc
    rw [List.mem_flatMap] at hc
    obtain ⟨l, hl, hc⟩ := hc
    rw [List.mem_append] at hc
    rcases hc with hc | hc
    · exact (h l hl c hc).2
    · simp at hc; subst hc; decide
  rw [hu, split_unlines ls (fun l hl hc => (h l hl _ hc).1 rfl)]
  simp

/-- The lines of one option. -/
def itemLines (p : Str × Str) : List Str :=
  match split p.2 ['\n'] with
  | l :: r => (p.1 ++ c!" = " ++ l) :: r.map ('\t' :: ·)
  | [] => []

theorem flatMap_join (f : Char → Str) (sep : Char) (ls : List Str) (h : ∀ l ∈ ls, l.flatMap f = l) :
    (join [sep] ls).flatMap f = join (f sep) ls := by
  induction ls with
  | nil => rfl
  | cons a r ih =>
    cases r with
    | nil => simpa [join] using h a (by simp)
    | cons b r =>
      have := ih (fun l hl => h l (by simp [hl]))
      simp only [join, List.flatMap_append, List.flatMap_cons, List.flatMap_nil, List.append_nil] at this ⊢
      rw [this, h a (by simp)]

theorem mem_split_nl {s l : Str} {c : Char} (h : l ∈ split s [c]) : c ∉ l := by
  have := not_infix_of_mem_split [c] (by simp) s l h
  intro hc
  obtain ⟨a, b, rfl⟩ := List.append_of_mem hc
  exact this ⟨a, b, by simp⟩

theorem replace_nl_tab (v : Str) : replace v ['\n'] ['\n', '\t'] = join ['\n', '\t'] (split v ['\n']) := by
  rw [replace_single]
  conv => lhs; rw [← join_split ['\n'] (by simp) v]
  rw [flatMap_join]
  · simp
  · intro l hl
    have := mem_split_nl hl
    clear hl
    induction l with
    | nil => rfl
    | cons c r ih =>
      simp only [List.mem_cons, not_or] at this
      rw [List.flatMap_cons, ih this.2, if_neg (Ne.symm this.1)]
      rfl

theorem unlines_tabs (r : List Str) (a : Str) : join ['\n', '\t'] (a :: r) ++ ['\n'] = unlines (a :: r.map ('\t' :: ·)) := by
  induction r generalizing a with
  | nil => simp [join, unlines]
  | cons b r ih =>
    have h1 : unlines (a :: (b :: r).map ('\t' :: ·)) = a ++ ['\n'] ++ ('\t' :: b ++ ['\n'] ++ unlines (r.map ('\t' :: ·))) := by
      simp [unlines]
    have h2 := ih b
    have h3 : unlines (b :: r.map ('\t' :: ·)) = b ++ ['\n'] ++ unlines (r.map ('\t' :: ·)) := by simp [unlines]
    rw [h1]
    rw [h3] at h2
    simp only [join, List.append_assoc] at h2 ⊢
    rw [h2]
    simp

theorem item_unlines (p : Str × Str) :
    p.1 ++ c!" = " ++ replace p.2 c!"\n" c!"\n\t" ++ c!"\n" = unlines (itemLines p) := by
  rw [replace_nl_tab]
  unfold itemLines
  cases h : split p.2 ['\n'] with
  | nil => exact absurd h (split_ne_nil _ _)
  | cons l r =>
    simp only
    have h1 := unlines_tabs r l
    have h3 : unlines (l :: r.map ('\t' :: ·)) = l ++ ['\n'] ++ unlines (r.map ('\t' :: ·)) := by simp [unlines]
    have h4 : unlines ((p.1 ++ c!" = " ++ l) :: r.map ('\t' :: ·)) = p.1 ++ c!" = " ++ l ++ ['\n'] ++ unlines (r.map ('\t' :: ·)) := by simp [unlines]
    rw [h4]
    rw [h3] at h1
    simp only [List.append_assoc] at h1 ⊢
    rw [h1]

theorem writeSection_unlines (name : Str) (items : Dict Str) :
    writeSection name items = unlines ((c!"[" ++ name ++ c!"]") :: items.flatMap itemLines ++ [[]]) := by
  unfold writeSection
  have h1 : ∀ (a : Str) b, unlines (a :: b) = a ++ ['\n'] ++ unlines b := fun a b => by simp [unlines]
  have h0 : unlines ((c!"[" ++ name ++ c!"]") :: items.flatMap itemLines ++ [[]]) = c!"[" ++ name ++ c!"]" ++ ['\n'] ++ unlines (items.flatMap itemLines ++ [[]]) := h1 _ _
  rw [h0, unlines_append]
  clear h0 h1
  have h2 : items.flatMap (fun p => p.1 ++ c!" = " ++ replace p.2 c!"\n" c!"\n\t" ++ c!"\n") = unlines (items.flatMap itemLines) := by
    induction items with
    | nil => rfl
    | cons p r ih =>
      rw [List.flatMap_cons, List.flatMap_cons, unlines_append, ih, item_unlines]
  rw [h2]
  simp [unlines]

/-! ### Reading the lines back -/

theorem Dict.modify_snoc {α : Type} (pre : Dict α) (s : Str) (d : α) (f : α → α) (h : s ∉ pre.keys) :
    Dict.modify (pre ++ [(s, d)]) s f = pre ++ [(s, f d)] := by
  induction pre with
  | nil => simp [Dict.modify]
  | cons p r ih =>
    obtain ⟨k, v⟩ := p
    simp only [Dict.keys, List.map_cons, List.mem_cons, not_or] at h
    simp only [List.cons_append, Dict.modify, if_neg (Ne.symm h.1)]
    rw [ih h.2]

theorem Dict.get?_snoc {α : Type} (pre : Dict α) (s : Str) (d : α) (h : s ∉ pre.keys) :
    Dict.get? (pre ++ [(s, d)]) s = some d := by
  induction pre with
  | nil => simp [Dict.get?]
  | cons p r ih =>
    obtain ⟨k, v⟩ := p
    simp only [Dict.keys, List.map_cons, List.mem_cons, not_or] at h
    simp only [List.cons_append, Dict.get?, if_neg (Ne.symm h.1)]
    exact ih h.2

theorem Dict.set_snoc {α : Type} (d : Dict α) (s : Str) (a : α) (h : s ∉ d.keys) : Dict.set d s a = d ++ [(s, a)] := by
  induction d with
  | nil => rfl
  | cons p r ih =>
    obtain ⟨k, v⟩ := p
    simp only [Dict.keys, List.map_cons, List.mem_cons, not_or] at h
    simp only [Dict.set, if_neg (Ne.symm h.1), ih h.2, List.cons_append]

theorem State.lines_append (st : Ini.State) (a b : List Str) : st.lines (a ++ b) = (st.lines a).bind (fun st => st.lines b) := by
  induction a generalizing st with
  | nil => rfl
  | cons l r ih =>
    simp only [List.cons_append, Ini.State.lines]
    cases st.line l with
    | error e => rfl
    | ok st' => exact ih st'

theorem isWs_cases {c : Char} : isWs c = true ∨ isWs c = false := by cases isWs c <;> simp

theorem strip_ws_cons {c : Char} (h : isWs c = true) (l : Str) : strip (c :: l) = strip l := by
  unfold strip stripBy lstripBy
  rw [List.dropWhile_cons_of_pos h]

/-- The state inside a section. -/
def inSection (pre : Dict (Dict (List Str))) (s : Str) (d : Dict (List Str)) (opt : Str) : Ini.State :=
  { sects := pre ++ [(s, d)], cur := some s, opt := opt, indent := 0, bad := false }

/-- A continuation line. -/
theorem line_tab {pre : Dict (Dict (List Str))} {s : Str} (hs : s ∉ pre.keys) {d : Dict (List Str)} {o : Str} (ho : o ∉ d.keys) (hne : o ≠ [])
    (ls : List Str) {l : Str} (h1 : strip l = l) (h2 : ∀ c, l.head? = some c → c ≠ '#' ∧ c ≠ ';') :
    (inSection pre s (d ++ [(o, ls)]) o).line ('\t' :: l) = .ok (inSection pre s (d ++ [(o, ls ++ [l])]) o) := by
  have hst : strip ('\t' :: l) = l := by rw [strip_ws_cons (by decide), h1]
  have hcom : isComment ('\t' :: l) = false := by
    unfold isComment
    rw [hst]
    cases l with
    | nil => rfl
    | cons c r =>
      have := h2 c rfl
      simp only [startsWith, List.isPrefixOf, Bool.and_true, Bool.or_eq_false_iff, beq_eq_false_iff_ne]
      exact ⟨fun h => this.1 h.symm, fun h => this.2 h.symm⟩
  unfold Ini.State.line
  rw [if_neg (by simp [hcom])]
  simp only [hst]
  have happ : ∀ v, (inSection pre s (d ++ [(o, ls)]) o).append s v = inSection pre s (d ++ [(o, ls ++ [v])]) o := by
    intro v
    simp only [inSection, Ini.State.append]
    rw [Dict.modify_snoc _ _ _ _ hs, Dict.modify_snoc _ _ _ _ ho]
  by_cases hl : l = []
  · subst hl
    simp only [if_true]
    show (if o = [] then _ else _) = _
    rw [if_neg hne, happ]
  · simp only [hl, if_false]
    have hlvl : (List.takeWhile isWs ('\t' :: l)).length > 0 := by
      rw [List.takeWhile_cons_of_pos (by decide)]; simp
    have hcond : (inSection pre s (d ++ [(o, ls)]) o).opt ≠ [] ∧ (List.takeWhile isWs ('\t' :: l)).length > (inSection pre s (d ++ [(o, ls)]) o).indent := ⟨hne, hlvl⟩
    show (if _ then _ else _) = _
    rw [if_pos hcond, happ]

theorem lines_tabs {pre : Dict (Dict (List Str))} {s : Str} (hs : s ∉ pre.keys) {d : Dict (List Str)} {o : Str} (ho : o ∉ d.keys) (hne : o ≠ [])
    (r ls : List Str) (h : ∀ l ∈ r, strip l = l ∧ ∀ c, l.head? = some c → c ≠ '#' ∧ c ≠ ';') :
    (inSection pre s (d ++ [(o, ls)]) o).lines (r.map ('\t' :: ·)) = .ok (inSection pre s (d ++ [(o, ls ++ r)]) o) := by
  induction r generalizing ls with
  | nil => simp [Ini.State.lines]
  | cons l r ih =>
    simp only [List.map_cons, Ini.State.lines]
    rw [line_tab hs ho hne ls (h l (by simp)).1 (h l (by simp)).2]
    simp only
    rw [ih _ (fun l hl => h l (by simp [hl]))]
    simp

theorem rstrip_append_ws (a : Str) (b : Str) (h : ∀ c ∈ b, isWs c = true) : rstrip (a ++ b) = rstrip a := by
  induction b generalizing a with
  | nil => simp
  | cons c r ih =>
    have : a ++ c :: r = (a ++ [c]) ++ r := by simp
    rw [this, ih _ (fun c hc => h c (by simp [hc]))]
    unfold rstrip
    rw [rstripBy_append_single, if_pos (h c (by simp))]

theorem strip_of_head {s : Str} (h : ∀ c, s.head? = some c → isWs c = false) : strip s = rstrip s := by
  unfold strip stripBy lstripBy
  rw [dropWhile_eq_self _ _ h]
  rfl

/-- The first line of an option. -/
theorem optionLine_spec {k l : Str} (hk : GoodKey k) (hl : strip l = l) :
    optionLine (strip (k ++ c!" = " ++ l)) = some (k, l) ∧ header (strip (k ++ c!" = " ++ l)) = none ∧
    isComment (k ++ c!" = " ++ l) = false ∧ strip (k ++ c!" = " ++ l) ≠ [] ∧
    ((k ++ c!" = " ++ l).takeWhile isWs) = [] := by
  obtain ⟨hne, hst, hch, hstart⟩ := hk
  cases hkk : k with
  | nil => exact absurd hkk hne
  | cons c0 k' =>
  have hhead : isWs c0 = false := by
    unfold strip at hst
    rw [stripBy_eq_self_iff] at hst
    exact hst.1 c0 (by rw [hkk]; rfl)
  have hs0 := hstart c0 (by rw [hkk]; rfl)
  have hstrip : strip (k ++ c!" = " ++ l) = k ++ c!" =" ++ rstrip (' ' :: l) := by
    rw [strip_of_head (by rw [hkk]; intro c hc; simp at hc; subst hc; exact hhead)]
    obtain ⟨t, ht1, ht2⟩ := rstripBy_prefix isWs (' ' :: l)
    have e : k ++ c!" = " ++ l = (k ++ c!" =" ++ rstrip (' ' :: l)) ++ t := by
      have : k ++ c!" = " ++ l = k ++ c!" =" ++ (' ' :: l) := by simp
      rw [this]
      conv => lhs; rw [ht1]
      simp [rstrip]
    rw [e, rstrip_append_ws _ _ ht2]
    have hlast : ∀ c, (k ++ c!" =" ++ rstrip (' ' :: l)).getLast? = some c → isWs c = false := by
      intro c hc
      cases hr : rstrip (' ' :: l) with
      | nil => rw [hr] at hc; simp at hc; subst hc; decide
      | cons a b =>
        rw [hr, List.getLast?_append, List.getLast?_eq_some_getLast (by simp)] at hc
        simp only [Option.some_or] at hc
        apply rstripBy_getLast isWs (' ' :: l) c
        have h' : rstripBy isWs (' ' :: l) = a :: b := hr
        rw [h', List.getLast?_eq_some_getLast (by simp)]
        exact hc
    exact (rstripBy_eq_self_iff _ _).2 hlast
  have hnd : ∀ c ∈ k ++ [' '], (!isDelim c) = true := by
    intro c hc
    rw [List.mem_append] at hc
    rcases hc with hc | hc
    · have := hch c hc
      simp [isDelim, this.1, this.2.1]
    · simp at hc; subst hc; decide
  have hsplit : k ++ c!" =" ++ rstrip (' ' :: l) = (k ++ [' ']) ++ ('=' :: rstrip (' ' :: l)) := by simp
  have hl2 : strip (rstrip (' ' :: l)) = l := by
    by_cases hl0 : l = []
    · subst hl0; rfl
    · have hrl : rstripBy isWs l = l := by
        rw [rstripBy_eq_self_iff]
        unfold strip at hl
        exact ((stripBy_eq_self_iff _ _).1 hl).2
      have : rstrip (' ' :: l) = ' ' :: l := by
        unfold rstrip
        simp only [rstripBy, hrl]
        cases l with
        | nil => exact absurd rfl hl0
        | cons a b => rfl
      rw [this, strip_ws_cons (by decide), hl]
  rw [← hkk]
  refine ⟨?_, ?_, ?_, ?_, ?_⟩
  · rw [hstrip, hsplit]
    unfold optionLine
    rw [List.dropWhile_append_of_pos hnd, List.takeWhile_append_of_pos hnd]
    rw [List.dropWhile_cons_of_neg (by decide), List.takeWhile_cons_of_neg (by decide)]
    simp only [List.append_nil, hl2]
    have : rstrip (k ++ [' ']) = k := by
      rw [rstrip_append_ws _ _ (by decide)]
      unfold rstrip
      rw [rstripBy_eq_self_iff]
      unfold strip at hst
      exact ((stripBy_eq_self_iff _ _).1 hst).2
    rw [this]
  · rw [hstrip, hkk]
    unfold header
    split
    · rename_i heq
      simp at heq
      exact absurd heq.1 hs0.2.2
    · rfl
  · unfold isComment
    rw [hstrip, hkk]
    simp only [startsWith, List.cons_append, List.isPrefixOf, Bool.and_true, Bool.or_eq_false_iff, beq_eq_false_iff_ne]
    exact ⟨fun h => hs0.1 h.symm, fun h => hs0.2.1 h.symm⟩
  · rw [hstrip, hkk]; simp
  · rw [hkk]
    simp only [List.cons_append]
    rw [List.takeWhile_cons_of_neg (by simp [hhead])]

theorem item_lines {pre : Dict (Dict (List Str))} {s : Str} (hs : s ∉ pre.keys) {d : Dict (List Str)} {p : Str × Str}
    (ho : p.1 ∉ d.keys) (hlow : lower p.1 = p.1) (hk : GoodKey p.1) (hv : GoodValue p.2) (opt : Str) :
    (inSection pre s d opt).lines (itemLines p) = .ok (inSection pre s (d ++ [(p.1, split p.2 ['\n'])]) p.1) := by
  unfold itemLines
  have hl := hv.lines
  have hc := hv.noComment
  cases h : split p.2 ['\n'] with
  | nil => exact absurd h (split_ne_nil _ _)
  | cons l r =>
    rw [h] at hl hc
    simp only [Ini.State.lines]
    obtain ⟨h1, h2, h3, h4, h5⟩ := optionLine_spec hk (hl l (by simp))
    have hline : (inSection pre s d opt).line (p.1 ++ c!" = " ++ l) = .ok (inSection pre s (d ++ [(p.1, [l])]) p.1) := by
      unfold Ini.State.line
      rw [if_neg (by rw [h3]; decide)]
      simp only [h4, if_false, h5, List.length_nil]
      have hcond : ¬ ((inSection pre s d opt).opt ≠ [] ∧ 0 > (inSection pre s d opt).indent) := fun h => absurd h.2 (Nat.lt_irrefl 0)
      show (if _ then _ else _) = _
      rw [if_neg hcond]
      rw [h2]
      simp only [Ini.State.option, h1, hlow]
      have hget : ((inSection pre s d opt).sects.get? s) = some d := Dict.get?_snoc _ _ _ hs
      rw [hget]
      have hnh : Dict.has d p.1 = false := by
        cases hh : Dict.has d p.1 with
        | false => rfl
        | true => exact absurd ((Dict.has_iff d p.1).1 hh) ho
      simp only [Option.getD_some, hnh, Bool.false_eq_true, if_false, inSection]
      rw [Dict.modify_snoc _ _ _ _ hs, Dict.set_snoc _ _ _ ho]
      have : List.isEmpty p.1 = false := by
        cases hp : p.1 with
        | nil => exact absurd hp hk.nonempty
        | cons a b => rfl
      simp [this]
    rw [hline]
    simp only
    rw [lines_tabs hs ho hk.nonempty r [l] (fun x hx => ⟨hl x (by simp [hx]), hc x hx⟩)]
    simp

/-- The dictionary of raw lines that `_read` collects. -/
def rawLines (items : Dict Str) : Dict (List Str) := items.map fun p => (p.1, split p.2 ['\n'])

theorem keys_rawLines (items : Dict Str) : (rawLines items).keys = items.keys := by
  simp [rawLines, Dict.keys, Function.comp_def]

structure GoodItems (items : Dict Str) : Prop where
  keys : ∀ p ∈ items, GoodKey p.1
  values : ∀ p ∈ items, GoodValue p.2
  lower : ∀ p ∈ items, lower p.1 = p.1
  nodup : items.keys.Nodup

theorem items_lines {pre : Dict (Dict (List Str))} {s : Str} (hs : s ∉ pre.keys) (items : Dict Str) : ∀ (d : Dict (List Str)) (opt : Str),
    (∀ p ∈ items, GoodKey p.1) → (∀ p ∈ items, GoodValue p.2) → (∀ p ∈ items, lower p.1 = p.1) → (d.keys ++ items.keys).Nodup →
    (inSection pre s d opt).lines (items.flatMap itemLines) =
      .ok (inSection pre s (d ++ rawLines items) ((items.getLast?.map (·.1)).getD opt)) := by
  induction items with
  | nil => intro d opt _ _ _ _; simp [Ini.State.lines, rawLines]
  | cons p r ih =>
    intro d opt h1 h2 h3 h4
    rw [List.flatMap_cons, State.lines_append]
    have ho : p.1 ∉ d.keys := by
      intro hm
      rw [List.nodup_append] at h4
      exact h4.2.2 _ hm p.1 (by simp [Dict.keys]) rfl
    rw [item_lines hs ho (h3 p (by simp)) (h1 p (by simp)) (h2 p (by simp))]
    simp only [Except.bind]
    rw [ih _ _ (fun q hq => h1 q (by simp [hq])) (fun q hq => h2 q (by simp [hq])) (fun q hq => h3 q (by simp [hq]))]
    · cases r with
      | nil => simp [rawLines]
      | cons q r =>
        simp only [rawLines, List.map_cons, List.append_assoc, List.singleton_append, List.getLast?_cons_cons]
        congr 2
    · simpa [Dict.keys] using h4

end Verif
