/-
Lemmas for C58: reading and writing translation files.
-/
import Verif.Spec.Translations
import Verif.Lemmas.Ini2
import Verif.Lemmas.Template

namespace Verif
open Spec Str

/-! ### Sorting -/

theorem insertStr_perm (s : Str) (l : List Str) : (insertStr s l).Perm (s :: l) := by
  induction l with
  | nil => exact List.Perm.refl _
  | cons a r ih =>
    unfold insertStr
    split
    · exact List.Perm.refl _
    · exact (ih.cons a).trans (List.Perm.swap s a r)

theorem sortStrs_perm (l : List Str) : (sortStrs l).Perm l := by
  induction l with
  | nil => exact List.Perm.refl _
  | cons a r ih => exact (insertStr_perm a _).trans (ih.cons a)

theorem strLe_total (a b : Str) : strLe a b = true ∨ strLe b a = true := by
  induction a generalizing b with
  | nil => left; rfl
  | cons x as ih =>
    cases b with
    | nil => right; rfl
    | cons y bs =>
      unfold strLe
      by_cases h1 : x.toNat < y.toNat
      · left; simp [h1]
      · by_cases h2 : y.toNat < x.toNat
        · right; simp [h2]
        · have e : x = y := Char.toNat_inj.1 (by omega)
          subst e
          simpa [h1] using ih bs

theorem strLe_inOrder (a b : Str) (h : strLe a b = true) : InOrder a b := by
  induction a generalizing b with
  | nil =>
    cases b with
    | nil => exact Or.inl rfl
    | cons y bs => exact Or.inr List.Lex.nil
  | cons x as ih =>
    cases b with
    | nil => cases h
    | cons y bs =>
      unfold strLe at h
      split at h
      · rename_i h1; exact Or.inr (List.Lex.rel h1)
      · split at h
        · rename_i h2
          subst h2
          rcases ih bs h with h3 | h3
          · exact Or.inl (congrArg (x.toNat :: ·) h3)
          · exact Or.inr (List.Lex.cons h3)
        · cases h

theorem strLe_trans {a b c : Str} (h1 : strLe a b = true) (h2 : strLe b c = true) : strLe a c = true := by
  induction a generalizing b c with
  | nil => rfl
  | cons x as ih =>
    cases b with
    | nil => cases h1
    | cons y bs =>
      cases c with
      | nil => cases h2
      | cons z cs =>
        unfold strLe at h1 h2 ⊢
        by_cases hxy : x.toNat < y.toNat
        · by_cases hyz : y.toNat < z.toNat
          · simp [show x.toNat < z.toNat by omega]
          · rw [if_neg hyz] at h2
            split at h2
            · rename_i e; subst e; simp [hxy]
            · cases h2
        · rw [if_neg hxy] at h1
          split at h1
          · rename_i e
            subst e
            by_cases hyz : x.toNat < z.toNat
            · simp [hyz]
            · rw [if_neg hyz] at h2 ⊢
              split at h2
              · rename_i e2
                rw [if_pos e2]
                exact ih h1 h2
              · cases h2
          · cases h1

theorem insertStr_sorted {s : Str} {l : List Str} (h : l.Pairwise (fun a b => strLe a b = true)) :
    (insertStr s l).Pairwise (fun a b => strLe a b = true) := by
  induction l with
  | nil => simp [insertStr]
  | cons a r ih =>
    have ⟨h1, h2⟩ := List.pairwise_cons.1 h
    unfold insertStr
    split
    · rename_i hs
      refine List.pairwise_cons.2 ⟨?_, h⟩
      intro b hb
      rcases List.mem_cons.1 hb with rfl | hb
      · exact hs
      · exact strLe_trans hs (h1 b hb)
    · rename_i hs
      refine List.pairwise_cons.2 ⟨?_, ih h2⟩
      intro b hb
      rcases List.mem_cons.1 ((insertStr_perm s r).mem_iff.1 hb) with rfl | hb
      · exact (strLe_total a b).resolve_right hs
      · exact h1 b hb

theorem sortStrs_sorted (l : List Str) : (sortStrs l).Pairwise (fun a b => strLe a b = true) := by
  induction l with
  | nil => exact List.Pairwise.nil
  | cons a r ih => exact insertStr_sorted ih

/-! ### Lines -/

theorem strip_of_ends {a : Char} {l : Str} {z : Char} (ha : isWs a = false) (hz : isWs z = false) : strip (a :: (l ++ [z])) = a :: (l ++ [z]) := by
  unfold strip
  rw [stripBy_eq_self_iff]
  refine ⟨?_, ?_⟩
  · intro c hc; simp at hc; subst hc; exact ha
  · intro c hc
    have : (a :: (l ++ [z])).getLast? = some z := by
      rw [show a :: (l ++ [z]) = (a :: l) ++ [z] from rfl, List.getLast?_append]; rfl
    rw [this] at hc
    cases hc
    exact hz

/-- The line of a message. -/
def idLine (m : Str) : Str := c!"msgid \"" ++ m ++ c!"\""
/-- The line of a translation. -/
def strLine (m : Str) : Str := c!"msgstr \"" ++ m ++ c!"\""

theorem strip_idLine (m : Str) : strip (idLine m) = idLine m := strip_of_ends (a := 'm') (l := c!"sgid \"" ++ m) (z := '"') (by decide) (by decide)
theorem strip_strLine (m : Str) : strip (strLine m) = strLine m := strip_of_ends (a := 'm') (l := c!"sgstr \"" ++ m) (z := '"') (by decide) (by decide)

theorem startsWith_iff (s p : Str) : startsWith s p = true ↔ p <+: s := by
  unfold startsWith
  exact List.isPrefixOf_iff_prefix

theorem startsWith_false (s p : Str) : startsWith s p = false ↔ ¬ p <+: s := by
  rw [← startsWith_iff, Bool.not_eq_true]

theorem idLine_id (m : Str) : startsWith (idLine m) c!"msgid \"" = true := by
  rw [startsWith_iff]; exact ⟨m ++ c!"\"", by simp [idLine]⟩

theorem idLine_blank {m : Str} (h : m ≠ []) (hq : m.head? ≠ some '"') : startsWith (idLine m) c!"msgid \"\"" = false := by
  rw [startsWith_false]
  rintro ⟨t, ht⟩
  cases m with
  | nil => exact h rfl
  | cons c m =>
    simp [idLine] at ht
    exact hq (by rw [← ht.1]; rfl)

theorem idLine_creation (m : Str) : startsWith (idLine m) c!"\"POT-Creation-Date" = false := rfl
theorem strLine_id (m : Str) : startsWith (strLine m) c!"msgid \"" = false := rfl
theorem strLine_blank (m : Str) : startsWith (strLine m) c!"msgid \"\"" = false := rfl
theorem strLine_str (m : Str) : startsWith (strLine m) c!"msgstr \"" = true := by
  rw [startsWith_iff]; exact ⟨m ++ c!"\"", by simp [strLine]⟩

theorem extract_idLine (m : Str) : extractText c!"msgid \"" (idLine m) = m := by
  unfold extractText idLine
  rw [show (c!"msgid \"" ++ m ++ c!"\"").length - 1 = (c!"msgid \"" ++ m).length by simp, List.take_left', List.drop_left']
  · rfl
  · rfl

theorem extract_strLine (m : Str) : extractText c!"msgstr \"" (strLine m) = m := by
  unfold extractText strLine
  rw [show (c!"msgstr \"" ++ m ++ c!"\"").length - 1 = (c!"msgstr \"" ++ m).length by simp, List.take_left', List.drop_left']
  · rfl
  · rfl

theorem strippedLines_text {ls : List Str} (h : ∀ l ∈ ls, OneLine l) : strippedLines (ls.flatMap (· ++ c!"\n")) = ls.map strip ++ [[]] := by
  unfold strippedLines
  rw [universalNewlines_noCR, show ls.flatMap (· ++ c!"\n") = unlines ls from rfl, split_unlines ls (fun l hl => (h l hl).1)]
  · rw [List.map_append]; rfl
  · intro c hc e
    subst e
    rw [List.mem_flatMap] at hc
    obtain ⟨l, hl, hc⟩ := hc
    rcases List.mem_append.1 hc with hc | hc
    · exact (h l hl).2 hc
    · revert hc; decide

/-! ### The template -/

/-- The creation line after more header lines. -/
def creationGo (c : Str) (ls : List Str) : Str := (ls.filter (fun l => c!"\"POT-Creation-Date".isPrefixOf l)).getLast?.getD c

theorem creationGo_cons (c l : Str) (ls : List Str) :
    creationGo c (l :: ls) = creationGo (if startsWith l c!"\"POT-Creation-Date" then l else c) ls := by
  unfold creationGo startsWith
  rw [List.filter_cons]
  split
  · rw [List.getLast?_cons]; rfl
  · rfl

/-- A line of the header: not a message. -/
def HeaderLine (l : Str) : Prop := c!"msgid \"" <+: l → c!"msgid \"\"" <+: l

theorem creation_not_blank {l : Str} (h : startsWith l c!"msgid \"\"" = true) : startsWith l c!"\"POT-Creation-Date" = false := by
  rw [startsWith_iff] at h
  obtain ⟨t, rfl⟩ := h
  rfl

theorem readPot_header {ls : List Str} (h : ∀ l ∈ ls, HeaderLine l) (c : Str) (r : List Str) :
    readPotLoop true c [] (ls ++ r) = readPotLoop true (creationGo c ls) [] r := by
  induction ls generalizing c with
  | nil => rfl
  | cons l ls ih =>
    have hl := h l List.mem_cons_self
    rw [creationGo_cons, ← ih (fun x hx => h x (List.mem_cons_of_mem _ hx)), List.cons_append]
    rw [readPotLoop]
    cases hb : startsWith l c!"msgid \"\"" with
    | true =>
      have hc := creation_not_blank hb
      simp only [hb, hc, if_true]
      rfl
    | false =>
      have hi : startsWith l c!"msgid \"" = false := by
        rw [startsWith_false]
        intro hi
        have := (startsWith_iff _ _).2 (hl hi)
        rw [hb] at this
        cases this
      simp only [hb, hi, Bool.false_eq_true, if_false, Bool.and_false, Bool.true_and]
      rfl

theorem readPot_sorted (h : Bool) (c : Str) (msgs ls : List Str) (hm : msgs.Pairwise (fun a b => strLe a b = true)) :
    (readPotLoop h c msgs ls).2.Pairwise (fun a b => strLe a b = true) := by
  induction ls generalizing h c msgs with
  | nil => exact hm
  | cons l ls ih => exact ih _ _ _ (sortStrs_sorted _)

/-- A line beside the entries. -/
def AsideLine (l : Str) : Prop := ¬ c!"msgid \"" <+: l ∧ ¬ c!"msgstr \"" <+: l

theorem not_blank {l : Str} (h : ¬ c!"msgid \"" <+: l) : startsWith l c!"msgid \"\"" = false := by
  rw [startsWith_false]
  rintro ⟨t, rfl⟩
  exact h ⟨'"' :: t, rfl⟩

theorem readPot_step (c : Str) (msgs : List Str) (l : Str) (r : List Str) :
    readPotLoop false c msgs (l :: r) =
      readPotLoop false c (sortStrs (if startsWith l c!"msgid \"" then msgs ++ [extractText c!"msgid \"" l] else msgs)) r := by
  rw [readPotLoop]
  cases startsWith l c!"msgid \"\"" <;> rfl

/-- Entries behind the header. -/
theorem readPot_aside {ls : List Str} (h : ∀ l ∈ ls, AsideLine l) (c : Str) (msgs r : List Str) :
    ∃ msgs', msgs'.Perm msgs ∧ readPotLoop false c msgs (ls ++ r) = readPotLoop false c msgs' r := by
  induction ls generalizing msgs with
  | nil => exact ⟨msgs, List.Perm.refl _, rfl⟩
  | cons l ls ih =>
    obtain ⟨m', h1, h2⟩ := ih (fun x hx => h x (List.mem_cons_of_mem _ hx)) (sortStrs msgs)
    refine ⟨m', h1.trans (sortStrs_perm _), ?_⟩
    rw [← h2, List.cons_append, readPot_step, (startsWith_false _ _).2 (h l List.mem_cons_self).1]
    rfl

/-- The lines of an entry, stripped. -/
def entryLines (e : PoEntry) : List Str := e.above.map strip ++ [idLine e.message, strLine e.translation]

theorem entry_strip (e : PoEntry) : e.lines.map strip = entryLines e := by
  unfold PoEntry.lines entryLines
  rw [List.map_append]
  show _ ++ [strip (idLine e.message), strip (strLine e.translation)] = _
  rw [strip_idLine, strip_strLine]

theorem readPot_entries {es : List PoEntry} (h : ∀ e ∈ es, ∀ l ∈ e.above, AsideLine (strip l)) (c : Str) (msgs r : List Str) :
    ∃ msgs', msgs'.Perm (msgs ++ es.map PoEntry.message) ∧ readPotLoop false c msgs (es.flatMap entryLines ++ r) = readPotLoop false c msgs' r := by
  induction es generalizing msgs with
  | nil => exact ⟨msgs, by simp, rfl⟩
  | cons e es ih =>
    have ha : ∀ l ∈ e.above.map strip, AsideLine l := by
      intro l hl
      obtain ⟨x, hx, rfl⟩ := List.mem_map.1 hl
      exact h e List.mem_cons_self x hx
    obtain ⟨m1, p1, q1⟩ := readPot_aside ha c msgs (idLine e.message :: strLine e.translation :: (es.flatMap entryLines ++ r))
    obtain ⟨m2, p2, q2⟩ := ih (fun x hx => h x (List.mem_cons_of_mem _ hx)) (sortStrs (sortStrs (m1 ++ [e.message])))
    refine ⟨m2, ?_, ?_⟩
    · refine p2.trans ?_
      rw [List.map_cons]
      refine (((sortStrs_perm _).trans (sortStrs_perm _)).append_right _).trans ?_
      rw [List.append_assoc]
      exact p1.append_right _
    · rw [← q2, List.flatMap_cons, show entryLines e ++ es.flatMap entryLines ++ r = e.above.map strip ++ (idLine e.message :: strLine e.translation :: (es.flatMap entryLines ++ r)) by
        simp [entryLines], q1, readPot_step, readPot_step, idLine_id, strLine_id, extract_idLine]
      rfl

theorem Spec.PoFile.Regular.lines {f : PoFile} (hf : f.Regular) : strippedLines f.text = f.header.map strip ++ f.entries.flatMap entryLines ++ f.below.map strip ++ [[]] := by
  unfold PoFile.text
  rw [strippedLines_text, List.map_append, List.map_append, List.map_flatMap]
  · refine congrArg (fun x => f.header.map strip ++ x ++ f.below.map strip ++ [[]]) ?_
    exact congrArg (fun g => f.entries.flatMap g) (funext entry_strip)
  · intro l hl
    rcases List.mem_append.1 hl with hl | hl
    rotate_left
    · exact (hf.below l hl).1
    rcases List.mem_append.1 hl with hl | hl
    · exact (hf.header l hl).1
    · obtain ⟨e, he, hl⟩ := List.mem_flatMap.1 hl
      rcases List.mem_append.1 hl with hl | hl
      · exact (hf.above e he l hl).1
      · have h1 := (hf.message e he).1
        have h2 := hf.translation e he
        rcases List.mem_cons.1 hl with rfl | hl
        · refine ⟨?_, ?_⟩ <;> simp [List.mem_append, h1.1, h1.2]
        · rcases List.mem_cons.1 hl with rfl | hl
          · refine ⟨?_, ?_⟩ <;> simp [List.mem_append, h2.1, h2.2]
          · cases hl

theorem Spec.PoFile.Regular.asides {f : PoFile} (hf : f.Regular) : ∀ e ∈ f.entries, ∀ l ∈ e.above, AsideLine (strip l) :=
  fun e he l hl => (hf.above e he l hl).2

theorem Spec.PoFile.Regular.headers {f : PoFile} (hf : f.Regular) : ∀ l ∈ f.start.map strip, HeaderLine l := by
  intro l hl
  obtain ⟨x, hx, rfl⟩ := List.mem_map.1 hl
  rcases List.mem_append.1 hx with hx | hx
  · exact (hf.header x hx).2
  · cases he : f.entries with
    | nil =>
      rw [he] at hx
      exact fun h => absurd h (hf.below x hx).2.1
    | cons e es =>
      rw [he] at hx
      exact fun h => absurd h (hf.above e (he ▸ List.mem_cons_self) x hx).2.1

theorem Spec.PoFile.Regular.tail {f : PoFile} (hf : f.Regular) : ∀ l ∈ f.below.map strip ++ [[]], AsideLine l := by
  intro l hl
  rcases List.mem_append.1 hl with hl | hl
  · obtain ⟨x, hx, rfl⟩ := List.mem_map.1 hl
    exact (hf.below x hx).2
  · rw [List.mem_singleton.1 hl]
    exact ⟨by decide, by decide⟩

/-- The lines of a file: the header up to the first message, and the rest. -/
theorem Spec.PoFile.Regular.split {f : PoFile} (hf : f.Regular) :
    strippedLines f.text = f.start.map strip ++
      (match f.entries with
      | [] => [[]]
      | e :: es => idLine e.message :: strLine e.translation :: (es.flatMap entryLines ++ (f.below.map strip ++ [[]]))) := by
  rw [hf.lines]
  unfold PoFile.start
  cases f.entries with
  | nil => simp
  | cons e es => simp [entryLines]

/-- Reading a template. -/
theorem readPot_file {f : PoFile} (hf : f.Regular) (e : TrEnv) :
    (readPotLoop true (noCreation e) [] (strippedLines f.text)).1 = creationLine e f ∧
    (readPotLoop true (noCreation e) [] (strippedLines f.text)).2.Perm f.messages ∧
    (readPotLoop true (noCreation e) [] (strippedLines f.text)).2.Pairwise (fun a b => strLe a b = true) := by
  have key : ∃ ms, readPotLoop true (noCreation e) [] (strippedLines f.text) = (creationLine e f, ms) ∧ ms.Perm f.messages := by
    rw [hf.split, readPot_header hf.headers, show creationGo (noCreation e) _ = creationLine e f from rfl]
    unfold PoFile.messages
    have hm := hf.message
    have ha := hf.asides
    generalize creationLine e f = c at *
    cases he : f.entries with
    | nil => exact ⟨[], rfl, List.Perm.refl _⟩
    | cons x es =>
      rw [he] at hm ha
      have hx := hm x List.mem_cons_self
      obtain ⟨m2, p2, q2⟩ := readPot_entries (fun y hy => ha y (List.mem_cons_of_mem _ hy)) c (sortStrs (sortStrs [x.message])) (f.below.map strip ++ [[]])
      obtain ⟨m3, p3, q3⟩ := readPot_aside hf.tail c m2 []
      rw [List.append_nil] at q3
      refine ⟨m3, ?_, p3.trans (p2.trans ((((sortStrs_perm _).trans (sortStrs_perm _))).append_right _))⟩
      rw [readPotLoop]
      simp only [idLine_blank hx.2.1 hx.2.2, idLine_creation, idLine_id, Bool.false_eq_true, if_false, Bool.and_false, Bool.not_false, Bool.and_true, Bool.true_and, if_true, extract_idLine]
      show readPotLoop false c (sortStrs ([] ++ [x.message])) _ = _
      rw [readPot_step, strLine_id]
      exact q2.trans q3
  obtain ⟨ms, h1, h2⟩ := key
  rw [h1]
  refine ⟨rfl, h2, ?_⟩
  have := readPot_sorted true (noCreation e) [] (strippedLines f.text) List.Pairwise.nil
  rw [h1] at this
  exact this

/-! ### The translation file -/

theorem readPo_header {ls : List Str} (h : ∀ l ∈ ls, HeaderLine l) (m : Str) (d : Dict Str) (r : List Str) :
    readPoLoop true m d (ls ++ r) = readPoLoop true m d r := by
  induction ls with
  | nil => rfl
  | cons l ls ih =>
    have hl := h l List.mem_cons_self
    rw [← ih (fun x hx => h x (List.mem_cons_of_mem _ hx)), List.cons_append, readPoLoop]
    cases hb : startsWith l c!"msgid \"\"" with
    | true => rfl
    | false =>
      have hi : startsWith l c!"msgid \"" = false := by
        rw [startsWith_false]
        intro hi
        have := (startsWith_iff _ _).2 (hl hi)
        rw [hb] at this
        cases this
      simp only [hi, Bool.false_eq_true, if_false, Bool.and_false, if_true]

theorem readPo_aside {ls : List Str} (h : ∀ l ∈ ls, AsideLine l) (m : Str) (d : Dict Str) (r : List Str) :
    readPoLoop false m d (ls ++ r) = readPoLoop false m d r := by
  induction ls with
  | nil => rfl
  | cons l ls ih =>
    have hl := h l List.mem_cons_self
    rw [← ih (fun x hx => h x (List.mem_cons_of_mem _ hx)), List.cons_append, readPoLoop]
    simp only [not_blank hl.1, (startsWith_false _ _).2 hl.1, (startsWith_false _ _).2 hl.2, Bool.false_eq_true, if_false, Bool.and_false]

/-- What an entry does to the dictionary. -/
def enter (d : Dict Str) (e : PoEntry) : Dict Str := if e.translation = [] then d else d.set e.message e.translation

theorem readPo_pair (m : Str) (d : Dict Str) (e : PoEntry) (h : e.message ≠ []) (hq : e.message.head? ≠ some '"') (b : Bool) (r : List Str) :
    readPoLoop b m d (idLine e.message :: strLine e.translation :: r) = readPoLoop false e.message (enter d e) r := by
  rw [readPoLoop]
  have hb := idLine_blank h hq
  simp only [hb, idLine_id, Bool.and_true, Bool.false_eq_true, if_false, if_true, extract_idLine]
  rw [show (if b = true then false else b) = false by cases b <;> rfl]
  simp only [Bool.false_eq_true, if_false]
  rw [readPoLoop]
  simp only [strLine_blank, strLine_id, strLine_str, Bool.false_eq_true, if_false, if_true, Bool.and_false, extract_strLine]
  rfl

theorem readPo_entries {es : List PoEntry} (h : ∀ e ∈ es, ∀ l ∈ e.above, AsideLine (strip l)) (hm : ∀ e ∈ es, e.message ≠ [] ∧ e.message.head? ≠ some '"')
    (m : Str) (d : Dict Str) (r : List Str) (hr : ∀ l ∈ r, AsideLine l) : readPoLoop false m d (es.flatMap entryLines ++ r) = es.foldl enter d := by
  induction es generalizing m d with
  | nil =>
    have := readPo_aside hr m d []
    rw [List.append_nil] at this
    exact this
  | cons e es ih =>
    have ha : ∀ l ∈ e.above.map strip, AsideLine l := by
      intro l hl
      obtain ⟨x, hx, rfl⟩ := List.mem_map.1 hl
      exact h e List.mem_cons_self x hx
    have hx := hm e List.mem_cons_self
    rw [List.flatMap_cons, show entryLines e ++ es.flatMap entryLines ++ r = e.above.map strip ++ (idLine e.message :: strLine e.translation :: (es.flatMap entryLines ++ r)) by
      simp [entryLines], readPo_aside ha, readPo_pair m d e hx.1 hx.2,
      ih (fun x hx => h x (List.mem_cons_of_mem _ hx)) (fun x hx => hm x (List.mem_cons_of_mem _ hx))]
    rfl

/-- Reading a translation file. -/
theorem readPo_file {f : PoFile} (hf : f.Regular) (d : Dict Str) : readPoLoop true [] d (strippedLines f.text) = f.entries.foldl enter d := by
  rw [hf.split, readPo_header hf.headers]
  have hm := fun e he => (hf.message e he).2
  have ha := hf.asides
  cases he : f.entries with
  | nil => rfl
  | cons x es =>
    rw [he] at hm ha
    have hx := hm x List.mem_cons_self
    refine (readPo_pair [] d x hx.1 hx.2 true _).trans ?_
    exact readPo_entries (fun y hy => ha y (List.mem_cons_of_mem _ hy)) (fun y hy => hm y (List.mem_cons_of_mem _ hy)) _ _ _ hf.tail

theorem enter_get (es : List PoEntry) (d : Dict Str) (m : Str) :
    (es.foldl enter d).get? m = (lastTranslation m es).orElse fun _ => d.get? m := by
  induction es generalizing d with
  | nil => rfl
  | cons e es ih =>
    rw [List.foldl_cons, ih]
    rw [show lastTranslation m (e :: es) = (lastTranslation m es).orElse fun _ => if e.message = m ∧ e.translation ≠ [] then some e.translation else none from rfl]
    cases lastTranslation m es with
    | some t => rfl
    | none =>
      show (enter d e).get? m = _
      unfold enter
      by_cases ht : e.translation = []
      · rw [if_pos ht, if_neg (fun h => h.2 ht)]; rfl
      · rw [if_neg ht, Dict.get?_set]
        by_cases hm : e.message = m
        · rw [if_pos hm, if_pos (c := e.message = m ∧ e.translation ≠ []) ⟨hm, ht⟩]; rfl
        · rw [if_neg hm, if_neg (c := e.message = m ∧ e.translation ≠ []) (fun h => hm h.1)]; rfl

theorem enter_nodup (es : List PoEntry) (d : Dict Str) (h : d.keys.Nodup) : (es.foldl enter d).keys.Nodup := by
  induction es generalizing d with
  | nil => exact h
  | cons e es ih =>
    refine ih _ ?_
    unfold enter
    split
    · exact h
    · exact Dict.nodup_keys_set _ _ _ h

theorem get?_filter {d : Dict Str} (h : d.keys.Nodup) (m : Str) :
    Dict.get? (d.filter (fun q => decide (q.2 ≠ []))) m = (d.get? m).filter (fun t => decide (t ≠ [])) := by
  induction d with
  | nil => rfl
  | cons p d ih =>
    obtain ⟨k, v⟩ := p
    have ⟨h1, h2⟩ := List.nodup_cons.1 h
    have ih := ih h2
    rw [List.filter_cons]
    by_cases hk : k = m
    · subst hk
      by_cases hv : v = []
      · subst hv
        have h3 : Dict.get? d k = none := (Dict.get?_eq_none_iff d k).2 h1
        rw [h3] at ih
        simp only [ne_eq, not_true_eq_false, decide_false, Bool.false_eq_true, if_false]
        refine ih.trans ?_
        simp [Dict.get?, Option.filter]
      · simp [hv, Dict.get?, Option.filter]
    · by_cases hv : v = []
      · subst hv
        simp only [ne_eq, not_true_eq_false, decide_false, Bool.false_eq_true, if_false]
        refine ih.trans ?_
        simp [Dict.get?, hk]
      · simp only [ne_eq, hv, not_false_eq_true, decide_true, if_true]
        have e1 : ∀ r : Dict Str, Dict.get? ((k, v) :: r) m = Dict.get? r m := fun r => by simp [Dict.get?, hk]
        rw [e1, e1]
        exact ih

end Verif
