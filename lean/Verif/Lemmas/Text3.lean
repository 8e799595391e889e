/-
The text of the saved file, for trees that a file can carry.
-/
import Verif.Lemmas.Text2

namespace Verif
open Elem Spec

theorem contains_iff (s p : Str) : Str.contains s p = true ↔ p <:+: s := by
  induction s with
  | nil => cases p <;> simp [Str.contains]
  | cons c s ih =>
    rw [Str.contains_cons, Bool.or_eq_true, ih, List.isPrefixOf_iff_prefix, List.infix_cons_iff]

theorem contains_false_iff (s p : Str) : Str.contains s p = false ↔ ¬ p <:+: s := by
  rw [← contains_iff]; simp

/-- The two sequences that are altered when the file is written. -/
def altered : List Str := [c!"[CDATA[ \n", c!"\n]]"]

theorem altered_not {p : Str} (h : p ∈ altered) :
    p ≠ [] ∧ '<' ∉ p ∧ '>' ∉ p ∧ (∀ c ∈ c!"&<>ampltg;", c ∉ p) := by
  simp only [altered, List.mem_cons, List.not_mem_nil, or_false] at h
  rcases h with rfl | rfl <;> decide

theorem contains_of_name {t p : Str} (ht : IsName t) (hp : p ∈ altered) :
    Str.contains t p = false ∧ Str.contains ('/' :: t) p = false ∧ Str.contains (t ++ c!" /") p = false := by
  have key : ∀ s : Str, '\n' ∉ s → Str.contains s p = false := by
    intro s hs
    rw [contains_false_iff]
    intro h
    have : '\n' ∈ p := by
      simp only [altered, List.mem_cons, List.not_mem_nil, or_false] at hp
      rcases hp with rfl | rfl <;> decide
    exact hs (h.subset this)
  have n := name_not ht '\n' (by decide)
  exact ⟨key _ n, key _ (by simp [n]), key _ (by simp [n])⟩

theorem contains_tag {p s : Str} (hp : p ∈ altered) (hs : Str.contains s p = false) (a b : Str) :
    Str.contains (a ++ ('<' :: s ++ c!">") ++ b) p = (Str.contains a p || Str.contains b p) := by
  obtain ⟨h1, h2, h3, _⟩ := altered_not hp
  rw [show a ++ ('<' :: s ++ c!">") ++ b = a ++ '<' :: (s ++ '>' :: b) by simp]
  rw [Str.contains_barrier h2 h1, Str.contains_barrier h3 h1, hs]
  simp

theorem contains_raw {p s : Str} (hp : p ∈ altered) (hs : SafeRaw s) : Str.contains (etEscape s) p = false := by
  obtain ⟨h1, _, _, h4⟩ := altered_not hp
  rw [contains_etEscape h1 h4, contains_false_iff]
  simp only [altered, List.mem_cons, List.not_mem_nil, or_false] at hp
  rcases hp with rfl | rfl
  · exact hs.noOpen
  · exact hs.noClose

theorem contains_cdata {p s : Str} (hp : p ∈ altered) (hs : SafeCdata s) (a b : Str) :
    Str.contains (a ++ (c!"<![CDATA[" ++ etEscape s ++ c!"]]>") ++ b) p = (Str.contains a p || Str.contains b p) := by
  obtain ⟨h1, h2, h3, h4⟩ := altered_not hp
  have e : c!"<![CDATA[" ++ etEscape s ++ c!"]]>" = '<' :: etEscape (c!"![CDATA[" ++ s ++ c!"]]") ++ c!">" := by
    rw [etEscape_append, etEscape_append]
    rw [show etEscape c!"![CDATA[" = c!"![CDATA[" by decide, show etEscape c!"]]" = c!"]]" by decide]
    simp
  rw [e]
  refine contains_tag hp ?_ a b
  rw [contains_etEscape h1 h4]
  simp only [altered, List.mem_cons, List.not_mem_nil, or_false] at hp
  rcases hp with rfl | rfl
  · rw [show c!"![CDATA[" ++ s ++ c!"]]" = [] ++ '!' :: ((c!"[CDATA[" ++ s) ++ ']' :: c!"]") by simp]
    rw [Str.contains_barrier (by decide) (by decide), Str.contains_barrier (by decide) (by decide),
      (contains_false_iff _ _).2 hs.noOpen]
    decide
  · rw [show c!"![CDATA[" ++ s ++ c!"]]" = c!"![CDATA" ++ '[' :: (s ++ c!"]]") by simp]
    rw [Str.contains_barrier (by decide) (by decide), (contains_false_iff _ _).2 hs.noClose]
    decide

theorem render_emptyTag {b : Bool} {f : Str → Str} (t : Str) : renderL f (emptyTag b t) =
    if b ∧ t = c!"CHAPTERS" then ('<' :: t ++ c!">") ++ ('<' :: ('/' :: t) ++ c!">") else '<' :: (t ++ c!" /") ++ c!">" := by
  unfold emptyTag
  split <;> simp [renderL, Chunk.render]

mutual
theorem contains_body {p : Str} (hp : p ∈ altered) : (e : Elem) → SafeTree e → (a b : Str) →
    Str.contains (a ++ renderL etEscape (body false e) ++ b) p = (Str.contains a p || Str.contains b p)
  | node t x y ks, h, a, b => by
    rw [SafeTree] at h
    obtain ⟨hn, hx, _, hk⟩ := h
    obtain ⟨n1, n2, n3⟩ := contains_of_name hn hp
    rw [body]
    split
    · rw [render_emptyTag]
      simp only [Bool.false_eq_true, false_and, if_false]
      exact contains_tag hp n3 a b
    · split
      · rename_i ht
        rw [if_pos ht] at hx
        have e : a ++ renderL etEscape [Chunk.tag t, .cdo, .txt (x.getD []), .cdc, .tag ('/' :: t)] ++ b =
            a ++ ('<' :: t ++ c!">") ++ ((c!"<![CDATA[" ++ etEscape (x.getD []) ++ c!"]]>") ++ (('<' :: ('/' :: t) ++ c!">") ++ b)) := by
          simp [renderL, Chunk.render]
        rw [e, contains_tag hp n1]
        have e2 := contains_cdata hp hx.1 [] (('<' :: ('/' :: t) ++ c!">") ++ b)
        have e3 := contains_tag hp n2 [] b
        have e4 : Str.contains [] p = false := by
          have := (altered_not hp).1
          cases p with
          | nil => exact absurd rfl this
          | cons c p => rfl
        rw [List.nil_append] at e2 e3
        rw [e2, e3, e4]
        rfl
      · rename_i ht
        rw [if_neg ht] at hx
        have e : a ++ renderL etEscape (Chunk.tag t :: .txt (x.getD []) :: bodyL false ks ++ [.tag ('/' :: t)]) ++ b =
            a ++ ('<' :: t ++ c!">") ++ (etEscape (x.getD []) ++ (renderL etEscape (bodyL false ks) ++ (('<' :: ('/' :: t) ++ c!">") ++ b))) := by
          rw [renderL_append, renderL_cons, renderL_cons]
          simp [renderL, Chunk.render]
        rw [e, contains_tag hp n1]
        have := contains_bodyL hp ks hk (etEscape (x.getD [])) ('/' :: t ++ c!">" ++ b)
        rw [show etEscape (x.getD []) ++ (renderL etEscape (bodyL false ks) ++ (('<' :: ('/' :: t) ++ c!">") ++ b)) =
          etEscape (x.getD []) ++ renderL etEscape (bodyL false ks) ++ '<' :: ('/' :: t ++ c!">" ++ b) by simp]
        rw [this, contains_raw hp hx]
        rw [show '/' :: t ++ c!">" ++ b = ('/' :: t) ++ '>' :: b by simp,
          Str.contains_barrier (altered_not hp).2.2.1 (altered_not hp).1, n2]
        simp
theorem contains_bodyL {p : Str} (hp : p ∈ altered) : (ks : List Elem) → SafeTreeL ks → (a b : Str) →
    Str.contains (a ++ renderL etEscape (bodyL false ks) ++ '<' :: b) p = (Str.contains a p || Str.contains b p)
  | [], _, a, b => by
    simp only [bodyL, renderL, List.flatMap_nil, List.append_nil]
    exact Str.contains_barrier (altered_not hp).2.1 (altered_not hp).1 a b
  | e :: r, h, a, b => by
    rw [SafeTreeL] at h
    rw [bodyL, renderL_append, renderL_cons]
    have hy : SafeRaw (e.tail.getD []) := by
      cases e with
      | node t x y ks => rw [SafeTree] at h; exact h.1.2.2.1
    rw [show a ++ (renderL etEscape (body false e) ++ ((Chunk.txt (e.tail.getD [])).render etEscape ++ renderL etEscape (bodyL false r))) ++ '<' :: b
      = a ++ renderL etEscape (body false e) ++ (etEscape (e.tail.getD []) ++ renderL etEscape (bodyL false r) ++ '<' :: b) by
        simp [Chunk.render]]
    rw [contains_body hp e h.1, contains_bodyL hp r h.2, contains_raw hp hy]
    simp
end

/-! ### Characters -/

/-- All characters of the piece are safe. -/
def Chunk.safe (c : Chunk) : Prop := ∀ d ∈ c.render id, safeChar d

theorem safe_name {t : Str} (ht : IsName t) : (Chunk.tag t).safe ∧ (Chunk.tag ('/' :: t)).safe ∧
    (Chunk.tag (t ++ c!" /")).safe := by
  have key : ∀ c ∈ t, safeChar c := by
    intro c hc
    refine ⟨?_, fun e => name_not ht '\r' (by decide) (e ▸ hc), fun e => name_not ht '|' (by decide) (e ▸ hc)⟩
    have h := ht.2 c hc
    unfold xmlLegal
    simp only [nameChar, Char.isAlphanum, Char.isAlpha, Char.isUpper, Char.isLower, Char.isDigit,
      Bool.or_eq_true, Bool.and_eq_true, decide_eq_true_eq] at h
    have hn : c.toNat = c.val.toNat := rfl
    simp only [Bool.or_eq_true, Bool.and_eq_true, decide_eq_true_eq, bne_iff_ne, ne_eq]
    right
    rcases h with ((((h | h) | h) | h) | h) | h
    · have h1 := UInt32.le_iff_toNat_le.1 h.1; have h2 := UInt32.le_iff_toNat_le.1 h.2
      simp at h1 h2; omega
    · have h1 := UInt32.le_iff_toNat_le.1 h.1; have h2 := UInt32.le_iff_toNat_le.1 h.2
      simp at h1 h2; omega
    · have h1 := UInt32.le_iff_toNat_le.1 h.1; have h2 := UInt32.le_iff_toNat_le.1 h.2
      simp at h1 h2; omega
    · subst h; decide
    · subst h; decide
    · subst h; decide
  have s : ∀ c ∈ c!"<>/ ", safeChar c := by
    intro c hc
    simp only [List.mem_cons, List.not_mem_nil, or_false] at hc
    rcases hc with rfl | rfl | rfl | rfl <;> exact ⟨by decide, by decide, by decide⟩
  refine ⟨?_, ?_, ?_⟩ <;>
  · intro d hd
    simp only [Chunk.render, List.mem_cons, List.mem_append, List.not_mem_nil, or_false] at hd
    first
    | (rcases hd with (rfl | hd) | rfl
       · exact s _ (by decide)
       · exact key d hd
       · exact s _ (by decide))
    | (rcases hd with (rfl | rfl | hd) | rfl
       · exact s _ (by decide)
       · exact s _ (by decide)
       · exact key d hd
       · exact s _ (by decide))
    | (rcases hd with (rfl | hd | rfl | rfl) | rfl
       · exact s _ (by decide)
       · exact key d hd
       · exact s _ (by decide)
       · exact s _ (by decide)
       · exact s _ (by decide))

theorem safe_of_all {s : Str} (h : s.all (fun c => xmlLegal c && c != '\r' && c != '|') = true) : ∀ c ∈ s, safeChar c := by
  intro c hc
  have := List.all_eq_true.1 h c hc
  simpa [safeChar, and_assoc] using this

theorem safe_cd : Chunk.cdo.safe ∧ Chunk.cdc.safe := ⟨safe_of_all (by decide), safe_of_all (by decide)⟩

theorem safe_emptyTag {t : Str} (ht : IsName t) (b : Bool) : ∀ c ∈ emptyTag b t, c.safe := by
  intro c hc
  unfold emptyTag at hc
  split at hc
  · simp only [List.mem_cons, List.not_mem_nil, or_false] at hc
    rcases hc with rfl | rfl
    · exact (safe_name ht).1
    · exact (safe_name ht).2.1
  · simp only [List.mem_singleton] at hc; subst hc; exact (safe_name ht).2.2

theorem Spec.SafeTree.text {t : Str} {x y : Option Str} {ks : List Elem} (h : SafeTree (node t x y ks)) :
    (Chunk.txt (x.getD [])).safe ∧ (Chunk.txt (y.getD [])).safe := by
  rw [SafeTree] at h
  obtain ⟨hn, hx, hy, hk⟩ := h
  refine ⟨?_, hy.chars⟩
  split at hx
  · exact hx.1.chars
  · exact hx.chars

mutual
theorem safe_body (b : Bool) : (e : Elem) → SafeTree e → ∀ c ∈ body b e, c.safe
  | node t x y ks, h => by
    have hx := (Spec.SafeTree.text h).1
    rw [SafeTree] at h
    obtain ⟨hn, _, _, hk⟩ := h
    obtain ⟨o1, o2, o3⟩ := safe_name hn
    have := safe_bodyL b ks hk
    intro c hc
    rw [body] at hc
    split at hc
    · exact safe_emptyTag hn b c hc
    · split at hc
      · simp only [List.mem_cons, List.not_mem_nil, or_false] at hc
        rcases hc with rfl | rfl | rfl | rfl | rfl
        · exact o1
        · exact safe_cd.1
        · exact hx
        · exact safe_cd.2
        · exact o2
      · simp only [List.cons_append, List.mem_cons, List.mem_append, List.not_mem_nil, or_false] at hc
        rcases hc with rfl | rfl | hc | rfl
        · exact o1
        · exact hx
        · exact this c hc
        · exact o2
theorem safe_bodyL (b : Bool) : (ks : List Elem) → SafeTreeL ks → ∀ c ∈ bodyL b ks, c.safe
  | [], _ => by intro c hc; cases hc
  | e :: r, h => by
    rw [SafeTreeL] at h
    have hy : (Chunk.txt (e.tail.getD [])).safe := by
      cases e with
      | node t x y ks => exact (Spec.SafeTree.text h.1).2
    intro c hc
    rw [bodyL] at hc
    rcases List.mem_append.1 hc with hc | hc
    · exact safe_body b e h.1 c hc
    · rcases List.mem_cons.1 hc with rfl | hc
      · exact hy
      · exact safe_bodyL b r h.2 c hc
end

mutual
theorem safe_chunks : (e : Elem) → SafeTree e → ∀ c ∈ chunks e, c.safe
  | node t x y ks, h => by
    obtain ⟨hx, hy⟩ := Spec.SafeTree.text h
    rw [SafeTree] at h
    obtain ⟨hn, _, _, hk⟩ := h
    obtain ⟨o1, o2, o3⟩ := safe_name hn
    have := safe_chunksL ks hk
    intro c hc
    rw [chunks] at hc
    rcases List.mem_append.1 hc with hc | hc
    · split at hc
      · simp only [List.mem_singleton] at hc; subst hc; exact o3
      · simp only [List.cons_append, List.mem_cons, List.mem_append, List.not_mem_nil, or_false] at hc
        rcases hc with rfl | rfl | hc | rfl
        · exact o1
        · exact hx
        · exact this c hc
        · exact o2
    · simp only [List.mem_singleton] at hc; subst hc; exact hy
theorem safe_chunksL : (ks : List Elem) → SafeTreeL ks → ∀ c ∈ chunksL ks, c.safe
  | [], _ => by intro c hc; cases hc
  | e :: r, h => by
    rw [SafeTreeL] at h
    intro c hc
    rw [chunksL] at hc
    rcases List.mem_append.1 hc with hc | hc
    · exact safe_chunks e h.1 c hc
    · exact safe_chunksL r h.2 c hc
end

theorem safe_render {cs : List Chunk} (h : ∀ c ∈ cs, c.safe) : ∀ d ∈ renderL id cs, safeChar d := by
  intro d hd
  obtain ⟨c, hc, hd⟩ := List.mem_flatMap.1 hd
  exact h c hc d hd

theorem safe_render_esc {cs : List Chunk} (h : ∀ c ∈ cs, c.safe) : ∀ d ∈ renderL etEscape cs, safeChar d := by
  intro d hd
  obtain ⟨c, hc, hd⟩ := List.mem_flatMap.1 hd
  cases c with
  | tag s => exact h _ hc d hd
  | cdo => exact h _ hc d hd
  | cdc => exact h _ hc d hd
  | txt s =>
    have hs := h _ hc
    simp only [Chunk.render, etEscape_eq] at hd
    obtain ⟨c, h1, h2⟩ := List.mem_flatMap.1 hd
    unfold etEscChar at h2
    split at h2
    · exact safe_of_all (s := c!"&amp;") (by decide) d h2
    · split at h2
      · exact safe_of_all (s := c!"&lt;") (by decide) d h2
      · split at h2
        · exact safe_of_all (s := c!"&gt;") (by decide) d h2
        · simp only [List.mem_singleton] at h2; subst h2; exact hs d h1

theorem universalNewlines_safe {s : Str} (h : ∀ c ∈ s, safeChar c) : universalNewlines s = s := by
  induction s with
  | nil => rfl
  | cons c s ih =>
    have hc : c ≠ '\r' := (h c (by simp)).2.1
    have ih := ih (fun c hc => h c (by simp [hc]))
    unfold universalNewlines
    split
    · rename_i h; cases h
    · rename_i h; cases h; exact absurd rfl hc
    · rename_i h; cases h; exact absurd rfl hc
    · rename_i h; cases h; rw [ih]

theorem sanitize_safe {s : Str} (h : ∀ c ∈ s, safeChar c) : sanitize s = s := by
  unfold sanitize
  rw [List.filter_eq_self]
  intro c hc
  obtain ⟨h1, h2, h3⟩ := h c hc
  unfold xmlLegal at h1
  unfold dropped
  simp only [Bool.or_eq_true, Bool.and_eq_true, decide_eq_true_eq, bne_iff_ne, ne_eq] at h1
  simp only [Bool.not_eq_true', Bool.or_eq_false_iff, Bool.and_eq_false_iff, decide_eq_false_iff_not]
  rcases h1 with ((rfl | rfl) | rfl) | h1
  · decide
  · decide
  · exact absurd rfl h2
  · refine ⟨⟨⟨⟨by omega, h3⟩, by omega⟩, by omega⟩, by omega⟩

theorem parserInput_safe {s : Str} (h : ∀ c ∈ s, safeChar c) : parserInput s = s := by
  unfold parserInput
  rw [universalNewlines_safe h, sanitize_safe h]

/-! ### The file -/

/-- The text between `<` and `>` in the first line. -/
def header : Str := c!"?xml version=\"1.0\" encoding=\"utf-8\"?"

/-- The pieces of the whole file. -/
def filePieces (b : Bool) (e : Elem) : List Chunk :=
  .tag header :: .txt c!"\n" :: body b e ++ [.txt (e.tail.getD [])]

theorem Spec.SafeTree.tailRaw {e : Elem} (h : SafeTree e) : SafeRaw (e.tail.getD []) := by
  cases e with
  | node t x y ks => rw [SafeTree] at h; exact h.2.2.1

theorem ok_filePieces (b : Bool) {e : Elem} (h : SafeTree e) : ∀ c ∈ filePieces b e, c.ok := by
  intro c hc
  simp only [filePieces, List.cons_append, List.mem_cons, List.mem_append, List.not_mem_nil, or_false] at hc
  rcases hc with rfl | rfl | hc | rfl
  · exact ⟨by decide, by decide, by decide⟩
  · trivial
  · exact ok_body b e h c hc
  · trivial

theorem safe_filePieces (b : Bool) {e : Elem} (h : SafeTree e) : ∀ c ∈ filePieces b e, c.safe := by
  intro c hc
  simp only [filePieces, List.cons_append, List.mem_cons, List.mem_append, List.not_mem_nil, or_false] at hc
  rcases hc with rfl | rfl | hc | rfl
  · exact safe_of_all (by decide)
  · exact safe_of_all (by decide)
  · exact safe_body b e h c hc
  · exact h.tailRaw.chars

theorem contains_filePieces {p : Str} (hp : p ∈ altered) {e : Elem} (h : SafeTree e) :
    Str.contains (renderL etEscape (filePieces false e)) p = false := by
  have e1 : renderL etEscape (filePieces false e) =
      ('<' :: header ++ c!">" ++ c!"\n") ++ renderL etEscape (body false e) ++ etEscape (e.tail.getD []) := by
    unfold filePieces
    rw [renderL_append, renderL_cons, renderL_cons]
    simp only [renderL, Chunk.render, List.flatMap_cons, List.flatMap_nil, List.append_nil]
    rw [show etEscape c!"\n" = c!"\n" by decide]
    simp
  rw [e1, contains_body hp e h, contains_raw hp h.tailRaw]
  simp only [altered, List.mem_cons, List.not_mem_nil, or_false] at hp
  rcases hp with rfl | rfl <;> decide

/-- The file that is written for a tree it can carry. -/
theorem fileText_eq (hasChapters : Bool) {e : Elem} (h : SafeTree e) :
    fileText hasChapters e = renderL id (filePieces (!hasChapters) e) := by
  unfold fileText
  rw [etWrite_chunks, universalNewlines_safe (safe_render_esc (safe_chunks e h))]
  unfold postprocess
  have hl : (Str.split (renderL etEscape (chunks e)) c!"\n").map cdataLine ≠ [] := by
    intro hh; exact Str.split_ne_nil _ _ (List.map_eq_nil_iff.1 hh)
  have e1 : Str.join c!"\n" (c!"<?xml version=\"1.0\" encoding=\"utf-8\"?>" ::
      (Str.split (renderL etEscape (chunks e)) c!"\n").map cdataLine) = renderL etEscape (filePieces false e) := by
    rw [Str.join_cons_of_ne _ _ _ hl, cdata_lines, cdataLine_chunks _ (ok_chunks e h), ins_chunks e h]
    show _ = renderL etEscape (Chunk.tag header :: Chunk.txt c!"\n" :: (body false e ++ [Chunk.txt (e.tail.getD [])]))
    generalize body false e ++ [Chunk.txt (e.tail.getD [])] = z
    show _ = renderL etEscape (Chunk.tag header :: Chunk.txt c!"\n" :: z)
    rw [renderL_cons, renderL_cons, ← List.append_assoc]
    rfl
  simp only [e1]
  rw [Str.replace_of_not_contains (contains_filePieces (p := c!"[CDATA[ \n") (by decide) h)]
  rw [Str.replace_of_not_contains (contains_filePieces (p := c!"\n]]") (by decide) h)]
  cases hasChapters with
  | true =>
    simp only [if_true]
    exact unescape_chunks _ (ok_filePieces false h)
  | false =>
    simp only [Bool.false_eq_true, if_false]
    have := replace_chunks (f := etEscape) (s := c!"CHAPTERS /") (fun s => mem_etEscape.1)
      [.tag c!"CHAPTERS", .tag c!"/CHAPTERS"] (by decide) (by decide) rfl (filePieces false e) (ok_filePieces false h)
    rw [show '<' :: c!"CHAPTERS /" ++ c!">" = c!"<CHAPTERS />" from rfl] at this
    rw [show renderL etEscape [.tag c!"CHAPTERS", .tag c!"/CHAPTERS"] = c!"<CHAPTERS></CHAPTERS>" by decide] at this
    rw [this]
    have e2 : (filePieces false e).flatMap (fun c => if c = .tag c!"CHAPTERS /" then [.tag c!"CHAPTERS", .tag c!"/CHAPTERS"] else [c])
        = filePieces true e := by
      show (filePieces false e).flatMap chaptersIns = filePieces true e
      unfold filePieces
      rw [List.flatMap_append, List.flatMap_cons, List.flatMap_cons, chapters_body e h]
      rfl
    rw [e2]
    exact unescape_chunks _ (ok_filePieces true h)

end Verif
