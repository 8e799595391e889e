/-
The text of a scene becomes the paragraphs of the document (C56).
-/
import Verif.Lemmas.Book10

namespace Verif.Book
open Spec Re

variable {ls : List Str} {author : Option Str}

/-- Beginning and ending formattings does not make lines empty or not empty. -/
theorem spread_isEmpty : ∀ (Ls : List (List Piece)) (st : List Str), Few st → FlowLines st Ls → (∀ l ∈ spreadLines st Ls, ∀ t, ¬ [Piece.op t, .cl t] <:+: l) →
    (spreadLines st Ls).map List.isEmpty = Ls.map List.isEmpty := by
  intro Ls
  induction Ls with
  | nil => intro st _ _ _; rfl
  | cons l r ih =>
    intro st hst hf hu
    have e : spreadLines st (l :: r) = (st.reverse.map Piece.op ++ l ++ (openLeft st l).map Piece.cl) :: spreadLines (openLeft st l) r := rfl
    rw [e] at hu ⊢
    have h1 := spread_empty (l := l) hst (fun t => hu _ (by simp) t)
    have h2 : Few (openLeft st l) ∧ FlowLines (openLeft st l) r := by
      cases r with
      | nil =>
        have h3 : openAfter st l = some [] := hf
        unfold openLeft
        rw [h3]
        exact ⟨.inl rfl, trivial⟩
      | cons m r =>
        obtain ⟨_, st', h3, h4, h5⟩ := hf
        unfold openLeft
        rw [h3]
        refine ⟨?_, h5⟩
        rcases h4 with h4 | ⟨t, h4, _⟩
        · exact .inl h4
        · exact .inr ⟨t, h4⟩
    rw [List.map_cons, List.map_cons, ih _ h2.1 h2.2 (fun x hx => hu x (by simp [hx]))]
    congr 1
    rw [Bool.eq_iff_iff, List.isEmpty_iff, List.isEmpty_iff]
    exact h1

theorem spread_of {Ls : List (List Piece)} : ∀ {st : List Str} {m : List Piece}, m ∈ spreadLines st Ls → ∃ l ∈ Ls, ∃ a b : List Str, m = a.map Piece.op ++ l ++ b.map Piece.cl := by
  induction Ls with
  | nil => intro st m hm; cases hm
  | cons l r ih =>
    intro st m hm
    have e : spreadLines st (l :: r) = (st.reverse.map Piece.op ++ l ++ (openLeft st l).map Piece.cl) :: spreadLines (openLeft st l) r := rfl
    rw [e, List.mem_cons] at hm
    rcases hm with rfl | hm
    · exact ⟨l, by simp, _, _, rfl⟩
    · obtain ⟨x, hx, h⟩ := ih hm
      exact ⟨x, by simp [hx], h⟩

theorem infix_ops {c : Char} {w : List Piece} {a : List Str} {l : List Piece} (h : .ch c :: w <:+: a.map Piece.op ++ l) : .ch c :: w <:+: l := by
  induction a with
  | nil => exact h
  | cons t a ih =>
    rw [List.map_cons, List.cons_append, List.infix_cons_iff] at h
    rcases h with h | h
    · rw [List.cons_prefix_cons] at h
      cases h.1
    · exact ih h

theorem infix_cls {c : Char} {w : List Piece} {b : List Str} {l : List Piece} (h : w ++ [.ch c] <:+: l ++ b.map Piece.cl) : w ++ [.ch c] <:+: l := by
  have h' := List.reverse_infix.2 h
  rw [List.reverse_append, List.reverse_append, ← List.map_reverse] at h'
  generalize b.reverse = b' at h'
  rw [← List.reverse_infix, List.reverse_append]
  clear h
  induction b' with
  | nil => exact h'
  | cons t a ih =>
    rw [List.map_cons, List.cons_append, List.infix_cons_iff] at h'
    rcases h' with h | h
    · simp only [List.reverse_cons, List.reverse_nil, List.nil_append, List.cons_append, List.cons_prefix_cons] at h
      cases h.1
    · exact ih h

theorem rawText_infix {a b : List Piece} (h : a <:+: b) : rawText a <:+: rawText b := by
  obtain ⟨x, y, rfl⟩ := h
  unfold rawText
  rw [List.flatMap_append, List.flatMap_append]
  exact ⟨_, _, rfl⟩

theorem rawText_chars (s : Str) : rawText (s.map Piece.ch) = s := by
  induction s with
  | nil => rfl
  | cons c s ih => exact congrArg (c :: ·) ih

theorem spread_unbroken {d : Char} {ps m : List Piece} (h : ¬ ['@', d, '@'] <:+: rawText ps) (hm : m ∈ spreadLines [] (pieceLines ps)) : Unbroken ['@', d, '@'] m := by
  obtain ⟨l, hl, a, b, rfl⟩ := spread_of hm
  have hi := pieceLines_infix hl
  constructor
  · intro hx
    have h1 : [Piece.ch '@', .ch d] ++ [.ch '@'] <:+: (a.map Piece.op ++ l) ++ b.map Piece.cl := hx
    have h2 : .ch '@' :: [Piece.ch d, .ch '@'] <:+: a.map Piece.op ++ l := infix_cls h1
    have h3 := rawText_infix ((infix_ops h2).trans hi)
    exact h h3
  · intro s hs hx
    have : Piece.note s ∈ l := by simpa using hs
    obtain ⟨x, y, e⟩ := List.append_of_mem this
    refine h (List.IsInfix.trans hx (List.IsInfix.trans ?_ (rawText_infix hi)))
    rw [e]
    refine ⟨rawText x ++ c!"/*", c!"*/" ++ rawText y, ?_⟩
    unfold rawText
    rw [List.flatMap_append, List.flatMap_cons]
    simp only [Piece.raw, List.append_assoc]

/-- Formattings that are nested open and close their spans. -/
theorem spans_of_open : ∀ {l : List Piece} {st r : List Str}, Piece.nl ∉ l → openAfter st l = some r → spans st.length l = some r.length := by
  intro l
  induction l with
  | nil => intro st r _ h; rw [openAfter] at h; cases h; rfl
  | cons x l ih =>
    intro st r hn h
    have hn' : Piece.nl ∉ l := fun hm => hn (by simp [hm])
    cases x with
    | nl => exact absurd (by simp) hn
    | op u =>
      rw [openAfter] at h
      split at h
      · cases h
      · exact ih (st := u :: st) hn' h
    | cl u =>
      cases st with
      | nil => cases h
      | cons v st =>
        rw [openAfter] at h
        split at h
        · rw [spans, if_neg (by simp), List.length_cons, Nat.add_sub_cancel]
          exact ih hn' h
        · cases h
    | ch c =>
      have h : openAfter st l = some r := by cases st <;> exact h
      exact ih hn' h
    | note c =>
      have h : openAfter st l = some r := by cases st <;> exact h
      exact ih hn' h

/-- The lines of a text. -/
theorem spread_fits {content : Option Str} {ps : List Piece} (h : BookText ls content ps) : ∀ m ∈ spreadLines [] (pieceLines ps), LineFits ls m := by
  intro m hm
  obtain ⟨hN, _, hL⟩ := spread_nested h.flowing
  have hm' : m ∈ pieceLines (spreadText ps) := by rw [hL]; exact hm
  have hi := pieceLines_infix hm'
  exact {
    ok := fun x hx => hN.ok x (hi.subset hx)
    line := pieceLines_no_nl hm'
    neighbours := Neighbours.infix hN.neighbours hi
    nested := spans_of_open (st := []) (pieceLines_no_nl hm') (hN.lines m hm')
    n := spread_unbroken (h.text ▸ h.breaks.1) hm
    r := spread_unbroken (h.text ▸ h.breaks.2) hm }

theorem zip_paras {α β γ : Type} (f : γ → α) (g : γ → β) (l : List γ) : l.map (fun q => (f q, g q)) = (l.map f).zip (l.map g) := by
  induction l with
  | nil => rfl
  | cons a l ih => exact congrArg ((f a, g a) :: ·) ih

theorem flatMap_single {α β : Type} (f : α → β) (l : List α) : l.flatMap (fun x => [f x]) = l.map f := by
  induction l with
  | nil => rfl
  | cons a l ih => exact congrArg (f a :: ·) ih

/-- The text of a scene. -/
theorem text_piece {n : Novel} (hls : n.languages.getD [] = ls) (hl : ∀ l ∈ ls, LangCode l) (hd : (formats ls).Nodup) (ha : AuthorOk author) (hA : '@' ∉ pyStr author)
    {content : Option Str} {ps : List Piece} (h : BookText ls content ps) {st : Str} (hst : st = indStyle ∨ st = bodyStyle) :
    Piec author (pOpen st ++ odtExportConvert n content false ++ pEnd) (textPassages ls (pyStr author) st ps) := by
  obtain ⟨hN, _, hL⟩ := spread_nested h.flowing
  rw [convert_flow hls hl hd h]
  obtain ⟨l, qs, e1, e2⟩ := paras_text ls st (pairs (spreadText ps))
  rw [List.append_assoc, e2]
  have hst' := paras_styles hst (pairs (spreadText ps))
  have hfit : ∀ q ∈ paras st (pairs (spreadText ps)), Piec author (paraText ls q) [linePassage ls (pyStr author) q.style [] q.line] := by
    intro q hq
    refine Piec.para ha hA (hst' q hq).1 (hst' q hq).2 (spread_fits h _ ?_)
    rw [← hL, ← paras_lines st]
    exact List.mem_map_of_mem hq
  have e3 : pOpen st ++ (lineOut ls l ++ pEnd ++ qs.flatMap (fun q => '\n' :: paraText ls q)) = paraText ls ⟨st, false, l⟩ ++ qs.flatMap (fun q => '\n' :: paraText ls q) := by
    rw [← List.append_assoc, ← List.append_assoc]
    rfl
  rw [e3]
  have e4 : textPassages ls (pyStr author) st ps = (paras st (pairs (spreadText ps))).flatMap (fun q => [linePassage ls (pyStr author) q.style [] q.line]) := by
    unfold textPassages
    have hfl := flowLines_of (st := []) h.flowing.neighbours h.flowing.nested h.flowing.breaks
    have hem := spread_isEmpty (pieceLines ps) [] (.inl rfl) hfl h.flowing.used
    have hsty := paras_lineStyles _ (spreadText ps) (Nat.le_refl _) st
    rw [hL, lineStyles_congr hem] at hsty
    have hlen : (lineStyles st (pieceLines ps)).length = (pieceLines ps).length := by
      rw [← hsty, List.length_map, ← List.length_map (f := Para.line), paras_lines, hL]
      have := congrArg List.length hem
      rwa [List.length_map, List.length_map] at this
    rw [← spreadLines_passages (pieceLines ps) _ [] hlen, ← hsty, ← hL, ← paras_lines st, ← zip_paras, List.map_map]
    rw [flatMap_single]
    rfl
  rw [e4, e1, List.flatMap_cons]
  refine (hfit _ (by rw [e1]; simp)).append ?_
  refine Piec.flat ?_
  intro q hq
  have := (Piec.blank (author := author) (s := c!"\n") (by decide) (by decide) (by decide) (by decide) (by decide) (by decide)).append (hfit q (by rw [e1]; simp [hq]))
  exact this

end Verif.Book
