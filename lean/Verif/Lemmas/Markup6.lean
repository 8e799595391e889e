/-
The balancing of formattings leaves a text alone in which every formatting ends in its line.
-/
import Verif.Lemmas.Markup5

namespace Verif
open Spec Re

variable {ls : List Str}

/-! ### Lines -/

theorem pieceLines_ne (ps : List Piece) : pieceLines ps ≠ [] := by
  unfold pieceLines
  split
  · simp
  · simp
  · split <;> simp

theorem pieceLines_cons {p : Piece} (hp : p ≠ .nl) (r : List Piece) :
    ∃ l ls, pieceLines r = l :: ls ∧ pieceLines (p :: r) = (p :: l) :: ls := by
  cases h : pieceLines r with
  | nil => exact absurd h (pieceLines_ne r)
  | cons l ls =>
    refine ⟨l, ls, rfl, ?_⟩
    cases p <;> first | exact absurd rfl hp | (simp only [pieceLines, h])

theorem pieceLines_nl (r : List Piece) : pieceLines (.nl :: r) = [] :: pieceLines r := by
  simp only [pieceLines]

/-- The first line begins the text. -/
theorem pieceLines_head (ps : List Piece) : ∀ l r, pieceLines ps = l :: r → l <+: ps := by
  induction ps with
  | nil =>
    intro l r h
    simp only [pieceLines, List.cons.injEq] at h
    rw [← h.1]
    exact List.prefix_refl _
  | cons p ps ih =>
    intro l r h
    by_cases hp : p = .nl
    · subst hp
      rw [pieceLines_nl] at h
      injection h with h _
      rw [← h]
      exact List.nil_prefix
    · obtain ⟨l', ls, h1, h2⟩ := pieceLines_cons hp ps
      rw [h2] at h
      injection h with h _
      rw [← h]
      exact (List.prefix_cons_inj _).2 (ih _ _ h1)

theorem pieceLines_infix {ps l : List Piece} (h : l ∈ pieceLines ps) : l <:+: ps := by
  induction ps with
  | nil =>
    simp only [pieceLines, List.mem_singleton] at h
    subst h
    exact List.infix_refl _
  | cons p ps ih =>
    by_cases hp : p = .nl
    · subst hp
      rw [pieceLines_nl] at h
      rcases List.mem_cons.1 h with rfl | h
      · exact List.nil_infix
      · exact (ih h).trans (List.infix_cons (List.infix_refl _))
    · obtain ⟨l', ls, h1, h2⟩ := pieceLines_cons hp ps
      rw [h2] at h
      rcases List.mem_cons.1 h with rfl | h
      · exact ((List.prefix_cons_inj _).2 (pieceLines_head _ _ _ h1)).isInfix
      · exact (ih (by rw [h1]; simp [h])).trans (List.infix_cons (List.infix_refl _))

theorem pieceLines_no_nl {ps l : List Piece} (h : l ∈ pieceLines ps) : Piece.nl ∉ l := by
  induction ps generalizing l with
  | nil =>
    simp only [pieceLines, List.mem_singleton] at h
    subst h
    simp
  | cons p ps ih =>
    by_cases hp : p = .nl
    · subst hp
      rw [pieceLines_nl] at h
      rcases List.mem_cons.1 h with rfl | h
      · simp
      · exact ih h
    · obtain ⟨l', ls, h1, h2⟩ := pieceLines_cons hp ps
      rw [h2] at h
      rcases List.mem_cons.1 h with rfl | h
      · simp only [List.mem_cons, not_or]
        exact ⟨fun e => hp e.symm, ih (by rw [h1]; simp)⟩
      · exact ih (by rw [h1]; simp [h])

theorem rawText_cons (p : Piece) (ps : List Piece) : rawText (p :: ps) = p.raw ++ rawText ps := rfl
theorem rawText_append (ps qs : List Piece) : rawText (ps ++ qs) = rawText ps ++ rawText qs := List.flatMap_append

theorem rawText_infix {l ps : List Piece} (h : l <:+: ps) : rawText l <:+: rawText ps := by
  obtain ⟨a, b, rfl⟩ := h
  exact ⟨rawText a, rawText b, by rw [rawText_append, rawText_append]⟩

theorem rawText_lines (ps : List Piece) : rawText ps = Str.join c!"\n" ((pieceLines ps).map rawText) := by
  induction ps with
  | nil => rfl
  | cons p ps ih =>
    by_cases hp : p = .nl
    · subst hp
      rw [pieceLines_nl, rawText_cons, ih]
      cases h : pieceLines ps with
      | nil => exact absurd h (pieceLines_ne ps)
      | cons l ls => rfl
    · obtain ⟨l', ls, h1, h2⟩ := pieceLines_cons hp ps
      rw [h2, rawText_cons, ih, h1]
      cases ls with
      | nil => rfl
      | cons m ls =>
        show p.raw ++ (rawText l' ++ c!"\n" ++ Str.join c!"\n" _) = (p.raw ++ rawText l') ++ c!"\n" ++ Str.join c!"\n" _
        simp only [List.append_assoc]

theorem Spec.Neighbours.append_right {a b : List Piece} (h : Neighbours (a ++ b)) : Neighbours b := by
  induction a with
  | nil => exact h
  | cons x a ih => exact ih (Neighbours.tail h)

theorem Spec.Neighbours.append_left {a b : List Piece} (h : Neighbours (a ++ b)) : Neighbours a := by
  induction a with
  | nil => trivial
  | cons x a ih =>
    cases a with
    | nil => trivial
    | cons y a => exact ⟨h.1, ih (Neighbours.tail h)⟩

theorem Spec.Neighbours.infix {l ps : List Piece} (h : Neighbours ps) (hl : l <:+: ps) : Neighbours l := by
  obtain ⟨a, b, rfl⟩ := hl
  exact Neighbours.append_right (Neighbours.append_left h)

/-- Only line breaks are written as line breaks. -/
theorem raw_no_nl (hl : ∀ l ∈ ls, LangCode l) {p : Piece} (h : p.Ok ls) (hp : p ≠ .nl) : '\n' ∉ p.raw := by
  cases p with
  | nl => exact absurd rfl hp
  | ch c => simp only [Piece.raw, List.mem_singleton]; exact fun e => h.2.1 e.symm
  | op t => exact (tag_no_nl hl h (d := '\n') rfl (by decide) (by decide) (by decide) (by decide) (by decide)).1
  | cl t => rw [← closeTag_eq]; exact (tag_no_nl hl h (d := '\n') rfl (by decide) (by decide) (by decide) (by decide) (by decide)).2
  | note s =>
    show '\n' ∉ c!"/*" ++ s ++ c!"*/"
    simp only [List.mem_append, not_or]
    exact ⟨⟨by decide, fun hm => (h.1 _ hm).2.1 rfl⟩, by decide⟩

theorem rawLine_no_nl (hl : ∀ l ∈ ls, LangCode l) {l : List Piece} (h : ∀ p ∈ l, p.Ok ls) (hn : Piece.nl ∉ l) : '\n' ∉ rawText l := by
  intro hm
  obtain ⟨p, hp, hm⟩ := List.mem_flatMap.1 hm
  exact raw_no_nl hl (h p hp) (fun e => hn (e ▸ hp)) hm

theorem rawText_split (hl : ∀ l ∈ ls, LangCode l) {ps : List Piece} (h : ∀ p ∈ ps, p.Ok ls) :
    Str.split (rawText ps) c!"\n" = (pieceLines ps).map rawText := by
  rw [rawText_lines]
  refine Str.split_join _ (by decide) _ (by simp [pieceLines_ne]) ?_
  intro x hx
  obtain ⟨l, hm, rfl⟩ := List.mem_map.1 hx
  rw [Str.freeOf_singleton]
  exact rawLine_no_nl hl (fun p hp => h p ((pieceLines_infix hm).subset hp)) (pieceLines_no_nl hm)

/-! ### Counting -/

/-- The mark `u`. -/
def isMark (u : Str) : Piece → Bool
  | .op t => decide (openTag t = bracketed u)
  | .cl t => decide (closeTag t = bracketed u)
  | _ => false

/-- The marks that are not `p` are passed over, those that are `p` are counted. -/
theorem count_tag (hl : ∀ l ∈ ls, LangCode l) {u : Str} (hu : (∃ t ∈ formats ls, u = t) ∨ (∃ t ∈ formats ls, u = '/' :: t)) {ps : List Piece}
    (h : ∀ p ∈ ps, p.Ok ls) (hn : Neighbours ps) :
    ∃ s, Rep (bracketed u) [] (rawText ps) s (ps.countP (isMark u)) := by
  obtain ⟨x, u', hux, hx⟩ := mark_head hu
  have hub : ']' ∉ u := by
    rcases hu with ⟨t, ht, rfl⟩ | ⟨t, ht, rfl⟩
    · exact (format_bracket hl ht).2.1
    · simp only [List.mem_cons, not_or]
      exact ⟨by decide, (format_bracket hl ht).2.1⟩
  have field : ∀ {s : Str} {a b : Str} {k : Nat}, (∃ v, s = bracketed v ∧ '[' ∉ v ∧ ']' ∉ v) →
      Rep (bracketed u) [] a b k → ∃ z, Rep (bracketed u) [] (s ++ a) z (k + if s = bracketed u then 1 else 0) := by
    rintro s a b k ⟨v, rfl, hv1, hv2⟩ hab
    by_cases huv : bracketed v = bracketed u
    · rw [if_pos huv, huv]
      exact ⟨_, .hit hab⟩
    · rw [if_neg huv]
      refine ⟨_, .miss (s := v ++ c!"]" ++ a) ?_ (Rep.skip (a := v ++ c!"]") ?_ hab)⟩
      · intro hp
        exact huv (by rw [bracketed_prefix hub hv2 hp])
      · simp only [List.mem_append, not_or]
        exact ⟨hv1, by decide⟩
  induction ps with
  | nil => exact ⟨_, .nil⟩
  | cons p ps ih =>
    obtain ⟨z, hk⟩ := ih (fun p hp => h p (by simp [hp])) (Neighbours.tail hn)
    rw [rawText_cons, List.countP_cons]
    have hp := h p (by simp)
    cases p with
    | nl => exact ⟨_, .miss (fun ⟨r, hr⟩ => by injection hr with hr; exact absurd hr (by decide)) (by simpa [isMark] using hk)⟩
    | op t =>
      obtain ⟨z, hz⟩ := field (s := openTag t) ⟨t, rfl, (format_bracket hl hp).1, (format_bracket hl hp).2.1⟩ hk
      rw [← openTag_eq]
      exact ⟨z, by simpa [isMark] using hz⟩
    | cl t =>
      obtain ⟨z, hz⟩ := field (s := closeTag t) ⟨'/' :: t, rfl, by
        simp only [List.mem_cons, not_or]
        exact ⟨by decide, (format_bracket hl hp).1⟩, by
        simp only [List.mem_cons, not_or]
        exact ⟨by decide, (format_bracket hl hp).2.1⟩⟩ hk
      rw [← closeTag_eq]
      exact ⟨z, by simpa [isMark] using hz⟩
    | note s =>
      simp only [isMark, Bool.false_eq_true, if_false, Nat.add_zero]
      refine ⟨_, Rep.skip (a := c!"/*" ++ s ++ c!"*/") ?_ hk⟩
      simp only [List.mem_append, not_or]
      exact ⟨⟨by decide, fun hm => (hp.1 _ hm).2.2.2.1 rfl⟩, by decide⟩
    | ch c =>
      simp only [isMark, Bool.false_eq_true, if_false, Nat.add_zero]
      by_cases hc : c = '['
      · subst hc
        refine ⟨_, .miss ?_ hk⟩
        rw [hux]
        refine not_prefix2 (p := u' ++ c!"]") ?_
        intro r hr
        cases ps with
        | nil => cases hr
        | cons y ps =>
          obtain ⟨d, hd, hd2⟩ := follow_bracket hn.1
          subst hd
          have hr : d = x := by injection hr
          subst hr
          rcases hx with rfl | rfl | rfl | rfl <;> exact hd2 (by decide)
      · refine ⟨_, Rep.skip (a := [c]) ?_ hk⟩
        simp only [List.mem_singleton]
        exact fun e => hc e.symm

/-- A line in which every formatting ends has as many ends as beginnings. -/
theorem openAfter_count (t : Str) (ps : List Piece) (st st' : List Str) (h : openAfter st ps = some st') :
    st.count t + ps.count (.op t) = st'.count t + ps.count (.cl t) := by
  induction ps generalizing st with
  | nil =>
    simp only [openAfter, Option.some.injEq] at h
    rw [h]
    rfl
  | cons p ps ih =>
    cases p with
    | op u =>
      simp only [openAfter] at h
      split at h
      · cases h
      have := ih _ h
      by_cases e : u = t
      · subst e
        rw [List.count_cons_self] at this
        rw [List.count_cons_self, List.count_cons_of_ne (by simp)]
        omega
      · rw [List.count_cons_of_ne e] at this
        rw [List.count_cons_of_ne (by simpa using e), List.count_cons_of_ne (by simp)]
        exact this
    | cl u =>
      cases st with
      | nil => simp [openAfter] at h
      | cons v st =>
        simp only [openAfter] at h
        split at h
        · rename_i e
          subst e
          have := ih _ h
          by_cases e : u = t
          · subst e
            rw [List.count_cons_self, List.count_cons_self, List.count_cons_of_ne (by simp)]
            omega
          · rw [List.count_cons_of_ne e, List.count_cons_of_ne (by simp), List.count_cons_of_ne (by simpa using e)]
            exact this
        · cases h
    | ch c =>
      have h : openAfter st ps = some st' := by cases st <;> simpa only [openAfter] using h
      rw [List.count_cons_of_ne (by simp), List.count_cons_of_ne (by simp)]
      exact ih _ h
    | note s =>
      have h : openAfter st ps = some st' := by cases st <;> simpa only [openAfter] using h
      rw [List.count_cons_of_ne (by simp), List.count_cons_of_ne (by simp)]
      exact ih _ h
    | nl =>
      have h : openAfter st ps = some st' := by cases st <;> simpa only [openAfter] using h
      rw [List.count_cons_of_ne (by simp), List.count_cons_of_ne (by simp)]
      exact ih _ h

theorem line_counts (hl : ∀ l ∈ ls, LangCode l) {t : Str} (ht : t ∈ formats ls) {l : List Piece} (h : ∀ p ∈ l, p.Ok ls) (hn : Neighbours l)
    (ho : openAfter [] l = some []) : Str.count (rawText l) (openTag t) = Str.count (rawText l) (closeTag t) := by
  obtain ⟨s1, r1⟩ := count_tag hl (.inl ⟨t, ht, rfl⟩) h hn
  obtain ⟨s2, r2⟩ := count_tag hl (.inr ⟨t, ht, rfl⟩) h hn
  rw [show openTag t = bracketed t from rfl, show closeTag t = bracketed ('/' :: t) from rfl, r1.count (by simp [bracketed]), r2.count (by simp [bracketed])]
  have hc := openAfter_count t l [] [] ho
  simp only [List.count_nil, Nat.zero_add] at hc
  have e1 : l.countP (isMark t) = l.count (.op t) := by
    apply List.countP_congr
    intro p hp
    cases p with
    | op u =>
      simp only [isMark, decide_eq_true_eq, beq_iff_eq, Piece.op.injEq]
      exact ⟨fun e => openTag_inj e, fun e => by rw [e]; rfl⟩
    | cl u =>
      simp only [isMark, decide_eq_true_eq, beq_iff_eq, reduceCtorEq, iff_false]
      exact fun e => absurd e.symm (openTag_ne_closeTag (format_head' ht))
    | _ => simp [isMark]
  have e2 : l.countP (isMark ('/' :: t)) = l.count (.cl t) := by
    apply List.countP_congr
    intro p hp
    cases p with
    | cl u =>
      simp only [isMark, decide_eq_true_eq, beq_iff_eq, Piece.cl.injEq]
      exact ⟨fun e => closeTag_inj e, fun e => by rw [e]; rfl⟩
    | op u =>
      simp only [isMark, decide_eq_true_eq, beq_iff_eq, reduceCtorEq, iff_false]
      have hu : u ∈ formats ls := h _ hp
      exact fun e => absurd (show openTag u = closeTag t from e) (openTag_ne_closeTag (format_head' hu))
    | _ => simp [isMark]
  rw [e1, e2, hc]

/-! ### Balancing -/

theorem balanceTag_id {t line : Str} (h : Str.count line (openTag t) = Str.count line (closeTag t))
    (hu : ¬ openTag t ++ closeTag t <:+: line) : balanceTag t false line = (line, false) := by
  have h1 : ¬ (Str.count line (openTag t) > Str.count line (closeTag t)) := by omega
  have h2 : ¬ (Str.count line (closeTag t) > Str.count line (openTag t)) := by omega
  unfold balanceTag
  simp only [Bool.false_eq_true, if_false, closeLoop, if_neg h1, openLoop, if_neg h2]
  rw [Str.replace_of_not_contains]
  rw [contains_false_iff]
  exact hu

theorem balanceLine_id (tags : List Str) {line : Str} (h : ∀ t ∈ tags, Str.count line (openTag t) = Str.count line (closeTag t))
    (hu : ∀ t ∈ tags, ¬ openTag t ++ closeTag t <:+: line) : balanceLine tags (tags.map (fun _ => false)) line = (line, tags.map (fun _ => false)) := by
  induction tags with
  | nil => rfl
  | cons t ts ih =>
    have ih := ih (fun t ht => h t (by simp [ht])) (fun t ht => hu t (by simp [ht]))
    simp only [List.map_cons, balanceLine, balanceTag_id (h t (by simp)) (hu t (by simp)), ih]

theorem balanceLines_id (tags : List Str) (lines : List Str) (h : ∀ line ∈ lines, ∀ t ∈ tags, Str.count line (openTag t) = Str.count line (closeTag t))
    (hu : ∀ line ∈ lines, ∀ t ∈ tags, ¬ openTag t ++ closeTag t <:+: line) : balanceLines tags (tags.map (fun _ => false)) lines = lines := by
  induction lines with
  | nil => rfl
  | cons l r ih =>
    have e := balanceLine_id tags (h l (by simp)) (hu l (by simp))
    simp only [balanceLines, e, ih (fun l hl => h l (by simp [hl])) (fun l hl => hu l (by simp [hl]))]

/-- The balancing only removes the blanks at the end. -/
theorem balanceText_id (hl : ∀ l ∈ ls, LangCode l) {ps : List Piece} (h : Nested ls ps)
    (hu : ∀ t ∈ formats ls, ¬ (Piece.op t).raw ++ (Piece.cl t).raw <:+: rawText ps) : balanceText (markupTags ls) (rawText ps) = Str.rstrip (rawText ps) := by
  unfold balanceText
  rw [rawText_split hl h.ok, balanceLines_id, ← rawText_lines]
  · intro line hline t ht
    obtain ⟨l, hm, rfl⟩ := List.mem_map.1 hline
    exact line_counts hl ht (fun p hp => h.ok p ((pieceLines_infix hm).subset hp)) (Neighbours.infix h.neighbours (pieceLines_infix hm)) (h.lines l hm)
  · intro line hline t ht hi
    obtain ⟨l, hm, rfl⟩ := List.mem_map.1 hline
    rw [closeTag_eq] at hi
    exact hu t ht (hi.trans (rawText_infix (pieceLines_infix hm)))

theorem raw_ne_nil (p : Piece) : p.raw ≠ [] := by
  cases p <;> simp [Piece.raw]

theorem rawText_eq_nil {ps : List Piece} (h : rawText ps = []) : ps = [] := by
  cases ps with
  | nil => rfl
  | cons p ps =>
    rw [rawText_cons, List.append_eq_nil_iff] at h
    exact absurd h.1 (raw_ne_nil p)

/-- The conversion of a text in normal form. -/
theorem formattedConvert_normal (hl : ∀ l ∈ ls, LangCode l) {author : Option Str} (ha : AuthorOk author) {ps : List Piece} (h : Normal ls ps) :
    formattedConvert (spanReplacements ++ commentReplacements author) ls (some (rawText ps)) false = (finalStage author ls).flat (pairs ps) := by
  have := convert_layout hl ha h.ok h.neighbours
  by_cases e : rawText ps = []
  · rw [e, rawText_eq_nil e]
    rfl
  · unfold formattedConvert
    split
    · rename_i e; cases e
    · rename_i e'; injection e' with e'; exact absurd e' e
    · rename_i t _ e'
      injection e' with e'
      subst e'
      simp only [Bool.false_eq_true, if_false]
      rw [balanceText_id hl h.toNested h.used, h.tidy]
      exact this

end Verif
