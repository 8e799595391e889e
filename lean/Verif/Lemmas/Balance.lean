/-
Formattings that reach across line breaks (odt_w_formatted.py 73-98): the balancing of lines, on pieces.
-/
import Verif.Lemmas.Markup6

namespace Verif
open Spec Re

variable {ls : List Str}

/-! ### Counting marks -/

theorem count_open (hl : ∀ l ∈ ls, LangCode l) {t : Str} (ht : t ∈ formats ls) {l : List Piece} (h : ∀ p ∈ l, p.Ok ls) (hn : Neighbours l) :
    Str.count (rawText l) (openTag t) = l.count (.op t) := by
  obtain ⟨s1, r1⟩ := count_tag hl (.inl ⟨t, ht, rfl⟩) h hn
  rw [show openTag t = bracketed t from rfl, r1.count (by simp [bracketed])]
  apply List.countP_congr
  intro p hp
  cases p with
  | op u =>
    simp only [isMark, decide_eq_true_eq, beq_iff_eq, Piece.op.injEq]
    exact ⟨fun e => openTag_inj e, fun e => by rw [e]; rfl⟩
  | cl u =>
    simp only [isMark, decide_eq_true_eq, beq_iff_eq, reduceCtorEq, iff_false]
    exact fun e => absurd e.symm (openTag_ne_closeTag (format_head' ht))
  | _ => simp [isMark]

theorem count_close (hl : ∀ l ∈ ls, LangCode l) {t : Str} (ht : t ∈ formats ls) {l : List Piece} (h : ∀ p ∈ l, p.Ok ls) (hn : Neighbours l) :
    Str.count (rawText l) (closeTag t) = l.count (.cl t) := by
  obtain ⟨s2, r2⟩ := count_tag hl (.inr ⟨t, ht, rfl⟩) h hn
  rw [show closeTag t = bracketed ('/' :: t) from rfl, r2.count (by simp [bracketed])]
  apply List.countP_congr
  intro p hp
  cases p with
  | cl u =>
    simp only [isMark, decide_eq_true_eq, beq_iff_eq, Piece.cl.injEq]
    exact ⟨fun e => closeTag_inj e, fun e => by rw [e]; rfl⟩
  | op u =>
    simp only [isMark, decide_eq_true_eq, beq_iff_eq, reduceCtorEq, iff_false]
    have hu : u ∈ formats ls := h _ hp
    exact fun e => absurd (show openTag u = closeTag t from e) (openTag_ne_closeTag (format_head' hu))
  | _ => simp [isMark]

/-! ### Removing empty formattings -/

/-- Empty formattings are removed, from left to right. -/
def dropPairs (t : Str) : List Piece → List Piece
  | [] => []
  | .op u :: .cl v :: r => if u = t ∧ v = t then dropPairs t r else .op u :: .cl v :: dropPairs t r
  | p :: r => p :: dropPairs t r

theorem dropPairs_hit (t : Str) (r : List Piece) : dropPairs t (.op t :: .cl t :: r) = dropPairs t r := by
  rw [dropPairs]; simp

theorem dropPairs_cl (t v : Str) (r : List Piece) : dropPairs t (.cl v :: r) = .cl v :: dropPairs t r := by
  rw [dropPairs]
  intro _ _ _ h; cases h

theorem dropPairs_miss {t : Str} {p : Piece} {r : List Piece} (h : ∀ r', p :: r ≠ .op t :: .cl t :: r') : dropPairs t (p :: r) = p :: dropPairs t r := by
  by_cases hp : ∃ u v r', p = .op u ∧ r = .cl v :: r'
  · obtain ⟨u, v, r', rfl, rfl⟩ := hp
    rw [dropPairs, if_neg, dropPairs_cl]
    rintro ⟨rfl, rfl⟩
    exact h _ rfl
  · rw [dropPairs]
    rintro u v r' rfl rfl
    exact hp ⟨u, v, r', rfl, rfl⟩

theorem replace_pairs (hl : ∀ l ∈ ls, LangCode l) {t : Str} (ht : t ∈ formats ls) {l : List Piece} (h : ∀ p ∈ l, p.Ok ls) (hn : Neighbours l) :
    Str.replace (rawText l) (openTag t ++ closeTag t) [] = rawText (dropPairs t l) := by
  obtain ⟨k, hk⟩ : ∃ k, Rep (openTag t ++ closeTag t) [] (rawText l) (rawText (dropPairs t l)) k := by
    obtain ⟨n, hlen⟩ : ∃ n, l.length = n := ⟨_, rfl⟩
    induction n using Nat.strongRecOn generalizing l with
    | _ n ih =>
      cases l with
      | nil => exact ⟨0, .nil⟩
      | cons p l =>
        by_cases hh : ∃ r', p :: l = .op t :: .cl t :: r'
        · obtain ⟨r', e⟩ := hh
          injection e with e1 e2
          subst e1; subst e2
          obtain ⟨k, hk⟩ := ih r'.length (by simp at hlen; omega) (l := r') (fun p hp => h p (by simp [hp])) (Neighbours.tail (Neighbours.tail hn)) rfl
          rw [dropPairs_hit, rawText_cons, rawText_cons, ← openTag_eq, ← closeTag_eq, ← List.append_assoc]
          exact ⟨k + 1, .hit hk⟩
        · rw [dropPairs_miss (fun r' e => hh ⟨r', e⟩), rawText_cons, rawText_cons]
          obtain ⟨k, hk⟩ := ih l.length (by simp at hlen; omega) (l := l) (fun p hp => h p (by simp [hp])) (Neighbours.tail hn) rfl
          have hp := h p (by simp)
          have e0 : openTag t ++ closeTag t = '[' :: (t ++ c!"]" ++ closeTag t) := by simp [openTag]
          have skip : ∀ {a : Str}, '[' ∉ a → ∃ k, Rep (openTag t ++ closeTag t) [] (a ++ rawText l) (a ++ rawText (dropPairs t l)) k := by
            intro a ha
            rw [e0] at hk ⊢
            exact ⟨k, Rep.skip ha hk⟩
          cases p with
          | nl => exact skip (by decide)
          | note s =>
            refine skip ?_
            show '[' ∉ c!"/*" ++ s ++ c!"*/"
            simp only [List.mem_append, not_or]
            exact ⟨⟨by decide, fun hm => (hp.1 _ hm).2.2.2.1 rfl⟩, by decide⟩
          | cl u =>
            have hu := format_bracket hl (show u ∈ formats ls from hp)
            have e1 : (Piece.cl u).raw = '[' :: ('/' :: u ++ c!"]") := by simp [Piece.raw]
            have h2 : '[' ∉ '/' :: u ++ c!"]" := by
              simp only [List.mem_append, List.mem_cons, not_or]
              exact ⟨⟨by decide, hu.1⟩, by decide, by simp⟩
            obtain ⟨k, hk⟩ := skip h2
            rw [e1]
            refine ⟨k, .miss (s := ('/' :: u ++ c!"]") ++ rawText l) ?_ hk⟩
            rw [e0]
            obtain ⟨c, r, e, hc⟩ := format_head' ht
            intro hpre
            rw [e] at hpre
            have := (List.cons_prefix_cons.1 (List.cons_prefix_cons.1 hpre).2).1
            exact hc this
          | op u =>
            have hu := format_bracket hl (show u ∈ formats ls from hp)
            have e1 : (Piece.op u).raw = '[' :: (u ++ c!"]") := by simp [Piece.raw]
            have h2 : '[' ∉ u ++ c!"]" := by
              simp only [List.mem_append, not_or]
              exact ⟨hu.1, by decide⟩
            obtain ⟨k, hk⟩ := skip h2
            rw [e1]
            refine ⟨k, .miss (s := (u ++ c!"]") ++ rawText l) ?_ hk⟩
            intro hpre
            have hpre1 : bracketed t <+: bracketed u ++ rawText l := by
              refine List.IsPrefix.trans ?_ hpre
              exact ⟨closeTag t, rfl⟩
            have htu : t = u := bracketed_prefix (format_bracket hl ht).2.1 hu.2.1 hpre1
            subst htu
            have hpre2 : closeTag t <+: rawText l := by
              have e2 : '[' :: ((t ++ c!"]") ++ rawText l) = openTag t ++ rawText l := by simp [openTag]
              rw [e2] at hpre
              exact (List.prefix_append_right_inj _).1 hpre
            -- the rest begins with the end mark
            cases l with
            | nil => simp [rawText, closeTag] at hpre2
            | cons q l =>
              rw [rawText_cons] at hpre2
              have hq := h q (by simp)
              cases q with
              | nl => exact absurd (List.cons_prefix_cons.1 hpre2).1 (by decide)
              | note s =>
                have : closeTag t <+: '/' :: ('*' :: s ++ c!"*/" ++ rawText l) := by simpa [Piece.raw] using hpre2
                exact absurd (List.cons_prefix_cons.1 this).1 (by decide)
              | op v =>
                have h3 : bracketed ('/' :: t) <+: bracketed v ++ rawText l := hpre2
                have h4 := bracketed_prefix (by simp only [List.mem_cons, not_or]; exact ⟨by decide, (format_bracket hl ht).2.1⟩) (format_bracket hl (show v ∈ formats ls from hq)).2.1 h3
                obtain ⟨c, r, e, hc⟩ := format_head' (show v ∈ formats ls from hq)
                rw [e] at h4
                injection h4 with h4
                exact hc h4.symm
              | cl v =>
                have h3 : bracketed ('/' :: t) <+: bracketed ('/' :: v) ++ rawText l := by
                  simpa [bracketed, Piece.raw, closeTag] using hpre2
                have h4 := bracketed_prefix (by simp only [List.mem_cons, not_or]; exact ⟨by decide, (format_bracket hl ht).2.1⟩)
                  (by simp only [List.mem_cons, not_or]; exact ⟨by decide, (format_bracket hl (show v ∈ formats ls from hq)).2.1⟩) h3
                injection h4 with _ h4
                subst h4
                exact hh ⟨l, rfl⟩
              | ch c =>
                have h3 := List.cons_prefix_cons.1 hpre2
                have hc : c = '[' := h3.1.symm
                subst hc
                have h4 : '/' :: (t ++ c!"]") <+: rawText l := h3.2
                cases l with
                | nil => simp [rawText] at h4
                | cons y l =>
                  obtain ⟨d, hd, hd2⟩ := follow_bracket (Neighbours.tail hn).1
                  subst hd
                  have := (List.cons_prefix_cons.1 h4).1
                  subst this
                  exact hd2 (by decide)
          | ch c =>
            by_cases hc : c = '['
            · subst hc
              refine ⟨k, .miss (s := rawText l) ?_ hk⟩
              rw [e0]
              obtain ⟨x, r, e, hx⟩ := format_head ht
              rw [e]
              refine not_prefix2 (p := r ++ c!"]" ++ closeTag (x :: r)) ?_
              intro s hs
              cases l with
              | nil => cases hs
              | cons y l =>
                obtain ⟨d, hd, hd2⟩ := follow_bracket hn.1
                subst hd
                have hs : d = x := by injection hs
                subst hs
                rcases hx with rfl | rfl | rfl <;> exact hd2 (by decide)
            · exact skip (a := [c]) (by simp only [List.mem_singleton]; exact fun e => hc e.symm)
  exact hk.replace (by simp [openTag])

/-! ### One formatting in one line -/

/-- No empty formatting. -/
def NoPair (t : Str) (l : List Piece) : Prop := ¬ [Piece.op t, Piece.cl t] <:+: l

theorem NoPair.tail {t : Str} {p : Piece} {l : List Piece} (h : NoPair t (p :: l)) : NoPair t l := fun hi => h (hi.trans (List.infix_cons (List.infix_refl l)))

theorem NoPair.head {t : Str} {l : List Piece} (r : List Piece) (h : NoPair t l) : l ≠ .op t :: .cl t :: r := by
  rintro rfl
  exact h ⟨[], r, rfl⟩

theorem dropPairs_ends {t : Str} {l : List Piece} (h : NoPair t l) (k : Nat) :
    ∃ m k' b, dropPairs t (l ++ List.replicate k (.cl t)) = m ++ List.replicate k' (.cl t) ∧ l = m ++ b ∧ (b = [] ∨ b = [.op t]) := by
  induction l with
  | nil =>
    refine ⟨[], k, [], ?_, rfl, .inl rfl⟩
    rw [List.nil_append]
    show _ = List.replicate k (Piece.cl t)
    induction k with
    | zero => rfl
    | succ k ih => rw [List.replicate_succ, dropPairs_cl, ih]
  | cons x l ih =>
    by_cases hx : x = .op t ∧ l = [] ∧ k ≠ 0
    · obtain ⟨rfl, rfl, hk⟩ := hx
      obtain ⟨k, rfl⟩ := Nat.exists_eq_succ_of_ne_zero hk
      refine ⟨[], k, [.op t], ?_, rfl, .inr rfl⟩
      obtain ⟨m, k', b, e, hl, _⟩ := ih h.tail
      show dropPairs t (.op t :: .cl t :: List.replicate k (.cl t)) = _
      rw [dropPairs_hit]
      rw [List.nil_append]
      clear ih e hl hk
      induction k with
      | zero => rfl
      | succ k ih => rw [List.replicate_succ, dropPairs_cl, ih]
    · obtain ⟨m, k', b, e, hl, hb⟩ := ih h.tail
      refine ⟨x :: m, k', b, ?_, by rw [hl, List.cons_append], hb⟩
      rw [List.cons_append, dropPairs_miss, e, List.cons_append]
      intro r e
      injection e with e1 e2
      cases l with
      | nil =>
        cases k with
        | zero => cases e2
        | succ k => exact hx ⟨e1, rfl, by simp⟩
      | cons y l =>
        injection e2 with e2 e3
        subst e1 e2
        exact NoPair.head l h rfl

theorem dropPairs_shape {t : Str} {l : List Piece} (h : NoPair t l) (p k : Nat) :
    ∃ p' m k' f b, dropPairs t (List.replicate p (.op t) ++ (l ++ List.replicate k (.cl t))) = List.replicate p' (.op t) ++ (m ++ List.replicate k' (.cl t)) ∧
      l = f ++ m ++ b ∧ (f = [] ∨ f = [.cl t]) ∧ (b = [] ∨ b = [.op t]) := by
  induction p with
  | zero =>
    obtain ⟨m, k', b, e, hl, hb⟩ := dropPairs_ends h k
    exact ⟨0, m, k', [], b, e, hl, .inl rfl, hb⟩
  | succ p ih =>
    cases p with
    | zero =>
      show ∃ p' m k' f b, dropPairs t (.op t :: (l ++ List.replicate k (.cl t))) = _ ∧ _
      cases l with
      | nil =>
        cases k with
        | zero => exact ⟨1, [], 0, [], [], rfl, rfl, .inl rfl, .inl rfl⟩
        | succ k =>
          obtain ⟨m, k', b, e, hl, hb⟩ := dropPairs_ends h k
          refine ⟨0, m, k', [], b, ?_, hl, .inl rfl, hb⟩
          show dropPairs t (.op t :: .cl t :: List.replicate k (.cl t)) = _
          rw [dropPairs_hit]
          exact e
      | cons x l =>
        by_cases hx : x = .cl t
        · subst hx
          obtain ⟨m, k', b, e, hl, hb⟩ := dropPairs_ends h.tail k
          refine ⟨0, m, k', [.cl t], b, ?_, by rw [hl]; rfl, .inr rfl, hb⟩
          rw [List.cons_append, dropPairs_hit]
          exact e
        · obtain ⟨m, k', b, e, hl, hb⟩ := dropPairs_ends h k
          refine ⟨1, m, k', [], b, ?_, hl, .inl rfl, hb⟩
          rw [dropPairs_miss, e]
          · rfl
          · intro r e
            injection e with e1 e2
            injection e2 with e2 e3
            exact hx e2
    | succ p =>
      obtain ⟨p', m, k', f, b, e, hl, hf, hb⟩ := ih
      refine ⟨p' + 1, m, k', f, b, ?_, hl, hf, hb⟩
      rw [List.replicate_succ, List.cons_append, dropPairs_miss, e]
      · rfl
      · intro r e
        injection e with e1 e2
        rw [List.replicate_succ, List.cons_append] at e2
        cases e2

theorem closeLoop_done {op cl l : Str} (f : Nat) (o : Bool) (h : ¬ Str.count l op > Str.count l cl) : closeLoop op cl f l o = (l, o) := by
  cases f with
  | zero => rfl
  | succ f => unfold closeLoop; rw [if_neg h]

theorem openLoop_done {op cl l : Str} (f : Nat) (h : ¬ Str.count l cl > Str.count l op) : openLoop op cl f l = l := by
  cases f with
  | zero => rfl
  | succ f => unfold openLoop; rw [if_neg h]

theorem Neighbours.op {t : Str} {l : List Piece} (h : Neighbours l) : Neighbours (.op t :: l) := by
  cases l with
  | nil => trivial
  | cons p l => exact ⟨rfl, h⟩

theorem mayFollow_cl {x : Piece} (hx : x ≠ .ch '[') (t : Str) : mayFollow x (.cl t) = true := by
  cases x with
  | ch c =>
    have hc : c ≠ '[' := fun e => hx (by rw [e])
    unfold mayFollow
    split <;> simp_all
  | _ => rfl

theorem Neighbours.snoc {x : Piece} {l : List Piece} (h : Neighbours l) (hx : ∀ y, l.getLast? = some y → mayFollow y x = true) : Neighbours (l ++ [x]) := by
  induction l with
  | nil => trivial
  | cons p l ih =>
    cases l with
    | nil => exact ⟨hx p rfl, trivial⟩
    | cons q l =>
      refine ⟨h.1, ih h.2 ?_⟩
      intro y hy
      exact hx y (by rw [List.getLast?_cons_cons]; exact hy)

theorem Neighbours.close {t : Str} {l : List Piece} (h : Neighbours l) (hl : l.getLast? ≠ some (.ch '[')) : Neighbours (l ++ [.cl t]) := by
  refine Neighbours.snoc h ?_
  intro y hy
  exact mayFollow_cl (fun e => hl (by rw [hy, e])) t

theorem closeLoop_pieces (hl : ∀ l ∈ ls, LangCode l) {t : Str} (ht : t ∈ formats ls) (k : Nat) : ∀ (l : List Piece) (f : Nat) (o : Bool),
    (∀ p ∈ l, p.Ok ls) → Neighbours l → (k ≠ 0 → l.getLast? ≠ some (.ch '[')) → l.count (.op t) - l.count (.cl t) = k → k ≤ f →
    closeLoop (openTag t) (closeTag t) f (rawText l) o = (rawText (l ++ List.replicate k (.cl t)), o || decide (k ≠ 0)) := by
  induction k with
  | zero =>
    intro l f o h hn hb hc hf
    rw [closeLoop_done]
    · simp
    · rw [count_open hl ht h hn, count_close hl ht h hn]
      omega
  | succ k ih =>
    intro l f o h hn hb hc hf
    obtain ⟨f, rfl⟩ : ∃ f', f = f' + 1 := ⟨f - 1, by omega⟩
    unfold closeLoop
    rw [if_pos (by rw [count_open hl ht h hn, count_close hl ht h hn]; omega)]
    have e : rawText l ++ closeTag t = rawText (l ++ [.cl t]) := by
      rw [rawText_append, closeTag_eq]
      simp [rawText]
    rw [e, ih (l ++ [Piece.cl t]) f true]
    · rw [List.append_assoc]
      show (rawText (l ++ List.replicate (k + 1) (Piece.cl t)), _) = _
      simp
    · intro p hp
      rcases List.mem_append.1 hp with hp | hp
      · exact h p hp
      · rw [List.mem_singleton.1 hp]; exact ht
    · exact Neighbours.close hn (hb (by simp))
    · simp
    · rw [List.count_append, List.count_append]
      simp
      omega
    · omega

theorem openLoop_pieces (hl : ∀ l ∈ ls, LangCode l) {t : Str} (ht : t ∈ formats ls) (k : Nat) : ∀ (l : List Piece) (f : Nat),
    (∀ p ∈ l, p.Ok ls) → Neighbours l → l.count (.cl t) - l.count (.op t) = k → k ≤ f →
    openLoop (openTag t) (closeTag t) f (rawText l) = rawText (List.replicate k (.op t) ++ l) := by
  induction k with
  | zero =>
    intro l f h hn hc hf
    rw [openLoop_done]
    · simp
    · rw [count_open hl ht h hn, count_close hl ht h hn]
      omega
  | succ k ih =>
    intro l f h hn hc hf
    obtain ⟨f, rfl⟩ : ∃ f', f = f' + 1 := ⟨f - 1, by omega⟩
    unfold openLoop
    rw [if_pos (by rw [count_open hl ht h hn, count_close hl ht h hn]; omega)]
    rw [show openTag t ++ rawText l = rawText (.op t :: l) from rfl, ih (.op t :: l) f]
    · congr 1
      rw [List.replicate_succ', List.append_assoc]
      rfl
    · intro p hp
      rcases List.mem_cons.1 hp with hp | hp
      · rw [hp]; exact ht
      · exact h p hp
    · exact Neighbours.op hn
    · rw [List.count_cons_self, List.count_cons_of_ne (by simp)]
      omega
    · omega

theorem Neighbours.ops (t : Str) (k : Nat) {l : List Piece} (h : Neighbours l) : Neighbours (List.replicate k (.op t) ++ l) := by
  induction k with
  | zero => exact h
  | succ k ih => rw [List.replicate_succ, List.cons_append]; exact Neighbours.op ih

theorem Neighbours.cls (t : Str) (k : Nat) {l : List Piece} (h : Neighbours l) (hl : l.getLast? ≠ some (.ch '[')) : Neighbours (l ++ List.replicate k (.cl t)) := by
  induction k with
  | zero => simpa using h
  | succ k ih =>
    rw [List.replicate_succ', ← List.append_assoc]
    refine Neighbours.close ih ?_
    cases k with
    | zero => simpa using hl
    | succ k => rw [List.replicate_succ', ← List.append_assoc]; simp

theorem last_cls (t : Str) (k : Nat) {l : List Piece} (hl : l.getLast? ≠ some (.ch '[')) : (l ++ List.replicate k (Piece.cl t)).getLast? ≠ some (.ch '[') := by
  cases k with
  | zero => simpa using hl
  | succ k => rw [List.replicate_succ', ← List.append_assoc]; simp

theorem last_ops (t : Str) (k : Nat) {l : List Piece} (hl : l.getLast? ≠ some (.ch '[')) : (List.replicate k (Piece.op t) ++ l).getLast? ≠ some (.ch '[') := by
  cases l with
  | nil =>
    cases k with
    | zero => simp
    | succ k => rw [List.replicate_succ']; simp
  | cons x l => 
    rw [List.getLast?_append]
    intro e
    rw [List.getLast?_cons] at e hl
    exact hl e

theorem ok_ops {t : Str} (ht : t ∈ formats ls) (k : Nat) {l : List Piece} (h : ∀ p ∈ l, p.Ok ls) : ∀ p ∈ List.replicate k (.op t) ++ l, p.Ok ls := by
  intro p hp
  rcases List.mem_append.1 hp with hp | hp
  · rw [(List.mem_replicate.1 hp).2]; exact ht
  · exact h p hp

theorem ok_cls {t : Str} (ht : t ∈ formats ls) (k : Nat) {l : List Piece} (h : ∀ p ∈ l, p.Ok ls) : ∀ p ∈ l ++ List.replicate k (.cl t), p.Ok ls := by
  intro p hp
  rcases List.mem_append.1 hp with hp | hp
  · exact h p hp
  · rw [(List.mem_replicate.1 hp).2]; exact ht

theorem rawText_length (l : List Piece) : l.length ≤ (rawText l).length := by
  induction l with
  | nil => exact Nat.zero_le _
  | cons p l ih =>
    rw [rawText_cons, List.length_cons, List.length_append]
    have := List.length_pos_iff.2 (raw_ne_nil p)
    omega

/-- The beginnings put before a line. -/
def padOps (t : Str) (o : Bool) (l : List Piece) : Nat := max o.toNat (l.count (.cl t) - l.count (.op t))

/-- The ends put after a line. -/
def padCls (t : Str) (o : Bool) (l : List Piece) : Nat := l.count (.op t) + o.toNat - l.count (.cl t)

/-- The line with the formatting `t` balanced; `o`: it is open before. -/
def stepLine (t : Str) (o : Bool) (l : List Piece) : List Piece :=
  dropPairs t (List.replicate (padOps t o l) (.op t) ++ (l ++ List.replicate (padCls t o l) (.cl t)))

/-- Whether the formatting `t` is open after a line. -/
def openLater (t : Str) (o : Bool) (l : List Piece) : Bool := decide (l.count (.cl t) < l.count (.op t) + o.toNat)

/-- The balancing of one formatting in one line. -/
theorem balanceTag_pieces (hl : ∀ l ∈ ls, LangCode l) {t : Str} (ht : t ∈ formats ls) {l : List Piece} (h : ∀ p ∈ l, p.Ok ls) (hn : Neighbours l)
    (o : Bool) (hb : padCls t o l ≠ 0 → l.getLast? ≠ some (.ch '[')) (hg : o = true → ¬ c!"&gt; " <+: rawText l) :
    balanceTag t o (rawText l) = (rawText (stepLine t o l), openLater t o l) := by
  obtain ⟨l1, hl1⟩ : ∃ l1, l1 = List.replicate o.toNat (Piece.op t) ++ l := ⟨_, rfl⟩
  have e1 : (if o then (if Str.startsWith (rawText l) c!"&gt; " then c!"&gt; " ++ openTag t ++ Str.lstripBy (fun c => decide (c ∈ c!"&gt; ")) (rawText l) else openTag t ++ rawText l)
      else rawText l) = rawText l1 := by
    rw [hl1]
    cases o with
    | false => rfl
    | true =>
      have : Str.startsWith (rawText l) c!"&gt; " = false := by
        rw [Bool.eq_false_iff]
        intro hs
        exact hg rfl (List.isPrefixOf_iff_prefix.1 hs)
      rw [if_pos rfl, this, if_neg (by simp)]
      rfl
  have h1 : ∀ p ∈ l1, p.Ok ls := by rw [hl1]; exact ok_ops ht _ h
  have hn1 : Neighbours l1 := by rw [hl1]; exact Neighbours.ops _ _ hn
  have hb1 : padCls t o l ≠ 0 → l1.getLast? ≠ some (.ch '[') := fun hk => by rw [hl1]; exact last_ops _ _ (hb hk)
  have c1 : l1.count (.op t) = l.count (.op t) + o.toNat := by rw [hl1, List.count_append, List.count_replicate_self]; omega
  have c2 : l1.count (.cl t) = l.count (.cl t) := by
    rw [hl1, List.count_append, List.count_replicate]
    simp
  have f1 : l1.count (.op t) ≤ (rawText l1).length := Nat.le_trans List.count_le_length (rawText_length l1)
  have e2 := closeLoop_pieces hl ht (padCls t o l) l1 ((rawText l1).length + 1) false h1 hn1 hb1 (by unfold padCls; omega) (by unfold padCls; omega)
  obtain ⟨l2, hl2⟩ : ∃ l2, l2 = l1 ++ List.replicate (padCls t o l) (Piece.cl t) := ⟨_, rfl⟩
  rw [← hl2] at e2
  have h2 : ∀ p ∈ l2, p.Ok ls := by rw [hl2]; exact ok_cls ht _ h1
  have hn2 : Neighbours l2 := by
    rw [hl2]
    by_cases hk : padCls t o l = 0
    · rw [hk, List.replicate_zero, List.append_nil]; exact hn1
    · exact Neighbours.cls _ _ hn1 (hb1 hk)
  have c3 : l2.count (.op t) = l.count (.op t) + o.toNat := by
    rw [hl2, List.count_append, List.count_replicate, c1]
    simp
  have c4 : l2.count (.cl t) = l.count (.cl t) + padCls t o l := by rw [hl2, List.count_append, List.count_replicate_self, c2]
  have f2 : l2.count (.cl t) ≤ (rawText l2).length := Nat.le_trans List.count_le_length (rawText_length l2)
  have e3 := openLoop_pieces hl ht (l.count (.cl t) - (l.count (.op t) + o.toNat)) l2 ((rawText l2).length + 1) h2 hn2
    (by rw [c3, c4]; unfold padCls; omega) (by omega)
  have e4 : (false || decide (padCls t o l ≠ 0)) = openLater t o l := by
    unfold padCls openLater
    rw [Bool.false_or]
    apply decide_eq_decide.2
    omega
  have e5 : List.replicate (l.count (.cl t) - (l.count (.op t) + o.toNat)) (Piece.op t) ++ l2 =
      List.replicate (padOps t o l) (.op t) ++ (l ++ List.replicate (padCls t o l) (.cl t)) := by
    rw [hl2, hl1, List.append_assoc, ← List.append_assoc, List.replicate_append_replicate]
    congr 2
    unfold padOps
    omega
  unfold balanceTag
  simp only [e1, e2, e3, e4]
  rw [e5, replace_pairs hl ht]
  · rfl
  · rw [← e5]; exact ok_ops ht _ h2
  · rw [← e5]; exact Neighbours.ops _ _ hn2

end Verif
