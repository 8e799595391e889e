/-
Formattings that reach over line breaks: what the writer makes of them.
-/
import Verif.Spec.Flow
import Verif.Lemmas.Balance3

namespace Verif
open Spec Re

variable {ls : List Str}

/-! ### Lines -/

/-- What comes first takes the open formattings from one state to another, whatever follows. -/
theorem openAfter_first {st : List Str} {p : Piece} {r : List Piece} {x : List Str} (h : openAfter st (p :: r) = some x) :
    ∃ st1, ∀ r', openAfter st (p :: r') = openAfter st1 r' := by
  cases p with
  | op t =>
    simp only [openAfter] at h
    split at h
    · cases h
    · rename_i hc
      exact ⟨t :: st, fun r' => by simp only [openAfter]; rw [if_neg hc]⟩
  | cl t =>
    cases st with
    | nil => simp [openAfter] at h
    | cons u st =>
      simp only [openAfter] at h
      split at h
      · rename_i e
        exact ⟨st, fun r' => by simp only [openAfter]; rw [if_pos e]⟩
      · cases h
  | ch c => exact ⟨st, fun r' => by simp only [openAfter]⟩
  | note s => exact ⟨st, fun r' => by simp only [openAfter]⟩
  | nl => exact ⟨st, fun r' => by simp only [openAfter]⟩

/-- The lines of a text, with the formattings open at the beginning of the first; at most one is open at the end of a line. -/
def FlowLines : List Str → List (List Piece) → Prop
  | _, [] => True
  | st, [l] => openAfter st l = some []
  | st, l :: m :: r => l.getLast? ≠ some (.ch '[') ∧ (∃ st', openAfter st l = some st' ∧ (st' = [] ∨ ∃ t, st' = [t] ∧ ¬ (c!"&gt; ").map Piece.ch <+: m) ∧ FlowLines st' (m :: r))

theorem pieceLines_empty {ps : List Piece} {m : List Piece} {r : List (List Piece)} (h : pieceLines ps = [] :: m :: r) : ∃ qs, ps = .nl :: qs := by
  cases ps with
  | nil => cases h
  | cons p ps =>
    by_cases hp : p = .nl
    · exact ⟨ps, by rw [hp]⟩
    · obtain ⟨l, r', hl, e⟩ := pieceLines_cons hp ps
      rw [e] at h
      cases h

theorem flowLines_of {ps : List Piece} : ∀ {st : List Str}, Neighbours ps → openAfter st ps = some [] →
    (∀ a b, ps = a ++ .nl :: b → openLeft st a = [] ∨ ∃ t, openLeft st a = [t] ∧ ¬ (c!"&gt; ").map Piece.ch <+: b) → FlowLines st (pieceLines ps) := by
  induction ps with
  | nil =>
    intro st _ h _
    exact h
  | cons p ps ih =>
    intro st hn h hb
    by_cases hp : p = .nl
    · subst hp
      have ih' := ih (st := st) (Neighbours.tail hn) h (fun a b e => hb (.nl :: a) b (by rw [e]; rfl))
      rw [pieceLines_nl]
      cases hl : pieceLines ps with
      | nil => exact absurd hl (pieceLines_ne ps)
      | cons m r =>
        rw [hl] at ih'
        refine ⟨by simp, st, rfl, ?_, ih'⟩
        rcases hb [] ps rfl with h1 | ⟨t, h1, h2⟩
        · exact .inl h1
        · exact .inr ⟨t, h1, fun h3 => h2 (h3.trans (pieceLines_head ps m r hl))⟩
    · obtain ⟨st1, h1⟩ := openAfter_first h
      obtain ⟨l, r, hl, e⟩ := pieceLines_cons hp ps
      have ih' := ih (st := st1) (Neighbours.tail hn) (by rw [← h1]; exact h) (fun a b e => by
        have := hb (p :: a) b (by rw [e]; rfl)
        unfold openLeft at this ⊢
        rw [← h1]; exact this)
      rw [hl] at ih'
      rw [e]
      cases r with
      | nil =>
        show openAfter st (p :: l) = some []
        rw [h1]
        exact ih'
      | cons m r =>
        obtain ⟨g0, st', g1, g2, g3⟩ := ih'
        have g : (p :: l).getLast? ≠ some (.ch '[') := by
          cases l with
          | nil =>
            obtain ⟨qs, e2⟩ := pieceLines_empty hl
            rw [e2] at hn
            intro e3
            simp only [List.getLast?_singleton, Option.some.injEq] at e3
            rw [e3] at hn
            exact absurd hn.1 (by decide)
          | cons x l => rw [List.getLast?_cons_cons]; exact g0
        exact ⟨g, st', by rw [h1]; exact g1, g2, g3⟩

/-! ### One line -/

/-- At most one formatting. -/
def Few (st : List Str) : Prop := st = [] ∨ ∃ t, st = [t]

/-- Those of the formattings that are not in the list. -/
def rest (ts st : List Str) : List Str := st.filter (fun t => decide (t ∉ ts))

theorem rest_cons_self {t : Str} {ts st : List Str} (h : Few st) (ht : t ∈ st) : rest (t :: ts) st = [] := by
  rcases h with rfl | ⟨u, rfl⟩
  · rfl
  · rw [List.mem_singleton.1 ht]
    simp [rest]

theorem rest_cons_other {t : Str} {ts st : List Str} (ht : t ∉ st) : rest (t :: ts) st = rest ts st := by
  unfold rest
  apply List.filter_congr
  intro u hu
  have : u ≠ t := fun e => ht (e ▸ hu)
  simp [this]

theorem rest_self {t : Str} {ts st : List Str} (h : Few st) (ht : t ∈ st) (hn : t ∉ ts) : rest ts st = st := by
  rcases h with rfl | ⟨u, rfl⟩
  · rfl
  · rw [List.mem_singleton] at ht
    subst ht
    simp [rest, hn]

theorem few_count {st : List Str} (h : Few st) (t : Str) : st.count t = (decide (t ∈ st)).toNat := by
  rcases h with rfl | ⟨u, rfl⟩
  · rfl
  · by_cases e : u = t
    · subst e; simp
    · have : ¬ t = u := fun e' => e e'.symm
      simp [e, this]

/-- The line, with the formattings begun and ended that have been dealt with. -/
def flowLine (ts st st' : List Str) (l : List Piece) : List Piece := (rest ts st).map Piece.op ++ l ++ (rest ts st').map Piece.cl

theorem flowLine_count {ts st st' : List Str} {l : List Piece} {t : Str} (ht : t ∈ ts) :
    (flowLine ts st st' l).count (.op t) = l.count (.op t) ∧ (flowLine ts st st' l).count (.cl t) = l.count (.cl t) := by
  have h1 : ∀ s : List Str, ((rest ts s).map Piece.op).count (.op t) = 0 := by
    intro s
    rw [List.count_eq_zero]
    simp [rest, ht]
  have h2 : ∀ s : List Str, ((rest ts s).map Piece.cl).count (.cl t) = 0 := by
    intro s
    rw [List.count_eq_zero]
    simp [rest, ht]
  have h3 : ∀ s : List Str, ((rest ts s).map Piece.op).count (.cl t) = 0 := by
    intro s
    rw [List.count_eq_zero]
    simp
  have h4 : ∀ s : List Str, ((rest ts s).map Piece.cl).count (.op t) = 0 := by
    intro s
    rw [List.count_eq_zero]
    simp
  unfold flowLine
  simp only [List.count_append, h1, h2, h3, h4]
  omega

theorem rest_sub (ts st : List Str) (h : Few st) : rest ts st = [] ∨ rest ts st = st := by
  rcases h with rfl | ⟨u, rfl⟩
  · exact .inl rfl
  · by_cases hu : u ∈ ts
    · left; simp [rest, hu]
    · right; simp [rest, hu]

theorem rest_few {ts st : List Str} (h : Few st) : Few (rest ts st) := by
  rcases rest_sub ts st h with e | e
  · exact .inl e
  · rw [e]; exact h

/-- Dealing with fewer formattings gives a part of the line. -/
theorem flowLine_infix {ts st st' : List Str} (h : Few st) (h' : Few st') (l : List Piece) : flowLine ts st st' l <:+: st.map Piece.op ++ l ++ st'.map Piece.cl := by
  unfold flowLine
  have e1 : ∃ a, st.map Piece.op = a ++ (rest ts st).map Piece.op := by
    rcases rest_sub ts st h with e | e
    · rw [e]; exact ⟨st.map Piece.op, by simp⟩
    · rw [e]; exact ⟨[], rfl⟩
  have e2 : ∃ b, st'.map Piece.cl = (rest ts st').map Piece.cl ++ b := by
    rcases rest_sub ts st' h' with e | e
    · rw [e]; exact ⟨st'.map Piece.cl, by simp⟩
    · rw [e]; exact ⟨[], by simp⟩
  obtain ⟨a, e1⟩ := e1
  obtain ⟨b, e2⟩ := e2
  rw [e1, e2]
  exact ⟨a, b, by simp [List.append_assoc]⟩

theorem dropPairs_id {t : Str} {l : List Piece} (h : ¬ [Piece.op t, .cl t] <:+: l) : dropPairs t l = l := by
  induction l with
  | nil => rfl
  | cons p l ih =>
    rw [dropPairs_miss, ih (fun hi => h (hi.trans (List.infix_cons (List.infix_refl _))))]
    intro r' e
    exact h ⟨[], r', by rw [e]; rfl⟩

/-- A line whose formattings begin or end in other lines. -/
structure FlowLine (ls st st' : List Str) (l : List Piece) : Prop where
  ok : ∀ p ∈ l, p.Ok ls
  neighbours : Neighbours l
  one : Piece.nl ∉ l
  after : openAfter st l = some st'
  few : Few st
  few' : Few st'
  known : ∀ t ∈ st, t ∈ formats ls
  known' : ∀ t ∈ st', t ∈ formats ls
  last : st' ≠ [] → l.getLast? ≠ some (.ch '[')
  plain : st ≠ [] → ¬ (c!"&gt; ").map Piece.ch <+: l
  used : ∀ t, ¬ [Piece.op t, .cl t] <:+: st.map Piece.op ++ l ++ st'.map Piece.cl

theorem map_ch_prefix {w : Str} {l : List Piece} {s : List Str} (h : w.map Piece.ch <+: l ++ s.map Piece.cl) : w.map Piece.ch <+: l := by
  cases s with
  | nil => simpa using h
  | cons u s => exact prefix_barrier (x := Piece.cl u) (by simp) h

theorem FlowLine.part {st st' : List Str} {l : List Piece} (h : FlowLine ls st st' l) (ts : List Str) :
    (∀ p ∈ flowLine ts st st' l, p.Ok ls) ∧ Neighbours (flowLine ts st st' l) := by
  constructor
  · intro p hp
    unfold flowLine at hp
    simp only [List.mem_append, List.mem_map] at hp
    rcases hp with (⟨t, ht, rfl⟩ | hp) | ⟨t, ht, rfl⟩
    · exact h.known t (List.mem_filter.1 ht).1
    · exact h.ok p hp
    · exact h.known' t (List.mem_filter.1 ht).1
  · unfold flowLine
    have h1 : Neighbours (l ++ (rest ts st').map Piece.cl) := by
      rcases rest_few (ts := ts) h.few' with e | ⟨u, e⟩
      · rw [e]; simpa using h.neighbours
      · rw [e]
        refine Neighbours.close h.neighbours (h.last ?_)
        intro e'
        rw [e'] at e
        simp [rest] at e
    rw [List.append_assoc]
    rcases rest_few (ts := ts) h.few with e | ⟨u, e⟩
    · rw [e]; exact h1
    · rw [e]; exact Neighbours.op h1

theorem balanceLine_flow (hl : ∀ l ∈ ls, LangCode l) {st st' : List Str} {l : List Piece} (h : FlowLine ls st st' l) {ts : List Str} (hd : ts.Nodup)
    (ht : ∀ t ∈ ts, t ∈ formats ls) :
    balanceLine ts (ts.map (fun t => decide (t ∈ st))) (rawText (flowLine ts st st' l)) = (rawText (flowLine [] st st' l), ts.map (fun t => decide (t ∈ st'))) := by
  induction ts with
  | nil => rfl
  | cons t ts ih =>
    have hc := openAfter_count t l st st' h.after
    rw [few_count h.few, few_count h.few'] at hc
    obtain ⟨c1, c2⟩ := flowLine_count (ts := t :: ts) (st := st) (st' := st') (l := l) (t := t) (by simp)
    have k1 : padOps t (decide (t ∈ st)) (flowLine (t :: ts) st st' l) = (decide (t ∈ st)).toNat := by
      unfold padOps
      rw [c1, c2]
      omega
    have k2 : padCls t (decide (t ∈ st)) (flowLine (t :: ts) st st' l) = (decide (t ∈ st')).toNat := by
      unfold padCls
      rw [c1, c2]
      omega
    have hnt : t ∉ ts := (List.nodup_cons.1 hd).1
    have e1 : List.replicate (decide (t ∈ st)).toNat (Piece.op t) ++ (flowLine (t :: ts) st st' l ++ List.replicate (decide (t ∈ st')).toNat (Piece.cl t)) = flowLine ts st st' l := by
      unfold flowLine
      have a1 : List.replicate (decide (t ∈ st)).toNat (Piece.op t) ++ (rest (t :: ts) st).map Piece.op = (rest ts st).map Piece.op := by
        by_cases hm : t ∈ st
        · rw [rest_cons_self h.few hm, rest_self h.few hm hnt]
          rcases h.few with e | ⟨u, e⟩
          · rw [e] at hm; cases hm
          · rw [e] at hm ⊢
            rw [List.mem_singleton.1 hm]
            simp
        · rw [rest_cons_other hm]
          simp [hm]
      have a2 : (rest (t :: ts) st').map Piece.cl ++ List.replicate (decide (t ∈ st')).toNat (Piece.cl t) = (rest ts st').map Piece.cl := by
        by_cases hm : t ∈ st'
        · rw [rest_cons_self h.few' hm, rest_self h.few' hm hnt]
          rcases h.few' with e | ⟨u, e⟩
          · rw [e] at hm; cases hm
          · rw [e] at hm ⊢
            rw [List.mem_singleton.1 hm]
            simp
        · rw [rest_cons_other hm]
          simp [hm]
      rw [← a1, ← a2]
      simp only [List.append_assoc]
    have e2 : stepLine t (decide (t ∈ st)) (flowLine (t :: ts) st st' l) = flowLine ts st st' l := by
      unfold stepLine
      rw [k1, k2, e1]
      exact dropPairs_id (fun hi => h.used t (hi.trans (flowLine_infix h.few h.few' l)))
    have e3 : openLater t (decide (t ∈ st)) (flowLine (t :: ts) st st' l) = decide (t ∈ st') := by
      unfold openLater
      rw [c1, c2]
      cases hx : decide (t ∈ st') <;> rw [hx] at hc <;> simp at hc ⊢ <;> omega
    have hb : padCls t (decide (t ∈ st)) (flowLine (t :: ts) st st' l) ≠ 0 → (flowLine (t :: ts) st st' l).getLast? ≠ some (.ch '[') := by
      rw [k2]
      intro hk
      have hm : t ∈ st' := by
        by_cases hm : t ∈ st'
        · exact hm
        · simp [hm] at hk
      unfold flowLine
      rw [rest_cons_self h.few' hm]
      have := h.last (fun e => by rw [e] at hm; cases hm)
      simp only [List.map_nil, List.append_nil]
      rcases rest_few (ts := t :: ts) h.few with e | ⟨u, e⟩
      · rw [e]; exact this
      · rw [e]
        exact last_ops u 1 this
    have hg : decide (t ∈ st) = true → ¬ c!"&gt; " <+: rawText (flowLine (t :: ts) st st' l) := by
      intro hm hp
      have hm := of_decide_eq_true hm
      unfold flowLine at hp
      rw [rest_cons_self h.few hm] at hp
      have h1 := gt_prefix (by decide) hp
      exact h.plain (fun e => by rw [e] at hm; cases hm) (map_ch_prefix h1)
    obtain ⟨ho, hn⟩ := h.part (t :: ts)
    simp only [List.map_cons, balanceLine]
    rw [balanceTag_pieces hl (ht t (by simp)) ho hn _ hb hg]
    simp only [e2, e3]
    rw [ih (List.nodup_cons.1 hd).2 (fun u hu => ht u (by simp [hu]))]

/-! ### The text -/

theorem openAfter_known {st st' : List Str} {l : List Piece} (h : openAfter st l = some st') (hs : ∀ t ∈ st, t ∈ formats ls) (ho : ∀ p ∈ l, p.Ok ls) :
    ∀ t ∈ st', t ∈ formats ls := by
  induction l generalizing st with
  | nil =>
    cases h
    exact hs
  | cons p l ih =>
    have ho' : ∀ p ∈ l, p.Ok ls := fun q hq => ho q (by simp [hq])
    cases p with
    | op t =>
      simp only [openAfter] at h
      split at h
      · cases h
      · refine ih h ?_ ho'
        intro u hu
        rcases List.mem_cons.1 hu with rfl | hu
        · exact ho (.op u) (by simp)
        · exact hs u hu
    | cl t =>
      cases st with
      | nil => simp [openAfter] at h
      | cons u st =>
        simp only [openAfter] at h
        split at h
        · exact ih h (fun v hv => hs v (by simp [hv])) ho'
        · cases h
    | ch c => exact ih (by simpa only [openAfter] using h) hs ho'
    | note s => exact ih (by simpa only [openAfter] using h) hs ho'
    | nl => exact ih (by simpa only [openAfter] using h) hs ho'

theorem few_reverse {st : List Str} (h : Few st) : st.reverse = st := by
  rcases h with rfl | ⟨t, rfl⟩ <;> rfl

theorem rest_nil (st : List Str) : rest [] st = st := by
  unfold rest
  simp

theorem rest_all {st ts : List Str} (h : ∀ t ∈ st, t ∈ ts) : rest ts st = [] := by
  unfold rest
  rw [List.filter_eq_nil_iff]
  intro t ht
  simp [h t ht]

theorem balanceLines_flow (hl : ∀ l ∈ ls, LangCode l) (hf : (formats ls).Nodup) {Ls : List (List Piece)} : ∀ {st : List Str}, Few st → (∀ t ∈ st, t ∈ formats ls) →
    FlowLines st Ls → (∀ l ∈ Ls, (∀ p ∈ l, p.Ok ls) ∧ Neighbours l ∧ Piece.nl ∉ l) →
    (∀ l ∈ spreadLines st Ls, ∀ t, ¬ [Piece.op t, .cl t] <:+: l) → (st ≠ [] → ∀ l ∈ Ls.head?, ¬ (c!"&gt; ").map Piece.ch <+: l) →
    balanceLines (formats ls) ((formats ls).map (fun t => decide (t ∈ st))) (Ls.map rawText) = (spreadLines st Ls).map rawText := by
  induction Ls with
  | nil => intros; rfl
  | cons l Ls ih =>
    intro st hs hk hfl ho hu hg
    have core : ∀ st', openAfter st l = some st' → Few st' → (st' ≠ [] → l.getLast? ≠ some (.ch '[')) →
        balanceLine (formats ls) ((formats ls).map (fun t => decide (t ∈ st))) (rawText l) =
          (rawText (st.reverse.map Piece.op ++ l ++ st'.map Piece.cl), (formats ls).map (fun t => decide (t ∈ st'))) ∧ openLeft st l = st' ∧ ∀ t ∈ st', t ∈ formats ls := by
      intro st' ha hs' hla
      have e : openLeft st l = st' := by unfold openLeft; rw [ha]; rfl
      obtain ⟨h1, h2, h3⟩ := ho l (by simp)
      have hk' := openAfter_known ha hk h1
      have hF : FlowLine ls st st' l :=
        { ok := h1, neighbours := h2, one := h3, after := ha, few := hs, few' := hs', known := hk, known' := hk', last := hla, plain := fun hne => hg hne l rfl,
          used := by
            intro t
            have := hu _ (by unfold spreadLines; exact List.mem_cons_self) t
            rw [e, few_reverse hs] at this
            exact this }
      have := balanceLine_flow hl hF hf (fun t ht => ht)
      have e1 : flowLine (formats ls) st st' l = l := by
        unfold flowLine
        rw [rest_all hk, rest_all hk']
        simp
      have e2 : flowLine [] st st' l = st.reverse.map Piece.op ++ l ++ st'.map Piece.cl := by
        unfold flowLine
        rw [rest_nil, rest_nil, few_reverse hs]
      rw [e1, e2] at this
      exact ⟨this, e, hk'⟩
    cases Ls with
    | nil =>
      obtain ⟨c1, c2, _⟩ := core [] hfl (.inl rfl) (fun h => absurd rfl h)
      simp only [List.map_cons, List.map_nil, balanceLines, c1, spreadLines, c2]
    | cons m r =>
      obtain ⟨g0, st', g1, g2, g3⟩ := hfl
      have hs' : Few st' := by
        rcases g2 with h | ⟨t, h, _⟩
        · exact .inl h
        · exact .inr ⟨t, h⟩
      obtain ⟨c1, c2, c3⟩ := core st' g1 hs' (fun _ => g0)
      have := ih hs' c3 g3 (fun x hx => ho x (by simp [hx])) (by
        intro x hx
        refine hu x ?_
        unfold spreadLines
        rw [c2]
        exact List.mem_cons_of_mem _ hx) (by
        intro hne x hx
        simp only [List.head?_cons, Option.mem_def, Option.some.injEq] at hx
        subst hx
        rcases g2 with h | ⟨t, _, h⟩
        · exact absurd h hne
        · exact h)
      rw [List.map_cons, balanceLines, c1]
      simp only
      rw [this]
      have e : spreadLines st (l :: m :: r) = (st.reverse.map Piece.op ++ l ++ (openLeft st l).map Piece.cl) :: spreadLines (openLeft st l) (m :: r) := rfl
      rw [e, c2, List.map_cons]

/-- The text with every formatting begun and ended in its line. -/
def spreadText (ps : List Piece) : List Piece := brokenLines (spreadLines [] (pieceLines ps))

/-- What the writer makes of a text whose formattings reach over line breaks. -/
theorem balanceText_flow (hl : ∀ l ∈ ls, LangCode l) (hf : (formats ls).Nodup) {ps : List Piece} (h : Flowing ls ps) :
    balanceText (markupTags ls) (rawText ps) = Str.rstrip (rawText (spreadText ps)) := by
  have key := balanceLines_flow hl hf (Ls := pieceLines ps) (st := []) (.inl rfl) (by simp) (flowLines_of h.neighbours h.nested h.breaks)
    (fun l hm => ⟨fun p hp => h.ok p ((pieceLines_infix hm).subset hp), h.neighbours.infix (pieceLines_infix hm), pieceLines_no_nl hm⟩) h.used (fun hne => absurd rfl hne)
  unfold balanceText spreadText
  rw [rawText_split hl h.ok, rawText_brokenLines, ← key]
  rfl

theorem formats_nodup (h : ls.Nodup) : (formats ls).Nodup := by
  unfold formats
  rw [List.nodup_cons, List.nodup_cons]
  refine ⟨?_, ?_, ?_⟩
  · simp
  · simp
  · refine List.Pairwise.map _ ?_ h
    intro a b hab e
    exact hab (List.append_cancel_left e)

end Verif
