/-
Formattings that reach across line breaks: every line of the balanced text opens and closes its spans.
-/
import Verif.Lemmas.Balance

namespace Verif
open Spec Re

variable {ls : List Str}

/-! ### One formatting -/

/-- How many times the formatting `t` is open. -/
def depth (t : Str) : Nat → List Piece → Option Nat
  | d, [] => some d
  | d, p :: r =>
    if p = .op t then depth t (d + 1) r
    else if p = .cl t then (if d = 0 then none else depth t (d - 1) r)
    else depth t d r

theorem depth_append (t : Str) (d : Nat) (a b : List Piece) : depth t d (a ++ b) = (depth t d a).bind (fun e => depth t e b) := by
  induction a generalizing d with
  | nil => rfl
  | cons p a ih =>
    simp only [List.cons_append, depth]
    split
    · exact ih _
    · split
      · split
        · rfl
        · exact ih _
      · exact ih _

theorem depth_ops (t : Str) (d k : Nat) (l : List Piece) : depth t d (List.replicate k (.op t) ++ l) = depth t (d + k) l := by
  induction k generalizing d with
  | zero => rfl
  | succ k ih =>
    rw [List.replicate_succ, List.cons_append]
    simp only [depth, if_true]
    rw [ih, Nat.add_right_comm, Nat.add_assoc]

theorem depth_cls (t : Str) (k : Nat) : depth t k (List.replicate k (.cl t)) = some 0 := by
  induction k with
  | zero => rfl
  | succ k ih =>
    rw [List.replicate_succ]
    simp only [depth, if_true, reduceCtorEq, if_false, Nat.add_one_ne_zero, Nat.add_sub_cancel]
    exact ih

theorem depth_other {t : Str} {p : Piece} (h1 : p ≠ .op t) (h2 : p ≠ .cl t) (d : Nat) (l : List Piece) : depth t d (p :: l) = depth t d l := by
  simp only [depth, if_neg h1, if_neg h2]

theorem depth_dropPairs (t u : Str) (d : Nat) (l : List Piece) : depth u d (dropPairs t l) = depth u d l := by
  fun_induction dropPairs t l generalizing d with
  | case1 => rfl
  | case2 x y r h ih =>
    obtain ⟨rfl, rfl⟩ := h
    rw [ih]
    by_cases hu : u = y
    · subst hu
      simp [depth]
    · rw [depth_other (by simpa using Ne.symm hu) (by simp), depth_other (by simp) (by simpa using Ne.symm hu)]
  | case3 r x y h ih => simp only [depth, ih]
  | case4 p r h ih => simp only [depth, ih]

theorem count_dropPairs {t u : Str} (h : u ≠ t) (l : List Piece) :
    (dropPairs t l).count (.op u) = l.count (.op u) ∧ (dropPairs t l).count (.cl u) = l.count (.cl u) := by
  fun_induction dropPairs t l with
  | case1 => exact ⟨rfl, rfl⟩
  | case2 r x y h' ih =>
    obtain ⟨rfl, rfl⟩ := h'
    rw [ih.1, ih.2]
    simp [Ne.symm h]
  | case3 r x y h ih => simp only [List.count_cons, ih, and_self]
  | case4 p r h ih => simp only [List.count_cons, ih, and_self]

theorem depth_prefixes {t : Str} {l : List Piece} {d : Nat}
    (h : ∀ n, n ≤ l.length → (l.take n).count (.cl t) ≤ (l.take n).count (.op t) + d) :
    depth t d l = some (d + l.count (.op t) - l.count (.cl t)) := by
  induction l generalizing d with
  | nil => simp [depth]
  | cons p l ih =>
    by_cases h1 : p = .op t
    · subst h1
      simp only [depth, if_true]
      rw [ih]
      · rw [List.count_cons_self, List.count_cons_of_ne (by simp)]
        congr 2
        omega
      · intro n hn
        have := h (n + 1) (by simp; omega)
        rw [List.take_succ_cons, List.count_cons_self, List.count_cons_of_ne (by simp)] at this
        omega
    · by_cases h2 : p = .cl t
      · subst h2
        have h0 := h 1 (by simp)
        simp at h0
        have hd : d ≠ 0 := by omega
        simp only [depth, if_true, reduceCtorEq, if_false, if_neg hd]
        rw [ih]
        · rw [List.count_cons_self, List.count_cons_of_ne (by simp)]
          congr 1
          omega
        · intro n hn
          have := h (n + 1) (by simp; omega)
          rw [List.take_succ_cons, List.count_cons_self, List.count_cons_of_ne (by simp)] at this
          omega
      · rw [depth_other h1 h2, ih]
        · rw [List.count_cons_of_ne h1, List.count_cons_of_ne h2]
        · intro n hn
          have := h (n + 1) (by simp; omega)
          rw [List.take_succ_cons, List.count_cons_of_ne h1, List.count_cons_of_ne h2] at this
          exact this

/-- The formatting `t` can be balanced in the line. -/
def Evens (t : Str) (o : Bool) (l : List Piece) : Prop := depth t (padOps t o l) l = some (padCls t o l)

theorem evens_of_mendable {t : Str} {o : Bool} {l : List Piece} (h : Mendable t o l) : Evens t o l := by
  have := depth_prefixes (t := t) (l := l) (d := padOps t o l) h
  unfold Evens
  rw [this]
  congr 1
  unfold padOps padCls
  omega

theorem step_even {t : Str} {o : Bool} {l : List Piece} (h : Evens t o l) : depth t 0 (stepLine t o l) = some 0 := by
  unfold stepLine
  rw [depth_dropPairs, depth_ops, depth_append, Nat.zero_add, show depth t (padOps t o l) l = _ from h]
  exact depth_cls t _

theorem depth_skip {t u : Str} (h : u ≠ t) (d : Nat) (a b : Nat) (l : List Piece) :
    depth u d (List.replicate a (.op t) ++ (l ++ List.replicate b (.cl t))) = depth u d l := by
  induction a with
  | zero =>
    rw [List.replicate_zero, List.nil_append, depth_append]
    have : ∀ e, depth u e (List.replicate b (.cl t)) = some e := by
      intro e
      induction b with
      | zero => rfl
      | succ b ih => rw [List.replicate_succ, depth_other (by simp) (by simpa using Ne.symm h), ih]
    simp only [this]
    cases depth u d l <;> rfl
  | succ a ih => rw [List.replicate_succ, List.cons_append, depth_other (by simpa using Ne.symm h) (by simp), ih]

theorem step_depth {t u : Str} (h : u ≠ t) (o : Bool) (d : Nat) (l : List Piece) : depth u d (stepLine t o l) = depth u d l := by
  unfold stepLine
  rw [depth_dropPairs, depth_skip h]

theorem step_count {t u : Str} (h : u ≠ t) (o : Bool) (l : List Piece) :
    (stepLine t o l).count (.op u) = l.count (.op u) ∧ (stepLine t o l).count (.cl u) = l.count (.cl u) := by
  unfold stepLine
  rw [(count_dropPairs h _).1, (count_dropPairs h _).2]
  simp [List.count_append, List.count_replicate, Ne.symm h]

theorem step_pads {t u : Str} (h : u ≠ t) (o o' : Bool) (l : List Piece) :
    padOps u o (stepLine t o' l) = padOps u o l ∧ padCls u o (stepLine t o' l) = padCls u o l ∧ openLater u o (stepLine t o' l) = openLater u o l := by
  unfold padOps padCls openLater
  rw [(step_count h _ _).1, (step_count h _ _).2]
  exact ⟨rfl, rfl, rfl⟩

theorem step_evens {t u : Str} (h : u ≠ t) {o : Bool} (o' : Bool) {l : List Piece} (he : Evens u o l) : Evens u o (stepLine t o' l) := by
  unfold Evens
  rw [step_depth h, (step_pads h _ _ _).1, (step_pads h _ _ _).2.1]
  exact he

/-! ### What stays the same -/

theorem prefix_barrier {α : Type} {w a b : List α} {x : α} (hx : x ∉ w) (h : w <+: a ++ x :: b) : w <+: a := by
  induction w generalizing a with
  | nil => exact List.nil_prefix
  | cons y w ih =>
    cases a with
    | nil =>
      have := (List.cons_prefix_cons.1 h).1
      exact absurd (by rw [this]; simp) hx
    | cons z a =>
      obtain ⟨h1, h2⟩ := List.cons_prefix_cons.1 h
      exact List.cons_prefix_cons.2 ⟨h1, ih (fun hm => hx (by simp [hm])) h2⟩

theorem infix_barrier {α : Type} {w a b : List α} {x : α} (hx : x ∉ w) (h : w <:+: a ++ x :: b) : w <:+: a ∨ w <:+: b := by
  induction a with
  | nil =>
    rw [List.nil_append, List.infix_cons_iff] at h
    rcases h with h | h
    · exact .inl (prefix_barrier (a := []) hx h).isInfix
    · exact .inr h
  | cons y a ih =>
    rw [List.cons_append, List.infix_cons_iff] at h
    rcases h with h | h
    · exact .inl (prefix_barrier (a := y :: a) hx h).isInfix
    · rcases ih h with h | h
      · exact .inl (h.trans (List.infix_cons (List.infix_refl _)))
      · exact .inr h

theorem infix_padded {w m : List Piece} {t : Str} (h1 : .op t ∉ w) (h2 : .cl t ∉ w) {a b : Nat}
    (h : w <:+: List.replicate a (.op t) ++ (m ++ List.replicate b (.cl t))) : w <:+: m := by
  induction a with
  | zero =>
    rw [List.replicate_zero, List.nil_append] at h
    induction b with
    | zero => simpa using h
    | succ b ih =>
      rw [List.replicate_succ', ← List.append_assoc] at h
      rcases infix_barrier (b := []) h2 h with h | h
      · exact ih h
      · rw [List.infix_nil.1 h]
        exact List.nil_infix
  | succ a ih =>
    rw [List.replicate_succ, List.cons_append] at h
    rcases infix_barrier (a := []) h1 h with h | h
    · rw [List.infix_nil.1 h]
      exact List.nil_infix
    · exact ih h

/-- The letters `&gt; `. -/
def gtPieces : List Piece := (c!"&gt; ").map Piece.ch

/-- What is known about a line at each step. -/
structure LineOk (ls : List Str) (l : List Piece) : Prop where
  ok : ∀ p ∈ l, p.Ok ls
  neighbours : Neighbours l
  one : Piece.nl ∉ l
  last : l.getLast? ≠ some (.ch '[')
  plain : ¬ gtPieces <:+: l

theorem LineOk.infix {m l : List Piece} (h : LineOk ls l) (hm : m <:+: l) (hl : m.getLast? ≠ some (.ch '[')) : LineOk ls m :=
  ⟨fun p hp => h.ok p (hm.subset hp), Neighbours.infix h.neighbours hm, fun hn => h.one (hm.subset hn), hl, fun hg => h.plain (hg.trans hm)⟩

theorem LineOk.padded {t : Str} (ht : t ∈ formats ls) (a b : Nat) {m : List Piece} (h : LineOk ls m) :
    LineOk ls (List.replicate a (.op t) ++ (m ++ List.replicate b (.cl t))) := by
  refine ⟨ok_ops ht _ (ok_cls ht _ h.ok), Neighbours.ops _ _ (Neighbours.cls _ _ h.neighbours h.last), ?_, last_ops _ _ (last_cls _ _ h.last), ?_⟩
  · intro hm
    rcases List.mem_append.1 hm with hm | hm
    · cases (List.mem_replicate.1 hm).2
    · rcases List.mem_append.1 hm with hm | hm
      · exact h.one hm
      · cases (List.mem_replicate.1 hm).2
  · intro hg
    refine h.plain (infix_padded ?_ ?_ hg)
    · simp [gtPieces]
    · simp [gtPieces]

theorem step_shape {t : Str} {l : List Piece} (h : NoPair t l) (o : Bool) :
    ∃ a m b x y, stepLine t o l = List.replicate a (.op t) ++ (m ++ List.replicate b (.cl t)) ∧ l = x ++ m ++ y ∧ (x = [] ∨ x = [.cl t]) ∧
      (y = [] ∨ y = [.op t]) := dropPairs_shape h _ _

theorem middle_last {t : Str} {l x m y : List Piece} (h : LineOk ls l) (e : l = x ++ m ++ y) (hy : y = [] ∨ y = [.op t]) : m.getLast? ≠ some (.ch '[') := by
  intro hm
  rcases hy with rfl | rfl
  · refine h.last ?_
    rw [e, List.append_nil, List.getLast?_append, hm]
    rfl
  · obtain ⟨m', rfl⟩ := List.getLast?_eq_some_iff.1 hm
    have hn := h.neighbours
    rw [e, List.append_assoc, List.append_assoc] at hn
    have := Neighbours.append_right (Neighbours.append_right hn)
    exact absurd this.1 (by simp [mayFollow])

theorem LineOk.step {t : Str} (ht : t ∈ formats ls) {l : List Piece} (h : LineOk ls l) (hp : NoPair t l) (o : Bool) : LineOk ls (stepLine t o l) := by
  obtain ⟨a, m, b, x, y, e, el, hx, hy⟩ := step_shape hp o
  rw [e]
  exact LineOk.padded ht a b (h.infix ⟨x, y, el.symm⟩ (middle_last h el hy))

theorem NoPair.step {t u : Str} (hu : u ≠ t) {l : List Piece} (hp : NoPair t l) (h : NoPair u l) (o : Bool) : NoPair u (stepLine t o l) := by
  obtain ⟨a, m, b, x, y, e, el, hx, hy⟩ := step_shape hp o
  rw [e]
  intro hi
  refine h ((infix_padded ?_ ?_ hi).trans ⟨x, y, el.symm⟩)
  · simp [Ne.symm hu]
  · simp [Ne.symm hu]

theorem gt_prefix {l : List Piece} {w : Str} (hw : ∀ c ∈ w, c ∉ c!"[/\n") (h : w <+: rawText l) : w.map Piece.ch <+: l := by
  induction w generalizing l with
  | nil => exact List.nil_prefix
  | cons c w ih =>
    have hc := hw c (by simp)
    cases l with
    | nil => simp [rawText] at h
    | cons p l =>
      rw [rawText_cons] at h
      cases p with
      | ch d =>
        obtain ⟨rfl, h'⟩ := List.cons_prefix_cons.1 (show c :: w <+: d :: rawText l from h)
        exact List.cons_prefix_cons.2 ⟨rfl, ih (fun c hc => hw c (by simp [hc])) h'⟩
      | op t =>
        have := (List.cons_prefix_cons.1 (show c :: w <+: '[' :: (t ++ c!"]" ++ rawText l) from by simpa [Piece.raw] using h)).1
        exact absurd (by rw [this]; simp) hc
      | cl t =>
        have := (List.cons_prefix_cons.1 (show c :: w <+: '[' :: ('/' :: t ++ c!"]" ++ rawText l) from by simpa [Piece.raw] using h)).1
        exact absurd (by rw [this]; simp) hc
      | note s =>
        have := (List.cons_prefix_cons.1 (show c :: w <+: '/' :: ('*' :: s ++ c!"*/" ++ rawText l) from by simpa [Piece.raw] using h)).1
        exact absurd (by rw [this]; simp) hc
      | nl =>
        have := (List.cons_prefix_cons.1 (show c :: w <+: '\n' :: rawText l from h)).1
        exact absurd (by rw [this]; simp) hc

theorem LineOk.gt {l : List Piece} (h : LineOk ls l) : ¬ c!"&gt; " <+: rawText l := fun hg => h.plain (gt_prefix (by decide) hg).isInfix

/-! ### One line -/

/-- A line with the formattings `ts` balanced. -/
def evenLine (o : Str → Bool) (ts : List Str) (l : List Piece) : List Piece := ts.foldl (fun l t => stepLine t (o t) l) l

theorem balanceLine_pieces (hl : ∀ l ∈ ls, LangCode l) (o : Str → Bool) {ts : List Str} (hd : ts.Nodup) (ht : ∀ t ∈ ts, t ∈ formats ls) {l : List Piece} (h : LineOk ls l)
    (hp : ∀ t ∈ ts, NoPair t l) :
    balanceLine ts (ts.map o) (rawText l) = (rawText (evenLine o ts l), ts.map (fun t => openLater t (o t) l)) ∧ LineOk ls (evenLine o ts l) := by
  induction ts generalizing l with
  | nil => exact ⟨rfl, h⟩
  | cons t ts ih =>
    obtain ⟨hn, hd⟩ := List.nodup_cons.1 hd
    have ht0 := ht t (by simp)
    have hp0 := hp t (by simp)
    have hne : ∀ u ∈ ts, u ≠ t := fun u hu e => hn (e ▸ hu)
    obtain ⟨e, hk⟩ := ih hd (fun u hu => ht u (by simp [hu])) (h.step ht0 hp0 (o t)) (fun u hu => NoPair.step (hne u hu) hp0 (hp u (by simp [hu])) (o t))
    refine ⟨?_, hk⟩
    simp only [List.map_cons, balanceLine, balanceTag_pieces hl ht0 h.ok h.neighbours (o t) (fun _ => h.last) (fun _ => h.gt)]
    rw [e]
    congr 1
    congr 1
    exact List.map_congr_left (fun u hu => (step_pads (hne u hu) _ _ _).2.2)

theorem evenLine_depth (o : Str → Bool) {ts : List Str} (hd : ts.Nodup) {l : List Piece} {u : Str} (hu : u ∉ ts) (d : Nat) : depth u d (evenLine o ts l) = depth u d l := by
  induction ts generalizing l with
  | nil => rfl
  | cons t ts ih =>
    show depth u d (evenLine o ts (stepLine t (o t) l)) = _
    rw [ih (List.nodup_cons.1 hd).2 (fun hm => hu (by simp [hm])), step_depth (fun e => hu (by simp [e]))]

theorem evenLine_even (o : Str → Bool) {ts : List Str} (hd : ts.Nodup) {l : List Piece} (he : ∀ t ∈ ts, Evens t (o t) l) : ∀ t ∈ ts, depth t 0 (evenLine o ts l) = some 0 := by
  induction ts generalizing l with
  | nil => intro t ht; cases ht
  | cons t ts ih =>
    obtain ⟨hn, hd'⟩ := List.nodup_cons.1 hd
    intro u hu
    show depth u 0 (evenLine o ts (stepLine t (o t) l)) = _
    by_cases e : u = t
    · subst e
      rw [evenLine_depth o hd' hn, step_even (he u (by simp))]
    · have hut : u ∈ ts := by simpa [e] using hu
      exact ih hd' (fun v hv => step_evens (fun e : v = t => hn (e ▸ hv)) _ (he v (by simp [hv]))) u hut

/-! ### All formattings together -/

/-- How many spans are open; `none` if one ends that has not begun, or if one is open at the end of a line. -/
def spans : Nat → List Piece → Option Nat
  | d, [] => some d
  | d, .op _ :: r => spans (d + 1) r
  | d, .cl _ :: r => if d = 0 then none else spans (d - 1) r
  | d, .nl :: r => if d = 0 then spans 0 r else none
  | d, _ :: r => spans d r

/-- The number of formattings that begin. -/
def begins (ts : List Str) (l : List Piece) : Nat := (ts.map (fun t => l.count (.op t))).sum
/-- The number of formattings that end. -/
def ends (ts : List Str) (l : List Piece) : Nat := (ts.map (fun t => l.count (.cl t))).sum

theorem sum_one {ts : List Str} (hd : ts.Nodup) {t : Str} (ht : t ∈ ts) (f : Str → Nat) :
    (ts.map (fun u => f u + if t = u then 1 else 0)).sum = (ts.map f).sum + 1 := by
  induction ts with
  | nil => cases ht
  | cons v ts ih =>
    obtain ⟨hn, hd⟩ := List.nodup_cons.1 hd
    rw [List.map_cons, List.map_cons, List.sum_cons, List.sum_cons]
    by_cases e : t = v
    · subst e
      have : ts.map (fun u => f u + if t = u then 1 else 0) = ts.map f := by
        apply List.map_congr_left
        intro u hu
        rw [if_neg (fun e : t = u => hn (e ▸ hu))]
        rfl
      rw [this]
      simp only [if_true]
      omega
    · rw [ih hd (by simpa [e] using ht)]
      simp only [if_neg e]
      omega

/-- A formatting begins. -/
def isOp : Piece → Nat
  | .op _ => 1
  | _ => 0
/-- A formatting ends. -/
def isCl : Piece → Nat
  | .cl _ => 1
  | _ => 0

theorem begins_cons {ts : List Str} (hd : ts.Nodup) {p : Piece} {l : List Piece} (h : ∀ t, p = .op t → t ∈ ts) :
    begins ts (p :: l) = begins ts l + isOp p := by
  unfold begins
  by_cases hp : ∃ t, p = .op t
  · obtain ⟨t, rfl⟩ := hp
    rw [show isOp (.op t) = 1 from rfl, ← sum_one hd (h t rfl)]
    simp only [List.count_cons, beq_iff_eq, Piece.op.injEq]
  · have : isOp p = 0 := by
      cases p <;> first | rfl | exact absurd ⟨_, rfl⟩ hp
    rw [this, Nat.add_zero]
    congr 2
    funext t
    rw [List.count_cons_of_ne (fun e => hp ⟨t, e⟩)]

theorem ends_cons {ts : List Str} (hd : ts.Nodup) {p : Piece} {l : List Piece} (h : ∀ t, p = .cl t → t ∈ ts) :
    ends ts (p :: l) = ends ts l + isCl p := by
  unfold ends
  by_cases hp : ∃ t, p = .cl t
  · obtain ⟨t, rfl⟩ := hp
    rw [show isCl (.cl t) = 1 from rfl, ← sum_one hd (h t rfl)]
    simp only [List.count_cons, beq_iff_eq, Piece.cl.injEq]
  · have : isCl p = 0 := by
      cases p <;> first | rfl | exact absurd ⟨_, rfl⟩ hp
    rw [this, Nat.add_zero]
    congr 2
    funext t
    rw [List.count_cons_of_ne (fun e => hp ⟨t, e⟩)]

theorem spans_prefixes {ts : List Str} (hd : ts.Nodup) {l : List Piece} (hn : Piece.nl ∉ l) (hm : ∀ t, (.op t ∈ l → t ∈ ts) ∧ (.cl t ∈ l → t ∈ ts)) {d e : Nat}
    (h : ∀ n, n ≤ l.length → ends ts (l.take n) ≤ begins ts (l.take n) + d) (he : d + begins ts l = e + ends ts l) : spans d l = some e := by
  induction l generalizing d with
  | nil =>
    have : d = e := by
      unfold begins ends at he
      simp only [List.count_nil] at he
      omega
    rw [this]
    rfl
  | cons p l ih =>
    have hb : ∀ n, begins ts ((p :: l).take (n + 1)) = begins ts (l.take n) + isOp p := by
      intro n
      rw [List.take_succ_cons]
      exact begins_cons hd (fun t ht => (hm t).1 (by rw [ht]; simp))
    have hc : ∀ n, ends ts ((p :: l).take (n + 1)) = ends ts (l.take n) + isCl p := by
      intro n
      rw [List.take_succ_cons]
      exact ends_cons hd (fun t ht => (hm t).2 (by rw [ht]; simp))
    rw [begins_cons hd (fun t ht => (hm t).1 (by rw [ht]; simp)), ends_cons hd (fun t ht => (hm t).2 (by rw [ht]; simp))] at he
    have hz : ends ts (l.take 0) = 0 ∧ begins ts (l.take 0) = 0 := by
      unfold begins ends
      simp only [List.take_zero, List.count_nil]
      constructor <;> (clear ih hm h hb hc he hd; induction ts with | nil => rfl | cons t ts ih => simpa using ih)
    have ih := fun d' => @ih (fun hm => hn (by simp [hm])) (fun t => ⟨fun h => (hm t).1 (by simp [h]), fun h => (hm t).2 (by simp [h])⟩) d'
    have h' : ∀ n, n ≤ l.length → ends ts (l.take n) + isCl p ≤ begins ts (l.take n) + isOp p + d := by
      intro n hn
      rw [← hb, ← hc]
      exact h _ (by simp; omega)
    cases p with
    | op t =>
      simp only [isOp, isCl] at he h'
      unfold spans
      refine ih (d + 1) (fun n hn => ?_) (by omega)
      have := h' n hn
      omega
    | cl t =>
      simp only [isOp, isCl] at he h'
      have h0 := h' 0 (Nat.zero_le _)
      rw [hz.1, hz.2] at h0
      unfold spans
      rw [if_neg (by omega)]
      refine ih (d - 1) (fun n hn => ?_) (by omega)
      have := h' n hn
      omega
    | nl => exact absurd (by simp) hn
    | ch c =>
      simp only [isOp, isCl] at he h'
      unfold spans
      exact ih d (fun n hn => by have := h' n hn; omega) (by omega)
    | note c =>
      simp only [isOp, isCl] at he h'
      unfold spans
      exact ih d (fun n hn => by have := h' n hn; omega) (by omega)

theorem depth_count {t : Str} {l : List Piece} {d e : Nat} (h : depth t d l = some e) : d + l.count (.op t) = e + l.count (.cl t) := by
  induction l generalizing d with
  | nil => simp only [depth, Option.some.injEq] at h; rw [h]; rfl
  | cons p l ih =>
    simp only [depth] at h
    split at h
    · next hp =>
      subst hp
      have := ih h
      rw [List.count_cons_self, List.count_cons_of_ne (by simp)]
      omega
    · next h1 =>
      split at h
      · next hp =>
        subst hp
        split at h
        · cases h
        · have := ih h
          rw [List.count_cons_self, List.count_cons_of_ne (by simp)]
          omega
      · next h2 =>
        rw [List.count_cons_of_ne h1, List.count_cons_of_ne h2]
        exact ih h

theorem depth_take {t : Str} {l : List Piece} {d e : Nat} (h : depth t d l = some e) (n : Nat) : ∃ e', depth t d (l.take n) = some e' := by
  rw [← List.take_append_drop n l, depth_append] at h
  cases hd : depth t d (l.take n) with
  | none => rw [hd] at h; cases h
  | some e' => exact ⟨e', rfl⟩

/-- A line in which every formatting is balanced opens and closes its spans. -/
theorem spans_even {l : List Piece} (hf : (formats ls).Nodup) (h : LineOk ls l) (he : ∀ t ∈ formats ls, depth t 0 l = some 0) : spans 0 l = some 0 := by
  refine spans_prefixes hf h.one (fun t => ⟨fun hm => h.ok _ hm, fun hm => h.ok _ hm⟩) (fun n _ => ?_) ?_
  · have key : ∀ ts : List Str, (∀ t ∈ ts, t ∈ formats ls) → ends ts (l.take n) ≤ begins ts (l.take n) := by
      intro ts hts
      unfold ends begins
      induction ts with
      | nil => exact Nat.le_refl _
      | cons t ts ih =>
        obtain ⟨e', h1⟩ := depth_take (he t (hts t (by simp))) n
        have := depth_count h1
        have := ih (fun u hu => hts u (by simp [hu]))
        simp only [List.map_cons, List.sum_cons]
        omega
    have := key (formats ls) (fun _ h => h)
    omega
  · have key : ∀ ts : List Str, (∀ t ∈ ts, t ∈ formats ls) → ends ts l = begins ts l := by
      intro ts hts
      unfold ends begins
      induction ts with
      | nil => rfl
      | cons t ts ih =>
        have := depth_count (he t (hts t (by simp)))
        have := ih (fun u hu => hts u (by simp [hu]))
        simp only [List.map_cons, List.sum_cons]
        omega
    rw [key (formats ls) (fun _ h => h)]

end Verif
