/-
C65: the document that is opened is the one that was asked for.
-/
import Verif.Model.DocOpen
import Verif.Spec.DocOpen
import Verif.Lemmas.Str
import Verif.Lemmas.Ini
import Verif.Lemmas.Disk2

namespace Verif
open Spec

/-! ### Normalised paths -/

theorem slashFree {p x : Str} (h : x ∈ Str.split p c!"/") : '/' ∉ x := by
  have := Str.not_infix_of_mem_split c!"/" (by simp) p x h
  intro hc
  obtain ⟨a, b, rfl⟩ := List.append_of_mem hc
  exact this ⟨a, b, by simp⟩

theorem snoc_of_getLast {α : Type} {l : List α} {y : α} (h : l.getLast? = some y) : l = l.dropLast ++ [y] := by
  obtain ⟨ys, rfl⟩ := List.getLast?_eq_some_iff.mp h
  simp

/-- What the list of components always is: no empty ones, no `.`, no slashes, and `..` only at the beginning (nowhere in absolute paths). -/
def CompsOk (absolute : Bool) (l : List Str) : Prop :=
  (∀ x ∈ l, x ≠ [] ∧ x ≠ c!"." ∧ '/' ∉ x) ∧ ∃ a b, l = a ++ b ∧ (∀ x ∈ a, x = c!"..") ∧ (∀ x ∈ b, x ≠ c!"..") ∧ (absolute = true → a = [])

theorem compsOk_snoc {absolute : Bool} {l : List Str} {x : Str} (h : CompsOk absolute l) (hx : x ≠ [] ∧ x ≠ c!"." ∧ '/' ∉ x)
    (hc : x ≠ c!".." ∨ (absolute = false ∧ l = []) ∨ l.getLast? = some c!"..") : CompsOk absolute (l ++ [x]) := by
  obtain ⟨h1, a, b, rfl, h2, h3, h4⟩ := h
  refine ⟨?_, ?_⟩
  · intro y hy
    rw [List.mem_append, List.mem_singleton] at hy
    rcases hy with hy | rfl
    · exact h1 y hy
    · exact hx
  · by_cases hd : x = c!".."
    · have hb : b = [] := by
        rcases hc with hc | ⟨_, hc⟩ | hc
        · exact absurd hd hc
        · exact (List.append_eq_nil_iff.mp hc).2
        · cases hb : b.getLast? with
          | none => exact List.getLast?_eq_none_iff.mp hb
          | some y =>
            rw [List.getLast?_append, hb] at hc
            simp only [Option.some_or, Option.some.injEq] at hc
            exact absurd hc (h3 y (List.mem_of_getLast? hb))
      subst hb
      refine ⟨a ++ [x], [], by simp, ?_, by simp, ?_⟩
      · intro y hy
        rw [List.mem_append, List.mem_singleton] at hy
        rcases hy with hy | rfl
        · exact h2 y hy
        · exact hd
      · intro habs
        rcases hc with hc | ⟨hc, _⟩ | hc
        · exact absurd hd hc
        · rw [hc] at habs; cases habs
        · rw [h4 habs] at hc; simp at hc
    · refine ⟨a, b ++ [x], by simp, h2, ?_, h4⟩
      intro y hy
      rw [List.mem_append, List.mem_singleton] at hy
      rcases hy with hy | rfl
      · exact h3 y hy
      · exact hd

theorem compsOk_dropLast {absolute : Bool} {l : List Str} (h : CompsOk absolute l) : CompsOk absolute l.dropLast := by
  obtain ⟨h1, a, b, rfl, h2, h3, h4⟩ := h
  refine ⟨fun x hx => h1 x (List.dropLast_subset _ hx), ?_⟩
  cases b with
  | nil =>
    refine ⟨a.dropLast, [], by simp, fun x hx => h2 x (List.dropLast_subset _ hx), by simp, ?_⟩
    intro habs; rw [h4 habs]; rfl
  | cons y b =>
    refine ⟨a, (y :: b).dropLast, by rw [List.dropLast_append_of_ne_nil (by simp)], h2, fun x hx => h3 x (List.dropLast_subset _ hx), h4⟩

theorem normComps_ok {absolute : Bool} : ∀ (l new : List Str), CompsOk absolute new → (∀ x ∈ l, '/' ∉ x) → CompsOk absolute (normComps absolute new l) := by
  intro l
  induction l with
  | nil => intro new h _; exact h
  | cons x l ih =>
    intro new h hl
    have hl' : ∀ x ∈ l, '/' ∉ x := fun y hy => hl y (List.mem_cons_of_mem _ hy)
    rw [normComps]
    split
    · exact ih _ h hl'
    · rename_i hx
      split
      · rename_i hc
        exact ih _ (compsOk_snoc h ⟨fun e => hx (Or.inl e), fun e => hx (Or.inr e), hl x (by simp)⟩ hc) hl'
      · exact ih _ (compsOk_dropLast h) hl'

/-- Components that are fine are left as they are. -/
theorem normComps_id {absolute : Bool} : ∀ (l new : List Str), CompsOk absolute (new ++ l) → normComps absolute new l = new ++ l := by
  intro l
  induction l with
  | nil => intro new _; rw [normComps, List.append_nil]
  | cons x l ih =>
    intro new h
    have hx : x ≠ [] ∧ x ≠ c!"." ∧ '/' ∉ x := h.1 x (by simp)
    rw [normComps, if_neg (by rintro (e | e); exact hx.1 e; exact hx.2.1 e)]
    have hc : x ≠ c!".." ∨ (absolute = false ∧ new = []) ∨ new.getLast? = some c!".." := by
      by_cases hd : x = c!".."
      · right
        obtain ⟨_, a, b, e, h2, h3, h4⟩ := h
        have habs : absolute = false := by
          cases habs : absolute with
          | false => rfl
          | true =>
            rw [h4 habs, List.nil_append] at e
            exact absurd hd (h3 x (by rw [← e]; simp))
        cases hn : new.getLast? with
        | none => exact Or.inl ⟨habs, List.getLast?_eq_none_iff.mp hn⟩
        | some y =>
          right
          -- `..` occurs after `y`, so that `y` is one of the leading `..`
          have hsplit : ∃ c, new = c ++ [y] := ⟨new.dropLast, snoc_of_getLast hn⟩
          obtain ⟨c, hc⟩ := hsplit
          rw [hc, List.append_assoc] at e
          have : (c ++ [y]) <+: a := by
            have e' : c ++ [y] ++ (x :: l) = a ++ b := by rw [← e]; simp
            rcases List.append_eq_append_iff.mp e' with ⟨d, hd1, hd2⟩ | ⟨d, hd1, hd2⟩
            · exact ⟨d, hd1.symm⟩
            · cases d with
              | nil => rw [List.append_nil] at hd1; rw [hd1]; exact List.prefix_refl _
              | cons z d =>
                have : x ∈ b := by rw [hd2]; simp
                exact absurd hd (h3 x this)
          obtain ⟨d, hd'⟩ := this
          have := h2 y (by rw [← hd']; simp)
          rw [this]
      · exact Or.inl hd
    rw [if_pos hc, ih (new ++ [x]) (by simpa using h)]
    simp

/-- Where the components lead. -/
theorem normComps_place {absolute : Bool} {start : List Str} (hs : absolute = true → start = []) : ∀ (l new : List Str), CompsOk absolute new →
    (∀ x ∈ l, '/' ∉ x) → (normComps absolute new l).foldl step start = (new ++ l).foldl step start := by
  intro l
  induction l with
  | nil => intro new _ _; rw [normComps, List.append_nil]
  | cons x l ih =>
    intro new h hl
    have hl' : ∀ x ∈ l, '/' ∉ x := fun y hy => hl y (List.mem_cons_of_mem _ hy)
    rw [normComps]
    split
    · rename_i hx
      rw [ih _ h hl', List.foldl_append, List.foldl_append, List.foldl_cons]
      congr 1
      unfold step
      rw [if_pos hx]
    · rename_i hx
      split
      · rename_i hc
        rw [ih _ (compsOk_snoc h ⟨fun e => hx (Or.inl e), fun e => hx (Or.inr e), hl x (by simp)⟩ hc) hl']
        simp
      · rename_i hc
        rw [ih _ (compsOk_dropLast h) hl', List.foldl_append, List.foldl_append, List.foldl_cons]
        congr 1
        simp only [not_or, ne_eq, Classical.not_not, not_and] at hc
        obtain ⟨rfl, hc1, hc2⟩ := hc
        cases hn : new.getLast? with
        | none =>
          have hnil : new = [] := List.getLast?_eq_none_iff.mp hn
          subst hnil
          have habs : absolute = true := by
            cases ha : absolute with
            | true => rfl
            | false => exact absurd rfl (hc1 ha)
          rw [hs habs]
          rfl
        | some y =>
          have e : new = new.dropLast ++ [y] := snoc_of_getLast hn
          have hy := h.1 y (List.mem_of_getLast? hn)
          have hyd : y ≠ c!".." := by
            rintro rfl
            exact hc2 hn
          rw [e, List.dropLast_concat, List.foldl_append, List.foldl_cons, List.foldl_nil]
          generalize List.foldl step start new.dropLast = d
          have h1 : step d y = y :: d := by
            unfold step
            rw [if_neg (by rintro (e | e); exact hy.1 e; exact hy.2.1 e), if_neg hyd]
          rw [h1]
          rfl

/-! ### The text of a normalised path -/

/-- The components of a normalised path. -/
def compsOf (p : Str) : List Str := normComps (decide (initialSlashes p ≠ 0)) [] (Str.split p c!"/")

theorem compsOf_ok (p : Str) : CompsOk (decide (initialSlashes p ≠ 0)) (compsOf p) :=
  normComps_ok _ [] ⟨by simp, [], [], rfl, by simp, by simp, fun _ => rfl⟩ (fun _ hx => slashFree hx)

theorem initialSlashes_pos (p : Str) : initialSlashes p ≠ 0 ↔ p.head? = some '/' := by
  unfold initialSlashes Str.startsWith
  cases p with
  | nil => decide
  | cons c p =>
    by_cases hc : c = '/'
    · subst hc
      have : c!"/".isPrefixOf ('/' :: p) = true := by simp [List.isPrefixOf]
      rw [if_pos this]
      split <;> simp
    · have : c!"/".isPrefixOf (c :: p) = false := by simp [List.isPrefixOf, Ne.symm hc]
      simp [this, hc]

theorem split_slashes (k : Nat) (t : Str) : Str.split (List.replicate k '/' ++ t) c!"/" = List.replicate k [] ++ Str.split t c!"/" := by
  induction k with
  | zero => rfl
  | succ k ih =>
    rw [List.replicate_succ, List.replicate_succ, List.cons_append, List.cons_append, ← ih]
    exact Str.split_sep_append c!"/" _ (by simp)

theorem foldl_step_blank (d : List Str) (k : Nat) : (List.replicate k []).foldl step d = d := by
  induction k with
  | zero => rfl
  | succ k ih => rw [List.replicate_succ, List.foldl_cons]; exact ih

theorem split_join_comps {b : Bool} {l : List Str} (h : CompsOk b l) : Str.split (Str.join c!"/" l) c!"/" = if l = [] then [[]] else l := by
  split
  · rename_i e; rw [e]; rfl
  · rename_i e
    refine Str.split_join _ (by simp) _ e (fun x hx => ?_)
    have := (h.1 x hx).2.2
    intro hi
    rw [show c!"/".dropLast = [] from rfl, List.append_nil] at hi
    obtain ⟨a, c, e⟩ := hi
    exact this (by rw [← e]; simp)

theorem join_head {b : Bool} {l : List Str} (h : CompsOk b l) : (Str.join c!"/" l).head? ≠ some '/' := by
  cases l with
  | nil => simp [Str.join]
  | cons x l =>
    have hx := h.1 x (by simp)
    cases x with
    | nil => exact absurd rfl hx.1
    | cons c x =>
      have hc : c ≠ '/' := fun e => hx.2.2 (by simp [e])
      cases l with
      | nil => simp [Str.join, hc]
      | cons y l => simp [Str.join, hc]

/-- The text before the replacement of the empty one. -/
def rawNormal (p : Str) : Str := List.replicate (initialSlashes p) '/' ++ Str.join c!"/" (compsOf p)

theorem rawNormal_head (p : Str) : (rawNormal p).head? = some '/' ↔ p.head? = some '/' := by
  rw [← initialSlashes_pos p]
  unfold rawNormal
  cases h : initialSlashes p with
  | zero => simpa using join_head (compsOf_ok p)
  | succ k => simp [List.replicate_succ]

theorem place_rawNormal (dir : List Str) (p : Str) : place dir (rawNormal p) = place dir p := by
  unfold place
  have hh : (if (rawNormal p).head? = some '/' then ([] : List Str) else dir) = if p.head? = some '/' then [] else dir := by
    by_cases h : p.head? = some '/'
    · rw [if_pos h, if_pos ((rawNormal_head p).mpr h)]
    · rw [if_neg h, if_neg (fun x => h ((rawNormal_head p).mp x))]
  rw [hh]
  have hs : decide (initialSlashes p ≠ 0) = true → (if p.head? = some '/' then ([] : List Str) else dir) = [] := by
    intro h
    rw [if_pos ((initialSlashes_pos p).mp (by simpa using h))]
  have key := normComps_place hs (Str.split p c!"/") [] ⟨by simp, [], [], rfl, by simp, by simp, fun _ => rfl⟩ (fun _ hx => slashFree hx)
  rw [List.nil_append] at key
  rw [← key]
  unfold rawNormal
  rw [split_slashes, List.foldl_append, foldl_step_blank, split_join_comps (compsOf_ok p)]
  show _ = List.foldl step _ (compsOf p)
  by_cases e : compsOf p = []
  · rw [if_pos e, e]; rfl
  · rw [if_neg e]

theorem normPath_eq (p : Str) : normPath p = if rawNormal p = [] then c!"." else rawNormal p := by
  unfold normPath
  split
  · rename_i h; subst h; rfl
  · rfl

/-- A normalised path leads to the same place, from wherever it is followed. -/
theorem C65_same_place (dir : List Str) (p : Str) : place dir (normPath p) = place dir p := by
  rw [normPath_eq, ← place_rawNormal dir p]
  split
  · rename_i h; rw [h]; rfl
  · rfl

theorem compsOf_rawNormal {p : Str} (h : rawNormal p ≠ []) : compsOf (rawNormal p) = compsOf p := by
  have hok := compsOf_ok p
  have ha : decide (initialSlashes (rawNormal p) ≠ 0) = decide (initialSlashes p ≠ 0) := by
    rw [decide_eq_decide, initialSlashes_pos, initialSlashes_pos, rawNormal_head]
  have e1 : ∀ (k : Nat) (l : List Str) (b : Bool) (new : List Str), normComps b new (List.replicate k [] ++ l) = normComps b new l := by
    intro k l b new
    induction k with
    | zero => rfl
    | succ k ih => rw [List.replicate_succ, List.cons_append, normComps, if_pos (Or.inl rfl), ih]
  have e2 : compsOf (rawNormal p) = normComps (decide (initialSlashes p ≠ 0)) [] (Str.split (rawNormal p) c!"/") := by
    rw [← ha]; rfl
  rw [e2]
  unfold rawNormal
  rw [split_slashes, e1, split_join_comps hok]
  by_cases e : compsOf p = []
  · rw [if_pos e, e]; rfl
  · rw [if_neg e, normComps_id _ [] (by simpa using hok)]; rfl

theorem slashes_same (k : Nat) (t : Str) (hk : k ≤ 2) (ht : t.head? ≠ some '/') : initialSlashes (List.replicate k '/' ++ t) = k := by
  have h0 : ∀ t : Str, t.head? ≠ some '/' → c!"/".isPrefixOf t = false := by
    intro t ht
    cases t with
    | nil => rfl
    | cons c t =>
      have : c ≠ '/' := by simpa using ht
      simp [List.isPrefixOf, Ne.symm this]
  match k, hk with
  | 0, _ => simp [initialSlashes, Str.startsWith, h0 t ht]
  | 1, _ =>
    have h1 := h0 t ht
    have e1 : c!"/".isPrefixOf ('/' :: t) = true := by simp [List.isPrefixOf]
    have e2 : c!"//".isPrefixOf ('/' :: t) = false := by
      rw [show c!"//".isPrefixOf ('/' :: t) = (true && c!"/".isPrefixOf t) from rfl, h1]; rfl
    show initialSlashes ('/' :: t) = 1
    unfold initialSlashes Str.startsWith
    rw [e1, e2]; rfl
  | 2, _ =>
    have h1 := h0 t ht
    have e1 : c!"/".isPrefixOf ('/' :: '/' :: t) = true := by simp [List.isPrefixOf]
    have e2 : c!"//".isPrefixOf ('/' :: '/' :: t) = true := by simp [List.isPrefixOf]
    have e3 : c!"///".isPrefixOf ('/' :: '/' :: t) = false := by
      rw [show c!"///".isPrefixOf ('/' :: '/' :: t) = (true && (true && c!"/".isPrefixOf t)) from rfl, h1]; rfl
    show initialSlashes ('/' :: '/' :: t) = 2
    unfold initialSlashes Str.startsWith
    rw [e1, e2, e3]; rfl

theorem initialSlashes_le (p : Str) : initialSlashes p ≤ 2 := by
  unfold initialSlashes
  split
  · split <;> omega
  · omega

/-- A normalised path stays as it is. -/
theorem C65_norm_idempotent (p : Str) : normPath (normPath p) = normPath p := by
  rw [normPath_eq p]
  split
  · decide
  · rename_i h
    rw [normPath_eq]
    have e : rawNormal (rawNormal p) = rawNormal p := by
      have h1 : initialSlashes (rawNormal p) = initialSlashes p := slashes_same _ _ (initialSlashes_le p) (join_head (compsOf_ok p))
      unfold rawNormal at h1 ⊢
      rw [h1]
      have := compsOf_rawNormal h
      unfold rawNormal at this
      rw [this]
    rw [e, if_neg h]

/-- A normalised path has no characters of its own but dots and slashes. -/
theorem normPath_chars (p : Str) : ∀ c ∈ normPath p, c ∈ p ∨ c = '.' ∨ c = '/' := by
  intro c hc
  rw [normPath_eq] at hc
  split at hc
  · rw [List.mem_singleton] at hc; exact Or.inr (Or.inl hc)
  · unfold rawNormal at hc
    rw [List.mem_append] at hc
    rcases hc with hc | hc
    · exact Or.inr (Or.inr (List.mem_replicate.mp hc).2)
    · have hj : ∀ l : List Str, c ∈ Str.join c!"/" l → c = '/' ∨ ∃ x ∈ l, c ∈ x := by
        intro l
        induction l with
        | nil => intro h; cases h
        | cons x l ih =>
          intro h
          cases l with
          | nil => exact Or.inr ⟨x, by simp, h⟩
          | cons y l =>
            simp only [Str.join, List.mem_append, List.mem_singleton] at h
            rcases h with (h | h) | h
            · exact Or.inr ⟨x, by simp, h⟩
            · exact Or.inl h
            · rcases ih h with h | ⟨z, hz, h⟩
              · exact Or.inl h
              · exact Or.inr ⟨z, List.mem_cons_of_mem _ hz, h⟩
      have hn : ∀ (b : Bool) (l new : List Str), ∀ x ∈ normComps b new l, x ∈ new ∨ x ∈ l := by
        intro b l
        induction l with
        | nil => intro new x hx; exact Or.inl hx
        | cons y l ih =>
          intro new x hx
          rw [normComps] at hx
          split at hx
          · rcases ih _ x hx with h | h
            · exact Or.inl h
            · exact Or.inr (List.mem_cons_of_mem _ h)
          · split at hx
            · rcases ih _ x hx with h | h
              · rw [List.mem_append, List.mem_singleton] at h
                rcases h with h | rfl
                · exact Or.inl h
                · exact Or.inr (by simp)
              · exact Or.inr (List.mem_cons_of_mem _ h)
            · rcases ih _ x hx with h | h
              · exact Or.inl (List.dropLast_subset _ h)
              · exact Or.inr (List.mem_cons_of_mem _ h)
      rcases hj _ hc with h | ⟨x, hx, h⟩
      · exact Or.inr (Or.inr h)
      · rcases hn _ _ _ x hx with h' | h'
        · cases h'
        · exact Or.inl (split_chars p c!"/" (by simp) x h' c h)

/-! ### The command -/

/-- Characters that stand for themselves between quotation marks. -/
def QuotedOk (p : Str) : Prop := ∀ c ∈ p, c ∉ c!"\"$`\\" ∧ c ≠ Char.ofNat 0

theorem shellRun_quoted (cmds : List (List Str)) (cur : List Str) : ∀ (p : Str) (w : Str), QuotedOk p → ∀ r, shellRun cmds cur (some w) true (p ++ r) = shellRun cmds cur (some (w ++ p)) true r := by
  intro p
  induction p with
  | nil => intro w _ r; rw [List.append_nil]; rfl
  | cons c p ih =>
    intro w h r
    have hc := (h c (by simp)).1
    simp only [List.mem_cons, List.not_mem_nil, or_false, not_or] at hc
    obtain ⟨h1, h2, h3, h4⟩ := hc
    have hs : shellRun cmds cur (some w) true (c :: (p ++ r)) = shellRun cmds cur (some (w ++ [c])) true (p ++ r) := by
      rw [shellRun]
      · rw [if_neg h1, if_neg (by simp [h2, h3, h4])]; rfl
      · intro d r' e
        exact absurd e h4
    rw [List.cons_append, hs, ih _ (fun x hx => h x (List.mem_cons_of_mem _ hx))]
    simp

/-- The document that is opened is the one that was asked for: on systems other than Windows, the shell executes exactly one command, and its argument is
a path to the same place. -/
theorem C65_opens_partial (p : Str) (hp : QuotedOk p) : ∃ command q, openDocument none (some p) = .shell command ∧
    shellCommands command = some [[c!"xdg-open", q]] ∧ ∀ dir, place dir q = place dir p := by
  have hq : QuotedOk (normPath p) := by
    intro c hc
    rcases normPath_chars p c hc with h | rfl | rfl
    · exact hp c h
    · exact ⟨by decide, by decide⟩
    · exact ⟨by decide, by decide⟩
  have h0 : passable (c!"xdg-open \"" ++ normPath p ++ c!"\"") = true := by
    unfold passable
    rw [decide_eq_true_eq]
    simp only [List.mem_append, not_or]
    exact ⟨⟨by decide, fun h => (hq _ h).2 rfl⟩, by decide⟩
  refine ⟨c!"xdg-open \"" ++ normPath p ++ c!"\"", normPath p, ?_, ?_, fun dir => C65_same_place dir p⟩
  · unfold openDocument normalPath
    simp only [Option.map_none, Option.getD_none, Option.getD_some, Bool.false_eq_true, if_false, h0, if_true]
  · unfold shellCommands
    have e : shellRun [] [] none false (c!"xdg-open \"" ++ normPath p ++ c!"\"") = shellRun [] [c!"xdg-open"] (some []) true (normPath p ++ c!"\"") := by
      rw [List.append_assoc]; rfl
    rw [e, shellRun_quoted _ _ _ _ hq, List.nil_append]
    rfl

/-- On Windows, the system gets a path to the same place. -/
theorem C65_windows (startfile : Str → Bool) (p : Str) (h : startfile (normPath p) = true) : ∃ q, openDocument (some startfile) (some p) = .windows q ∧ ∀ dir, place dir q = place dir p := by
  refine ⟨normPath p, ?_, fun dir => C65_same_place dir p⟩
  show (if _ then _ else _) = _
  exact if_pos h

/-! ### Examples, and what goes wrong -/

theorem normPath_example : normPath c!"//a/../b//./c d/" = c!"//b/c d" ∧ normPath c!"../x/../../y" = c!"../../y" ∧ normPath c!"a/.." = c!"." := by decide

theorem opens_example : QuotedOk c!"../my novel/./it's; \u00e4 (1).odt" ∧
    openDocument none (some c!"../my novel/./it's; \u00e4 (1).odt") = .shell c!"xdg-open \"../my novel/it's; \u00e4 (1).odt\"" := by
  refine ⟨?_, by decide⟩
  unfold QuotedOk
  decide

/-- The full statement is false: a quotation mark in the path ends the argument, and the rest is executed as a command. -/
theorem C65_refute_quote : ∃ command, openDocument none (some c!"a\";rm -r b;\"") = .shell command ∧
    shellCommands command = some [[c!"xdg-open", c!"a"], [c!"rm", c!"-r", c!"b"], [[]]] := ⟨_, rfl, by decide⟩

/-- A dollar sign in the path is replaced by the shell. -/
theorem C65_refute_dollar : ∃ command, openDocument none (some c!"$HOME.odt") = .shell command ∧ shellCommands command = none := ⟨_, rfl, by decide⟩

/-- The command of macOS is never tried: a command that the system does not know is no exception. -/
theorem C65_never_open (startfile : Option (Str → Bool)) (document : Option Str) (command : Str) (h : openDocument startfile document = .shell command) :
    c!"xdg-open " <+: command := by
  unfold openDocument at h
  simp only [] at h
  split at h
  · cases h
  · split at h
    · injection h with h
      subst h
      exact ⟨_, by simp only [List.append_assoc]; rfl⟩
    · rename_i h1
      split at h
      · rename_i h2
        exfalso
        apply h1
        unfold passable at h2 ⊢
        rw [decide_eq_true_eq] at h2 ⊢
        simp only [List.mem_append, not_or] at h2 ⊢
        exact ⟨⟨by decide, h2.1.2⟩, by decide⟩
      · cases h

end Verif
