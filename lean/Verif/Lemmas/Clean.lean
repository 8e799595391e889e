/-
The texts of a parsed project file (for C72).
-/
import Verif.Spec.Clean
import Verif.Spec.Disk
import Verif.Lemmas.Travel5

namespace Verif
open Spec Elem Xml

/-! ### The tokeniser -/

/-- The characters of a text that has been read. -/
def TokClean : Tok → Prop
  | .chars s => Carriable s
  | _ => True

/-- The characters that have been accumulated. -/
def LxClean : Lx → Prop
  | .text acc => Carriable acc
  | .entity acc _ => Carriable acc
  | .cdata acc => Carriable acc
  | _ => True

theorem carriable_cons {c : Char} {t : Str} (h1 : xmlLegal c = true) (h2 : c ≠ '\r') (h : Carriable t) : Carriable (c :: t) := by
  intro d hd
  rcases List.mem_cons.1 hd with rfl | hd
  · exact ⟨h1, h2⟩
  · exact h d hd

theorem carriable_sub {a b : Str} (h : Carriable b) (hs : ∀ c ∈ a, c ∈ b) : Carriable a := fun c hc => h c (hs c hc)

theorem carriable_nil : Carriable [] := fun c hc => by cases hc

theorem pend_clean {acc : Str} (h : Carriable acc) : ∀ t ∈ Spec.pend acc, TokClean t := by
  intro t ht
  unfold Spec.pend at ht
  split at ht
  · cases ht
  · rw [List.mem_singleton] at ht
    subst ht
    exact carriable_sub h (fun c hc => List.mem_reverse.1 hc)

theorem entity_legal {k : Str} {x : Char} (h : entities.lookup k = some x) : xmlLegal x = true ∧ x ≠ '\r' := by
  have hm : (k, x) ∈ entities := by
    obtain ⟨l1, l2, h1, h2⟩ := List.lookup_eq_some_iff.1 h
    rw [h1]
    simp
  unfold entities at hm
  simp only [List.mem_cons, Prod.mk.injEq, List.not_mem_nil, or_false] at hm
  rcases hm with ⟨_, rfl⟩ | ⟨_, rfl⟩ | ⟨_, rfl⟩ | ⟨_, rfl⟩ | ⟨_, rfl⟩ <;> decide

theorem lexStep_clean {st : Lx} {c : Char} (hs : LxClean st) (hc : c ≠ '\r') : LxClean (lexStep st c).1 ∧ ∀ t ∈ (lexStep st c).2, TokClean t := by
  have nilT : ∀ t ∈ ([] : List Tok), TokClean t := fun t ht => by cases ht
  cases st with
  | text acc =>
    rw [lexStep]
    split
    · exact ⟨trivial, pend_clean hs⟩
    · split
      · exact ⟨hs, nilT⟩
      · split
        · exact ⟨trivial, nilT⟩
        · split
          · rename_i h
            exact ⟨carriable_cons h hc hs, nilT⟩
          · exact ⟨trivial, nilT⟩
  | entity acc name =>
    rw [lexStep]
    split
    · split
      · rename_i x hx
        obtain ⟨h1, h2⟩ := entity_legal hx
        exact ⟨carriable_cons h1 h2 hs, nilT⟩
      · exact ⟨trivial, nilT⟩
    · exact ⟨hs, nilT⟩
  | lt => rw [lexStep]; (repeat' split) <;> exact ⟨trivial, nilT⟩
  | tag n =>
    rw [lexStep]
    split
    · refine ⟨carriable_nil, ?_⟩
      intro t ht
      rw [List.mem_singleton] at ht
      subst ht
      trivial
    · (repeat' split) <;> exact ⟨trivial, nilT⟩
  | tagBlank n =>
    rw [lexStep]
    split
    · refine ⟨carriable_nil, ?_⟩
      intro t ht
      rw [List.mem_singleton] at ht
      subst ht
      trivial
    · (repeat' split) <;> exact ⟨trivial, nilT⟩
  | tagSlash n =>
    rw [lexStep]
    split
    · refine ⟨carriable_nil, ?_⟩
      intro t ht
      simp only [List.mem_cons, List.not_mem_nil, or_false] at ht
      rcases ht with rfl | rfl <;> trivial
    · exact ⟨trivial, nilT⟩
  | close n =>
    rw [lexStep]
    split
    · refine ⟨carriable_nil, ?_⟩
      intro t ht
      rw [List.mem_singleton] at ht
      subst ht
      trivial
    · split <;> exact ⟨trivial, nilT⟩
  | bang s =>
    rw [lexStep]
    split
    · exact ⟨carriable_nil, nilT⟩
    · split <;> exact ⟨trivial, nilT⟩
  | cdata acc =>
    rw [lexStep]
    split
    · exact ⟨carriable_nil, pend_clean (carriable_sub hs (fun c hc => List.mem_of_mem_drop hc))⟩
    · split
      · rename_i h
        exact ⟨carriable_cons h hc hs, nilT⟩
      · exact ⟨trivial, nilT⟩
  | instr acc =>
    rw [lexStep]
    split
    · exact ⟨carriable_nil, nilT⟩
    · exact ⟨trivial, nilT⟩
  | bad => exact ⟨trivial, nilT⟩

theorem lexRun_clean (s : Str) (hs : '\r' ∉ s) : ∀ st, LxClean st → LxClean (lexRun st s).1 ∧ ∀ t ∈ (lexRun st s).2, TokClean t := by
  induction s with
  | nil => exact fun st h => ⟨h, fun t ht => by cases ht⟩
  | cons c cs ih =>
    intro st h
    rw [List.mem_cons, not_or] at hs
    obtain ⟨h1, h2⟩ := lexStep_clean (c := c) h (Ne.symm hs.1)
    obtain ⟨h3, h4⟩ := ih hs.2 _ h1
    unfold lexRun
    refine ⟨h3, ?_⟩
    intro t ht
    rcases List.mem_append.1 ht with ht | ht
    · exact h2 t ht
    · exact h4 t ht

theorem lex_clean {s : Str} (hs : '\r' ∉ s) {ts : List Tok} (h : lex s = some ts) : ∀ t ∈ ts, TokClean t := by
  unfold lex at h
  obtain ⟨h1, h2⟩ := lexRun_clean s hs (.text []) carriable_nil
  split at h
  · rename_i acc ts' e
    rw [e] at h1 h2
    injection h with h
    rw [← h]
    intro t ht
    rcases List.mem_append.1 ht with ht | ht
    · exact h2 t ht
    · exact pend_clean h1 t ht
  · cases h

/-! ### The tree builder -/

mutual
/-- All texts in a tree. -/
def CleanTree : Elem → Prop
  | node _ x y ks => CarriableO x ∧ CarriableO y ∧ CleanTreeL ks
/-- All texts in a list of trees. -/
def CleanTreeL : List Elem → Prop
  | [] => True
  | e :: r => CleanTree e ∧ CleanTreeL r
end

theorem CleanTreeL_iff {ks : List Elem} : CleanTreeL ks ↔ ∀ e ∈ ks, CleanTree e := by
  induction ks with
  | nil => exact ⟨fun _ e he => (by cases he), fun _ => trivial⟩
  | cons k ks ih =>
    unfold CleanTreeL
    rw [ih, List.forall_mem_cons]

theorem CleanTree_iff {e : Elem} : CleanTree e ↔ CarriableO e.text ∧ CarriableO e.tail ∧ ∀ k ∈ e.kids, CleanTree k := by
  cases e
  rw [CleanTree, CleanTreeL_iff]
  rfl

/-- An open element. -/
def FrameClean (f : Frame) : Prop := CarriableO f.text ∧ ∀ e ∈ f.kids, CleanTree e

theorem glue_clean {v : Option Str} {s : Str} (hv : CarriableO v) (hs : Carriable s) : CarriableO (glue v s) := by
  unfold glue
  intro c hc
  rcases List.mem_append.1 hc with hc | hc
  · cases v with
    | none => cases hc
    | some t => exact hv c hc
  · exact hs c hc

theorem addChars_clean {f : Frame} {s : Str} (hf : FrameClean f) (hs : Carriable s) : FrameClean (f.addChars s) := by
  obtain ⟨h1, h2⟩ := hf
  unfold Frame.addChars
  split
  · rename_i hk
    exact ⟨glue_clean h1 hs, h2⟩
  · rename_i t x y ks r hk
    refine ⟨h1, ?_⟩
    rw [hk] at h2
    intro e he
    rcases List.mem_cons.1 he with rfl | he
    · have := h2 _ List.mem_cons_self
      rw [CleanTree_iff] at this ⊢
      exact ⟨this.1, glue_clean this.2.1 hs, this.2.2⟩
    · exact h2 e (List.mem_cons_of_mem _ he)

theorem elem_clean {f : Frame} (hf : FrameClean f) : CleanTree f.elem := by
  rw [CleanTree_iff]
  exact ⟨hf.1, trivial, fun k hk => hf.2 k (List.mem_reverse.1 hk)⟩

/-- The state of the tree builder. -/
def BldClean (b : Bld) : Prop := (∀ f ∈ b.frames, FrameClean f) ∧ ∀ e, b.root = some e → CleanTree e

theorem bldStep_clean {b b' : Bld} {t : Tok} (hb : BldClean b) (ht : TokClean t) (h : b.step t = some b') : BldClean b' := by
  obtain ⟨fs, r⟩ := b
  obtain ⟨h1, h2⟩ := hb
  cases t with
  | start t =>
    unfold Bld.step at h
    dsimp only at h
    have hres : BldClean ⟨{ tag := t } :: fs, r⟩ := by
      refine ⟨?_, h2⟩
      intro f hf
      rcases List.mem_cons.1 hf with rfl | hf
      · exact ⟨trivial, fun e he => by cases he⟩
      · exact h1 f hf
    split at h
    · cases h
    · injection h with h
      rw [← h]
      exact hres
  | stop t =>
    unfold Bld.step at h
    dsimp only at h
    split at h
    · cases h
    · rename_i f fs'
      have hf := h1 f List.mem_cons_self
      split at h
      · split at h
        · injection h with h
          rw [← h]
          refine ⟨fun f hf => (by cases hf), ?_⟩
          intro e he
          injection he with he
          rw [← he]
          exact elem_clean hf
        · rename_i g gs
          injection h with h
          rw [← h]
          refine ⟨?_, h2⟩
          intro k hk
          rcases List.mem_cons.1 hk with rfl | hk
          · obtain ⟨g1, g2⟩ := h1 g (by simp)
            refine ⟨g1, ?_⟩
            intro e he
            rcases List.mem_cons.1 he with rfl | he
            · exact elem_clean hf
            · exact g2 e he
          · exact h1 k (by simp [hk])
      · cases h
  | chars s =>
    unfold Bld.step at h
    dsimp only at h
    split at h
    · split at h
      · injection h with h
        rw [← h]
        exact ⟨h1, h2⟩
      · cases h
    · rename_i f fs'
      injection h with h
      rw [← h]
      refine ⟨?_, h2⟩
      intro k hk
      rcases List.mem_cons.1 hk with rfl | hk
      · exact addChars_clean (h1 f List.mem_cons_self) ht
      · exact h1 k (List.mem_cons_of_mem _ hk)

theorem bldRun_clean (ts : List Tok) (ht : ∀ t ∈ ts, TokClean t) : ∀ b b', BldClean b → Bld.run b ts = some b' → BldClean b' := by
  induction ts with
  | nil =>
    intro b b' hb h
    unfold Bld.run at h
    injection h with h
    rw [← h]
    exact hb
  | cons t ts ih =>
    intro b b' hb h
    unfold Bld.run at h
    cases hs : b.step t with
    | none => rw [hs] at h; cases h
    | some c =>
      rw [hs] at h
      exact ih (fun u hu => ht u (List.mem_cons_of_mem _ hu)) c b' (bldStep_clean hb (ht t List.mem_cons_self) hs) h

/-- All texts in a parsed document consist of legal characters. -/
theorem parseXml_clean {s : Str} (hs : '\r' ∉ s) {x : Elem} (h : parseXml s = some x) : CleanTree x := by
  unfold parseXml at h
  cases hl : lex s with
  | none => rw [hl] at h; cases h
  | some ts =>
    rw [hl] at h
    cases hr : Bld.run {} ts with
    | none => simp only [Option.bind_some, hr] at h; cases h
    | some b =>
      simp only [Option.bind_some, hr] at h
      have hb := bldRun_clean ts (lex_clean hs hl) {} b ⟨fun f hf => (by cases hf), fun e he => (by cases he)⟩ hr
      split at h
      · rename_i e he
        injection he with he
        injection h with h
        rw [← h]
        rw [he] at hb
        exact hb.2 e rfl
      · cases h

theorem universalNewlines_cr : ∀ s : Str, '\r' ∉ universalNewlines s
  | [] => by simp [universalNewlines]
  | [c] => by
    unfold universalNewlines
    split
    · simp_all
    · simp_all [universalNewlines]
    · simp_all [universalNewlines]
    · rename_i hc h
      simp_all [universalNewlines]
      exact fun e => hc e.symm
  | c :: d :: r => by
    have h1 := universalNewlines_cr r
    have h2 := universalNewlines_cr (d :: r)
    unfold universalNewlines
    split
    · simp_all
    · simp_all
    · simp_all
    · rename_i hc h
      simp_all
      exact fun e => hc e.symm

theorem parserInput_cr (s : Str) : '\r' ∉ parserInput s := by
  intro h
  exact universalNewlines_cr s (List.mem_filter.1 h).1

end Verif
