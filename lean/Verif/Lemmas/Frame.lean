/-
Frame conditions of the ODT readers.
-/
import Verif.Spec.Frame
import Verif.Lemmas.Chunks6

namespace Verif
open Spec

theorem idOf_firstNumber {v id : Str} (h : Rd.firstNumber v = .ok id) : idOf v = id := by
  induction v with
  | nil => cases h
  | cons c cs ih =>
    have hd : ∀ c, Str.isDig c = (decide ('0' ≤ c) && decide (c ≤ '9')) := fun _ => rfl
    simp only [Rd.firstNumber] at h
    split at h
    · rename_i hc
      cases h
      unfold idOf
      rw [List.dropWhile_cons_of_neg (by rw [← hd, hc]; decide)]
      rfl
    · rename_i hc
      rw [← ih h]
      unfold idOf
      rw [List.dropWhile_cons_of_pos (by rw [← hd]; simpa using hc)]

theorem firstNumber_ne {v id : Str} (h : Rd.firstNumber v = .ok id) : id ≠ [] := by
  induction v with
  | nil => cases h
  | cons c cs ih =>
    simp only [Rd.firstNumber] at h
    split at h
    · rename_i hc
      cases h
      rw [List.takeWhile_cons_of_pos hc]
      exact List.cons_ne_nil _ _
    · exact ih h

/-! ### The sections of the document and the calls -/

/-- The calls for sections. -/
def DivCalls (names : List Str) (cs : List Call) : Prop := ∀ as, Call.start c!"div" as ∈ cs → ∃ name ∈ names, as = [(c!"id", some name)]

theorem DivCalls.nil (names : List Str) : DivCalls names [] := fun _ h => by cases h
theorem DivCalls.append {names : List Str} {a b : List Call} (ha : DivCalls names a) (hb : DivCalls names b) : DivCalls names (a ++ b) := by
  intro as h
  rcases List.mem_append.1 h with h | h
  · exact ha as h
  · exact hb as h
theorem DivCalls.mono {names names' : List Str} {a : List Call} (ha : DivCalls names a) (h : names ⊆ names') : DivCalls names' a := by
  intro as hm
  obtain ⟨name, hn, e⟩ := ha as hm
  exact ⟨name, h hn, e⟩
theorem DivCalls.one {names : List Str} {t : Str} (as : List (Str × Option Str)) (h : t ≠ c!"div") : DivCalls names [.start t as] := by
  intro bs hm
  rw [List.mem_singleton] at hm
  cases hm
  exact absurd rfl h
theorem DivCalls.noStart {names : List Str} {cs : List Call} (h : ∀ c ∈ cs, ∀ t as, c ≠ .start t as) : DivCalls names cs :=
  fun as hm => absurd rfl (h _ hm _ as)
theorem ne_div_of_h {t : Str} (h : t.head? = some 'h') : t ≠ c!"div" := by rintro rfl; cases h

theorem emphasis_div (names : List Str) (style : Str) (r : OdtP × List Call) (h : DivCalls names r.2) : DivCalls names (OdtP.emphasis style r).2 := by
  have h1 : ∀ (b : Prop) [Decidable b] (x : OdtP × List Call) (t : Str), DivCalls names x.2 → t ≠ c!"div" →
      DivCalls names (if b then ({ x.1 with span := t :: x.1.span }, x.2 ++ [Call.start t []]) else x).2 := by
    intro b _ x t hx ht
    split
    · exact hx.append (.one _ ht)
    · exact hx
  unfold OdtP.emphasis
  exact h1 _ _ c!"strong" (h1 _ r c!"em" h (by decide)) (by decide)

theorem startParagraph_div {names : List Str} {p : OdtP} {style : Str} {r : OdtP × List Call} (hp : HeadingNames p)
    (h : OdtP.startParagraph p style = .ok r) : DivCalls names r.2 := by
  unfold OdtP.startParagraph at h
  dsimp only at h
  split at h
  · cases h; exact .nil _
  · split at h
    · cases h; exact .one _ (by decide)
    split at h
    · split at h
      · rename_i he
        cases h; exact .one _ (ne_div_of_h (headingOfStyle_known he))
      · cases h
    split at h
    · rename_i hg
      cases h; exact .one _ (ne_div_of_h (hp _ _ hg))
    split at h
    · cases h; exact .one _ (by decide)
    · cases h; exact .one _ (by decide)

theorem startElement_div {p : OdtP} {name : Str} {as : Dict Str} {r : OdtP × List Call} (hp : HeadingNames p)
    (h : OdtP.startElement p name as = .ok r) : DivCalls (if name = c!"text:section" then (as.get? c!"text:name").toList else []) r.2 := by
  unfold OdtP.startElement at h
  dsimp only at h
  split at h
  · split at h
    · rename_i r1 he
      cases h
      exact emphasis_div _ _ _ (startParagraph_div hp he)
    · cases h
  split at h
  · split at h
    · cases h
      exact (emphasis_div _ _ _ (.nil _)).append (.one _ (by decide))
    · cases h
      exact emphasis_div _ _ _ (.nil _)
  split at h
  · rename_i hname
    split at h
    · rename_i id hid
      cases h
      intro bs hm
      rw [List.mem_singleton] at hm
      cases hm
      refine ⟨id, ?_, rfl⟩
      rw [if_pos hname, hid]
      exact List.mem_singleton.2 rfl
    · cases h
  split at h
  · cases h; exact .nil _
  split at h
  · split at h
    · cases h; exact .one _ (ne_div_of_h rfl)
    · split at h
      · rename_i he
        cases h; exact .one _ (ne_div_of_h (headingOfStyle_known he))
      · cases h
  split at h
  · cases h; exact .nil _
  split at h
  · cases h; exact .nil _
  split at h
  · split at h
    · cases h; exact .nil _
    · cases h
  split at h
  · cases h; exact .one _ (by decide)
  · cases h; exact .nil _

theorem endElement_noStart (p : OdtP) (name : Str) : ∀ c ∈ (OdtP.endElement p name).2, ∀ t as, c ≠ .start t as := by
  have hstop : ∀ (l : List Str) (t : Str), ∀ c ∈ l.map Call.stop ++ [.stop t], ∀ u as, c ≠ .start u as := by
    intro l t c hc u as e
    subst e
    simp at hc
  have hs : ∀ (c : Call), (∀ t as, c ≠ .start t as) → ∀ d ∈ [c], ∀ t as, d ≠ .start t as := by
    intro c hc d hd
    rw [List.mem_singleton] at hd
    subst hd
    exact hc
  have hn : ∀ c ∈ ([] : List Call), ∀ t as, c ≠ .start t as := by intro c hc; cases hc
  unfold OdtP.endElement
  split
  · split
    · exact hn
    · dsimp only
      split
      · exact hstop _ _
      split
      · exact hstop _ _
      · exact hstop _ _
  split
  · split
    · exact hn
    · exact hs _ (fun _ _ h => by cases h)
  split
  · exact hs _ (fun _ _ h => by cases h)
  split
  · exact hs _ (fun _ _ h => by cases h)
  split
  · exact hs _ (fun _ _ h => by cases h)
  split
  · exact hn
  split
  · exact hn
  · exact hn

theorem odtRun_div {p : OdtP} {es : List Ev} {r : OdtP × List Call} (hp : HeadingNames p) (h : OdtP.run p es = .ok r) :
    DivCalls (sectionNames es) r.2 := by
  induction es generalizing p r with
  | nil => cases h; exact .nil _
  | cons e es ih =>
    simp only [OdtP.run] at h
    obtain ⟨r1, h1, h⟩ := bind_ok h
    obtain ⟨q, h2, h⟩ := bind_ok h
    cases h
    cases e with
    | start t as =>
      have hk := startElement_known hp h1
      exact ((startElement_div hp h1).mono (by simp [sectionNames])).append ((ih hk.2 h2).mono (by simp [sectionNames]))
    | stop t =>
      cases h1
      exact (DivCalls.noStart (endElement_noStart p t)).append (ih (endElement_known t hp).2 h2)
    | chars s =>
      cases h1
      refine DivCalls.append ?_ (ih (p := (OdtP.characters p s).1) ?_ h2)
      · apply DivCalls.noStart
        intro c hc u as e
        subst e
        unfold OdtP.characters at hc
        split at hc
        · split at hc <;> cases hc
        · split at hc
          · simp at hc
          · cases hc
      · unfold OdtP.characters
        split
        · split
          · exact hp
          · exact hp
        · split
          · exact hp
          · exact hp

theorem feedFile_div {st : XNode} {info : Option XNode} {x : List Ev} {cs : List Call} (h : feedFile ⟨st, info, x⟩ = .ok cs) :
    DivCalls (sectionNames x) cs := by
  unfold feedFile at h
  obtain ⟨a, h1, h⟩ := bind_ok h
  obtain ⟨b, h2, h⟩ := bind_ok h
  obtain ⟨c, h3, h⟩ := bind_ok h
  cases h
  refine DivCalls.append (DivCalls.append ?_ ?_) (odtRun_div (p := {}) (by intro s h hg; cases hg) h3)
  · unfold stylesCalls at h1
    split at h1
    · cases h1
    · rename_i s _
      revert h1
      generalize XNode.sel c!"style:default-style" s.kids = l
      intro h1
      induction l with
      | nil => cases h1; exact .nil _
      | cons s r ih =>
        simp only [styleCalls] at h1
        split at h1
        · split at h1
          · cases h1
          · cases h1; exact .one _ (by decide)
        · exact ih h1
  · cases info with
    | none => cases h2; exact .nil _
    | some r =>
      have h2 : metaCalls r = .ok b := h2
      unfold metaCalls at h2
      split at h2
      · cases h2
      · cases h2
        refine DivCalls.append (DivCalls.append ?_ ?_) ?_
        · split
          · intro as hm
            simp at hm
          · exact .nil _
        · split
          · exact .one _ (by decide)
          · exact .nil _
        · split
          · exact .one _ (by decide)
          · exact .nil _

end Verif
