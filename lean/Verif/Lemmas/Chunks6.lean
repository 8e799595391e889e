/-
The tags the ODT parser reports.
-/
import Verif.Lemmas.Chunks5

namespace Verif
open Spec

/-- The tags that are reported: a fixed list, and headings. -/
def KnownTag (t : Str) : Prop :=
  t ∈ [c!"em", c!"strong", c!"lang", c!"blockquote", c!"li", c!"p", c!"div", c!"s", c!"body", c!"title", c!"meta"] ∨ t.head? = some 'h'

theorem KnownTag.noBreak {t : Str} (h : KnownTag t) : t ≠ c!"br" ∧ t ≠ c!"ul" := by
  rcases h with h | h
  · revert t
    decide
  · constructor
    · rintro rfl; cases h
    · rintro rfl; cases h

/-- All starting tags are known. -/
def KnownCalls (cs : List Call) : Prop := ∀ t as, Call.start t as ∈ cs → KnownTag t

theorem KnownCalls.nil : KnownCalls [] := fun _ _ h => by cases h
theorem KnownCalls.append {a b : List Call} (ha : KnownCalls a) (hb : KnownCalls b) : KnownCalls (a ++ b) := by
  intro t as h
  rcases List.mem_append.1 h with h | h
  · exact ha t as h
  · exact hb t as h
theorem KnownCalls.one {t : Str} (as : List (Str × Option Str)) (h : KnownTag t) : KnownCalls [.start t as] := by
  intro u bs hm
  rw [List.mem_singleton] at hm
  cases hm
  exact h
theorem KnownCalls.noStart {cs : List Call} (h : ∀ c ∈ cs, ∀ t as, c ≠ .start t as) : KnownCalls cs :=
  fun t as hm => absurd rfl (h _ hm t as)

/-- All names of styles for headings stand for headings. -/
def HeadingNames (p : OdtP) : Prop := ∀ s h, p.headingTags.get? s = some h → h.head? = some 'h'

theorem headingOfStyle_known {s h : Str} (e : OdtP.headingOfStyle s = .ok h) : h.head? = some 'h' := by
  unfold OdtP.headingOfStyle at e
  split at e
  · cases e; rfl
  · cases e

theorem emphasis_known (style : Str) (r : OdtP × List Call) (h : KnownCalls r.2) :
    KnownCalls (OdtP.emphasis style r).2 ∧ (OdtP.emphasis style r).1.headingTags = r.1.headingTags := by
  have h1 : ∀ (b : Prop) [Decidable b] (x : OdtP × List Call) (t : Str), KnownCalls x.2 → KnownTag t →
      let y := if b then ({ x.1 with span := t :: x.1.span }, x.2 ++ [Call.start t []]) else x
      KnownCalls y.2 ∧ y.1.headingTags = x.1.headingTags := by
    intro b _ x t hx ht
    dsimp only
    split
    · exact ⟨hx.append (.one _ ht), rfl⟩
    · exact ⟨hx, rfl⟩
  unfold OdtP.emphasis
  have a := h1 (style ∈ r.1.emTags) r c!"em" h (.inl (by decide))
  dsimp only at a ⊢
  have b := h1 (style ∈ (if style ∈ r.1.emTags then ({ r.1 with span := c!"em" :: r.1.span }, r.2 ++ [Call.start c!"em" []]) else r).1.strongTags)
    (if style ∈ r.1.emTags then ({ r.1 with span := c!"em" :: r.1.span }, r.2 ++ [Call.start c!"em" []]) else r) c!"strong" a.1 (.inl (by decide))
  exact ⟨b.1, b.2.trans a.2⟩

theorem startParagraph_known {p : OdtP} {style : Str} {r : OdtP × List Call} (hp : HeadingNames p) (h : OdtP.startParagraph p style = .ok r) :
    KnownCalls r.2 ∧ r.1.headingTags = p.headingTags := by
  unfold OdtP.startParagraph at h
  dsimp only at h
  split at h
  · cases h; exact ⟨.nil, rfl⟩
  · split at h
    · cases h; exact ⟨.one _ (.inl (by decide)), rfl⟩
    split at h
    · split at h
      · rename_i he
        cases h; exact ⟨.one _ (.inr (headingOfStyle_known he)), rfl⟩
      · cases h
    split at h
    · rename_i hg
      cases h; exact ⟨.one _ (.inr (hp _ _ hg)), rfl⟩
    split at h
    · cases h; exact ⟨.one _ (.inl (by decide)), rfl⟩
    · cases h; exact ⟨.one _ (.inl (by decide)), rfl⟩

theorem startStyle_known {p : OdtP} (as : Dict Str) (hp : HeadingNames p) : HeadingNames (OdtP.startStyle p as) := by
  unfold OdtP.startStyle
  dsimp only
  split
  · exact hp
  · split
    · intro s h hg
      rw [Dict.get?_set] at hg
      split at hg
      · cases hg; rfl
      · exact hp _ _ hg
    split
    · exact hp
    · exact hp

theorem textProperties_known {p p' : OdtP} {as : Dict Str} (h : OdtP.textProperties p as = .ok p') : p'.headingTags = p.headingTags := by
  unfold OdtP.textProperties at h
  split at h
  · split at h
    · cases h
    · cases h; rfl
  · rename_i s _
    dsimp only at h
    have e1 : (if as.get? c!"fo:font-style" = some c!"italic" then { p with emTags := p.emTags ++ [s] } else p).headingTags = p.headingTags := by
      split <;> rfl
    generalize (if as.get? c!"fo:font-style" = some c!"italic" then { p with emTags := p.emTags ++ [s] } else p) = q at h e1
    have e2 : (if as.get? c!"fo:font-weight" = some c!"bold" then { q with strongTags := q.strongTags ++ [s] } else q).headingTags
        = q.headingTags := by split <;> rfl
    generalize (if as.get? c!"fo:font-weight" = some c!"bold" then { q with strongTags := q.strongTags ++ [s] } else q) = q2 at h e2
    split at h
    · cases h; exact e2.trans e1
    · cases h; exact e2.trans e1
    · split at h
      · cases h
      · cases h; exact e2.trans e1

theorem startElement_known {p : OdtP} {name : Str} {as : Dict Str} {r : OdtP × List Call} (hp : HeadingNames p)
    (h : OdtP.startElement p name as = .ok r) : KnownCalls r.2 ∧ HeadingNames r.1 := by
  have keep : ∀ {q : OdtP}, q.headingTags = p.headingTags → HeadingNames q := by
    intro q hq s h hg
    rw [hq] at hg
    exact hp s h hg
  unfold OdtP.startElement at h
  dsimp only at h
  split at h
  · split at h
    · rename_i r1 he
      obtain ⟨k1, k2⟩ := startParagraph_known hp he
      cases h
      obtain ⟨k3, k4⟩ := emphasis_known ((as.get? c!"text:style-name").getD []) r1 k1
      exact ⟨k3, keep (k4.trans k2)⟩
    · cases h
  split at h
  · obtain ⟨k3, k4⟩ := emphasis_known ((as.get? c!"text:style-name").getD []) (p, []) .nil
    split at h
    · cases h
      exact ⟨k3.append (.one _ (.inl (by decide))), keep k4⟩
    · cases h
      exact ⟨k3, keep k4⟩
  split at h
  · split at h
    · cases h; exact ⟨.one _ (.inl (by decide)), hp⟩
    · cases h
  split at h
  · cases h; exact ⟨.nil, hp⟩
  split at h
  · split at h
    · cases h; exact ⟨.one _ (.inr rfl), hp⟩
    · split at h
      · rename_i he
        cases h; exact ⟨.one _ (.inr (headingOfStyle_known he)), hp⟩
      · cases h
  split at h
  · cases h; exact ⟨.nil, hp⟩
  split at h
  · cases h; exact ⟨.nil, startStyle_known as hp⟩
  split at h
  · split at h
    · rename_i he
      cases h; exact ⟨.nil, keep (textProperties_known he)⟩
    · cases h
  split at h
  · cases h; exact ⟨.one _ (.inl (by decide)), hp⟩
  · cases h; exact ⟨.nil, hp⟩

theorem endElement_known {p : OdtP} (name : Str) (hp : HeadingNames p) :
    KnownCalls (OdtP.endElement p name).2 ∧ HeadingNames (OdtP.endElement p name).1 := by
  have hstop : ∀ (l : List Str) (t : Str), KnownCalls (l.map Call.stop ++ [.stop t]) := by
    intro l t
    apply KnownCalls.noStart
    intro c hc u as e
    subst e
    simp at hc
  have hs : ∀ (c : Call), (∀ t as, c ≠ .start t as) → KnownCalls [c] := by
    intro c hc
    apply KnownCalls.noStart
    intro d hd
    rw [List.mem_singleton] at hd
    subst hd
    exact hc
  unfold OdtP.endElement
  split
  · split
    · exact ⟨.nil, hp⟩
    · dsimp only
      split
      · exact ⟨hstop _ _, hp⟩
      split
      · exact ⟨hstop _ _, hp⟩
      · exact ⟨hstop _ _, hp⟩
  split
  · split
    · exact ⟨.nil, hp⟩
    · exact ⟨hs _ (fun _ _ h => by cases h), hp⟩
  split
  · exact ⟨hs _ (fun _ _ h => by cases h), hp⟩
  split
  · exact ⟨hs _ (fun _ _ h => by cases h), hp⟩
  split
  · exact ⟨hs _ (fun _ _ h => by cases h), hp⟩
  split
  · exact ⟨.nil, hp⟩
  split
  · exact ⟨.nil, hp⟩
  · exact ⟨.nil, hp⟩

theorem odtRun_known {p : OdtP} {es : List Ev} {r : OdtP × List Call} (hp : HeadingNames p) (h : OdtP.run p es = .ok r) : KnownCalls r.2 := by
  induction es generalizing p r with
  | nil => cases h; exact .nil
  | cons e es ih =>
    simp only [OdtP.run] at h
    obtain ⟨r1, h1, h⟩ := bind_ok h
    obtain ⟨q, h2, h⟩ := bind_ok h
    cases h
    have hk : KnownCalls r1.2 ∧ HeadingNames r1.1 := by
      cases e with
      | start t as => exact startElement_known hp h1
      | stop t => cases h1; exact endElement_known t hp
      | chars s =>
        cases h1
        simp only [OdtP.characters]
        split
        · split
          · exact ⟨.nil, hp⟩
          · exact ⟨.nil, hp⟩
        · split
          · refine ⟨?_, hp⟩
            intro t as hm
            rw [List.mem_singleton] at hm
            cases hm
          · exact ⟨.nil, hp⟩
    exact hk.1.append (ih hk.2 h2)

theorem styleCalls_known {l : List XNode} {cs : List Call} (h : styleCalls l = .ok cs) : KnownCalls cs := by
  induction l with
  | nil => cases h; exact .nil
  | cons s r ih =>
    simp only [styleCalls] at h
    split at h
    · split at h
      · cases h
      · cases h; exact .one _ (.inl (by decide))
    · exact ih h

theorem metaCalls_known {root : XNode} {cs : List Call} (h : metaCalls root = .ok cs) : KnownCalls cs := by
  unfold metaCalls at h
  split at h
  · cases h
  · cases h
    refine KnownCalls.append (KnownCalls.append ?_ ?_) ?_
    · split
      · intro t as hm
        simp at hm
        rw [hm.1]
        exact .inl (by decide)
      · exact .nil
    · split
      · exact .one _ (.inl (by decide))
      · exact .nil
    · split
      · exact .one _ (.inl (by decide))
      · exact .nil

theorem feedFile_known {f : OdtFile} {cs : List Call} (h : feedFile f = .ok cs) : KnownCalls cs := by
  unfold feedFile at h
  obtain ⟨a, h1, h⟩ := bind_ok h
  obtain ⟨b, h2, h⟩ := bind_ok h
  obtain ⟨c, h3, h⟩ := bind_ok h
  cases h
  refine KnownCalls.append (KnownCalls.append ?_ ?_) (odtRun_known (p := {}) (by intro s h hg; cases hg) h3)
  · unfold stylesCalls at h1
    split at h1
    · cases h1
    · exact styleCalls_known h1
  · cases hi : f.info with
    | none => rw [hi] at h2; cases h2; exact .nil
    | some r => rw [hi] at h2; exact metaCalls_known h2

theorem feedFile_noBreaks {f : OdtFile} {cs : List Call} (h : feedFile f = .ok cs) : NoBreaks cs :=
  fun t as hm => (feedFile_known h t as hm).noBreak

end Verif
