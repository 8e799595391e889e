/-
C35 for proof reading documents: the marks stand in the text.
-/
import Verif.Props.C35_Elements
import Verif.Lemmas.Text3

namespace Verif
open Spec

/-- The pieces of text of a document. -/
def Spec.textsOf : List Ev → List Str
  | [] => []
  | .chars s :: r => s :: textsOf r
  | _ :: r => textsOf r

/-- All texts of the file: those of the document, and the title in its properties. -/
def Spec.fileTexts (info : Option XNode) (x : List Ev) : List Str :=
  textsOf x ++ match info with
    | none => []
    | some root => match XNode.find c!"office:meta" root.kids with
      | none => []
      | some m => (metaField c!"dc:title" m).toList

/-- The text marks the scene with the given ID. -/
def Spec.Marked (texts : List Str) (id : Str) : Prop := ∃ s ∈ texts, c!"[ScID" <:+: s ∧ idOf s = id

/-- The text handed to the reader. -/
def DataCalls (texts : List Str) (cs : List Call) : Prop := ∀ s, Call.data s ∈ cs → s ∈ texts

theorem DataCalls.nil (t : List Str) : DataCalls t [] := fun _ h => by cases h
theorem DataCalls.append {t : List Str} {a b : List Call} (ha : DataCalls t a) (hb : DataCalls t b) : DataCalls t (a ++ b) := by
  intro as h
  rcases List.mem_append.1 h with h | h
  · exact ha as h
  · exact hb as h
theorem DataCalls.mono {t t' : List Str} {a : List Call} (ha : DataCalls t a) (h : t ⊆ t') : DataCalls t' a := fun s hs => h (ha s hs)
theorem DataCalls.one {t : List Str} (tag : Str) (as : List (Str × Option Str)) : DataCalls t [.start tag as] := by
  intro bs hm
  rw [List.mem_singleton] at hm
  cases hm

theorem emphasis_data (t : List Str) (style : Str) (r : OdtP × List Call) (h : DataCalls t r.2) : DataCalls t (OdtP.emphasis style r).2 := by
  have h1 : ∀ (b : Prop) [Decidable b] (x : OdtP × List Call) (tag : Str), DataCalls t x.2 →
      DataCalls t (if b then ({ x.1 with span := tag :: x.1.span }, x.2 ++ [Call.start tag []]) else x).2 := by
    intro b _ x tag hx
    split
    · exact hx.append (.one _ _)
    · exact hx
  unfold OdtP.emphasis
  exact h1 _ _ c!"strong" (h1 _ r c!"em" h)

theorem startParagraph_data {t : List Str} {p : OdtP} {style : Str} {r : OdtP × List Call}
    (h : OdtP.startParagraph p style = .ok r) : DataCalls t r.2 := by
  unfold OdtP.startParagraph at h
  dsimp only at h
  split at h
  · cases h; exact .nil _
  · split at h
    · cases h; exact .one _ _
    split at h
    · split at h
      · cases h; exact .one _ _
      · cases h
    split at h
    · cases h; exact .one _ _
    split at h
    · cases h; exact .one _ _
    · cases h; exact .one _ _

theorem startElement_data {t : List Str} {p : OdtP} {name : Str} {as : Dict Str} {r : OdtP × List Call}
    (h : OdtP.startElement p name as = .ok r) : DataCalls t r.2 := by
  unfold OdtP.startElement at h
  dsimp only at h
  split at h
  · split at h
    · rename_i r1 he
      cases h
      exact emphasis_data _ _ _ (startParagraph_data he)
    · cases h
  split at h
  · split at h
    · cases h
      exact (emphasis_data _ _ _ (.nil _)).append (.one _ _)
    · cases h
      exact emphasis_data _ _ _ (.nil _)
  split at h
  · split at h
    · cases h
      exact .one _ _
    · cases h
  split at h
  · cases h; exact .nil _
  split at h
  · split at h
    · cases h; exact .one _ _
    · split at h
      · cases h; exact .one _ _
      · cases h
  split at h
  · cases h; exact .nil _
  split at h
  · cases h; exact .nil _
  split at h
  · split at h
    · cases h; exact .nil _
    · cases h
  split at h
  · cases h; exact .one _ _
  · cases h; exact .nil _

theorem endElement_data (t : List Str) (p : OdtP) (name : Str) : DataCalls t (OdtP.endElement p name).2 := by
  have hstop : ∀ (l : List Str) (u : Str), DataCalls t (l.map Call.stop ++ [.stop u]) := by
    intro l u c hc
    simp at hc
  have hs : ∀ (c : Call), (∀ s, c ≠ .data s) → DataCalls t [c] := by
    intro c hc d hd
    rw [List.mem_singleton] at hd
    exact absurd hd.symm (hc d)
  unfold OdtP.endElement
  split
  · split
    · exact .nil _
    · dsimp only
      split
      · exact hstop _ _
      split
      · exact hstop _ _
      · exact hstop _ _
  split
  · split
    · exact .nil _
    · exact hs _ (fun _ h => by cases h)
  split
  · exact hs _ (fun _ h => by cases h)
  split
  · exact hs _ (fun _ h => by cases h)
  split
  · exact hs _ (fun _ h => by cases h)
  split
  · exact .nil _
  split
  · exact .nil _
  · exact .nil _

theorem odtRun_data {p : OdtP} {es : List Ev} {r : OdtP × List Call} (h : OdtP.run p es = .ok r) : DataCalls (textsOf es) r.2 := by
  induction es generalizing p r with
  | nil => cases h; exact .nil _
  | cons e es ih =>
    simp only [OdtP.run] at h
    obtain ⟨r1, h1, h⟩ := bind_ok h
    obtain ⟨q, h2, h⟩ := bind_ok h
    cases h
    cases e with
    | start t as => exact (startElement_data h1).append (ih h2)
    | stop t =>
      cases h1
      exact (endElement_data _ p t).append (ih h2)
    | chars s =>
      cases h1
      refine DataCalls.append ?_ ((ih h2).mono (by simp [textsOf]))
      intro d hd
      unfold OdtP.characters at hd
      split at hd
      · split at hd <;> cases hd
      · split at hd
        · rw [List.mem_singleton] at hd
          cases hd
          simp [textsOf]
        · cases hd

theorem feedFile_data {st : XNode} {info : Option XNode} {x : List Ev} {cs : List Call} (h : feedFile ⟨st, info, x⟩ = .ok cs) :
    DataCalls (fileTexts info x) cs := by
  unfold feedFile at h
  obtain ⟨a, h1, h⟩ := bind_ok h
  obtain ⟨b, h2, h⟩ := bind_ok h
  obtain ⟨c, h3, h⟩ := bind_ok h
  cases h
  refine DataCalls.append (DataCalls.append ?_ ?_) ((odtRun_data h3).mono (by simp [fileTexts]))
  · unfold stylesCalls at h1
    split at h1
    · cases h1
    · rename_i s _
      revert h1
      generalize XNode.sel c!"style:default-style" s.kids = l
      intro h1
      induction l with
      | nil => cases h1; exact .nil _
      | cons s r ih =>
        simp only [styleCalls] at h1
        split at h1
        · split at h1
          · cases h1
          · cases h1; exact .one _ _
        · exact ih h1
  · cases info with
    | none => cases h2; exact .nil _
    | some r =>
      replace h2 : metaCalls r = .ok b := h2
      unfold metaCalls at h2
      split at h2
      · cases h2
      · rename_i m hm
        cases h2
        refine DataCalls.append (DataCalls.append ?_ ?_) ?_
        · split
          · rename_i t ht
            intro s hs
            simp at hs
            subst hs
            unfold fileTexts
            rw [List.mem_append]
            right
            dsimp only
            rw [hm]
            dsimp only
            rw [ht]
            exact List.mem_singleton.2 rfl
          · exact .nil _
        · split
          · exact .one _ _
          · exact .nil _
        · split
          · exact .one _ _
          · exact .nil _

/-- A scene whose text has been read from a proof reading document. -/
def Spec.ProofRead (s s' : Scene) : Prop :=
  ∃ t, s' = { s with sceneContent := some t, wordCount := wordCountOf t, letterCount := letterCountOf t }

theorem proofRead_trans : TransRel ProofRead := by
  rintro a b c ⟨t1, rfl⟩ ⟨t2, rfl⟩
  exact ⟨t2, rfl⟩

theorem proofRun_inv {h : Reader} {P : Rd → Prop} {texts : List Str}
    (hstep : ∀ r r' c, (∀ s, c = .data s → s ∈ texts) → P r → h r c = .ok r' → P r')
    {cs : List Call} (hd : DataCalls texts cs) {r r' : Rd} (hr : P r) (he : h.run r cs = .ok r') : P r' := by
  induction cs generalizing r with
  | nil => cases he; exact hr
  | cons c cs ih =>
    simp only [Reader.run] at he
    obtain ⟨r1, h1, he⟩ := bind_ok he
    refine ih (fun as hm => hd as (by simp [hm])) (hstep r r1 c ?_ hr h1) he
    intro as hc
    exact hd as (by simp [hc])

/-- What proof reading keeps. -/
structure Proofed (texts : List Str) (n : Novel) (r : Rd) : Prop where
  keys : r.novel.scenes.keys = n.scenes.keys
  scenes : ∀ id s, n.scenes.get? id = some s → ∃ s', r.novel.scenes.get? id = some s' ∧ (s' = s ∨ (Marked texts id ∧ ProofRead s s'))
  rest : { r.novel with scenes := [], languages := none, languageCode := none, countryCode := none } =
    { n with scenes := [], languages := none, languageCode := none, countryCode := none }
  scene : ∀ id, r.scId = some id → Marked texts id

theorem Proofed.same {texts : List Str} {n : Novel} {r r' : Rd} (h : Proofed texts n r) (h1 : r'.novel = r.novel) (h2 : r'.scId = r.scId) :
    Proofed texts n r' := ⟨h1 ▸ h.keys, h1 ▸ h.scenes, h1 ▸ h.rest, h2 ▸ h.scene⟩

theorem Proofed.startLanguage {texts : List Str} {n : Novel} {r : Rd} (h : Proofed texts n r) (as : List (Str × Option Str)) :
    Proofed texts n (r.startLanguage as) := by
  unfold Rd.startLanguage
  split
  · split
    · exact ⟨h.keys, h.scenes, h.rest, h.scene⟩
    · exact h
  · exact h

theorem Proofed.stopLanguage {texts : List Str} {n : Novel} {r : Rd} (h : Proofed texts n r) : Proofed texts n r.stopLanguage := by
  unfold Rd.stopLanguage
  split
  · exact h
  · exact h.same rfl rfl

theorem Proofed.startBody {texts : List Str} {n : Novel} (as : List (Str × Option Str)) {r : Rd} (h : Proofed texts n r) :
    Proofed texts n (r.startBody as) := by
  induction as generalizing r with
  | nil => exact h
  | cons a as ih =>
    obtain ⟨k, v⟩ := a
    simp only [Rd.startBody]
    apply ih
    split
    · exact h
    · exact h
    · split
      · exact ⟨h.keys, h.scenes, h.rest, h.scene⟩
      split
      · exact ⟨h.keys, h.scenes, h.rest, h.scene⟩
      · exact h

theorem Proofed.start {texts : List Str} {n : Novel} {r : Rd} (h : Proofed texts n r) (t : Str) (as : List (Str × Option Str)) :
    Proofed texts n (proofStart r t as) := by
  unfold proofStart
  repeat' split
  all_goals first
    | exact h
    | exact h.same rfl rfl
    | exact h.startLanguage _
    | exact h.startBody _
    | exact Proofed.startLanguage (h.same (r' := r.push c!"> ") rfl rfl) _

theorem Proofed.stop {texts : List Str} {n : Novel} {r : Rd} (h : Proofed texts n r) (t : Str) : Proofed texts n (proofStop r t) := by
  unfold proofStop
  repeat' split
  all_goals first
    | exact h
    | exact h.same rfl rfl
    | exact h.stopLanguage
    | exact Proofed.stopLanguage (h.same (r' := r.push c!"\n") rfl rfl)

theorem Proofed.data {texts : List Str} {n : Novel} {r r' : Rd} {s : Str} (h : Proofed texts n r) (hs : s ∈ texts) (he : proofData r s = .ok r') :
    Proofed texts n r' := by
  unfold proofData at he
  dsimp only at he
  split at he
  · cases he; exact h.same rfl rfl
  split at he
  · rename_i hc
    split at he
    · rename_i id hid
      cases he
      refine ⟨h.keys, h.scenes, h.rest, ?_⟩
      intro k hk
      cases hk
      exact ⟨s, hs, (contains_iff _ _).1 hc, idOf_firstNumber hid⟩
    · cases he
  split at he
  · split at he
    · rename_i id hid
      split at he
      · rename_i hh
        split at he
        · rename_i r1 h1
          cases he
          unfold Rd.onScene at h1
          rw [if_pos hh] at h1
          cases h1
          refine ⟨?_, ?_, h.rest, ?_⟩
          · dsimp only
            rw [Dict.keys_modify]
            exact h.keys
          · intro k sc hk
            obtain ⟨s', e1, e2⟩ := h.scenes k sc hk
            by_cases hki : k = id
            · subst hki
              refine ⟨r.novel.scenes.get? k |>.map (fun sc => sc.setContent (Str.strip (r.cleanupScene r.text))) |>.getD {}, ?_, ?_⟩
              · dsimp only
                rw [Dict.get?_modify_self, e1]
                rfl
              rw [e1]
              right
              refine ⟨h.scene _ hid, ?_⟩
              rcases e2 with rfl | ⟨_, t, rfl⟩
              · exact ⟨_, rfl⟩
              · exact ⟨_, rfl⟩
            · refine ⟨s', ?_, e2⟩
              dsimp only
              rw [Dict.get?_modify_ne _ _ (Ne.symm hki)]
              exact e1
          · intro k hk; cases hk
        · cases he
      · cases he
        exact ⟨h.keys, h.scenes, h.rest, by intro k hk; cases hk⟩
    · cases he; exact h
  · cases he
    split
    · exact h.same rfl rfl
    · exact h

/-- **C35**, proof reading: only the texts of the scenes marked in the document, and the languages of the document. -/
theorem C35_proof (st : XNode) (info : Option XNode) (x : List Ev) (n m : Novel) (h : readOdt proofReader ⟨st, info, x⟩ n = .ok m) :
    m.scenes.keys = n.scenes.keys ∧
    (∀ id s, n.scenes.get? id = some s → ∃ s', m.scenes.get? id = some s' ∧ (s' = s ∨ (Marked (fileTexts info x) id ∧ ProofRead s s'))) ∧
    { m with scenes := [], languages := none, languageCode := none, countryCode := none } =
      { n with scenes := [], languages := none, languageCode := none, countryCode := none } := by
  unfold readOdt at h
  obtain ⟨cs, h1, h⟩ := bind_ok h
  obtain ⟨r', h2, h⟩ := bind_ok h
  cases h
  have := proofRun_inv (h := proofReader) (P := Proofed (fileTexts info x) n) ?_ (feedFile_data h1) (r := { novel := n })
    ⟨rfl, fun id s hs => ⟨s, hs, .inl rfl⟩, rfl, by intro id hid; cases hid⟩ h2
  · exact ⟨this.keys, this.scenes, this.rest⟩
  · intro r r' c hd hr he
    cases c with
    | start t as => cases he; exact hr.start t as
    | stop t => cases he; exact hr.stop t
    | data s => exact hr.data (hd s rfl) he
    | comment s =>
      cases he
      unfold Rd.baseComment
      split
      · exact hr.same rfl rfl
      · exact hr

-- A proof reading document for one of two scenes.
example : ∃ m, readOdt proofReader ⟨exStyles, none, exSection c!"ScID:9" [c!"[ScID:1]"] ++ exSection c!"x" [c!"new"] ++ exSection c!"y" [c!"[/ScID:1]"]⟩
      { scenes := [(c!"1", { title := some c!"S" }), (c!"2", { title := some c!"T", desc := some c!"d" })] } = .ok m ∧
    m.scenes = [(c!"1", ({ title := some c!"S" } : Scene).setContent c!"new"), (c!"2", { title := some c!"T", desc := some c!"d" })] :=
  ⟨_, rfl, rfl⟩

end Verif
