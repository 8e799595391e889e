/-
C41: purging leaves nothing of what it promises to remove.
-/
import Verif.Model.Purge
import Verif.Spec.Purge
import Verif.Model.Yw7Write
import Verif.Lemmas.Globals
import Verif.Props.C11_C12_Languages

namespace Verif
open Verif.Spec Re

/-! ### Keyword variables -/

theorem hasValue_iff (kw : Dict (Option Str)) (f : Str) : HasValue kw f ↔ ∃ c s, kw.get? f = some (some (c :: s)) := by
  constructor
  · rintro ⟨v, hv, hne⟩
    cases v with
    | nil => exact absurd rfl hne
    | cons c s => exact ⟨c, s, hv⟩
  · rintro ⟨c, s, h⟩; exact ⟨_, h, by simp⟩

theorem resetVars_spec (fields : List Str) : ∀ kw : Dict (Option Str), Emptied fields kw (resetVars fields kw).1 ∧
    ((resetVars fields kw).2 = true ↔ ∃ f ∈ fields, HasValue kw f) := by
  induction fields with
  | nil =>
    intro kw
    exact ⟨⟨by simp, fun _ _ => rfl, rfl⟩, by simp [resetVars]⟩
  | cons f r ih =>
    intro kw
    by_cases h : HasValue kw f
    · obtain ⟨c, s, hf⟩ := (hasValue_iff kw f).1 h
      have hr : resetVars (f :: r) kw = ((resetVars r (kw.set f (some []))).1, true) := by
        simp only [resetVars, hf]
      rw [hr]
      obtain ⟨⟨h1, h2, h3⟩, _⟩ := ih (kw.set f (some []))
      have hno : ¬ HasValue (kw.set f (some [])) f := by
        rintro ⟨v, hv, hne⟩
        rw [Dict.get?_set_self] at hv
        cases hv; exact hne rfl
      refine ⟨⟨?_, ?_, ?_⟩, by simp; exact .inl h⟩
      · intro g hg
        rcases List.mem_cons.1 hg with rfl | hg
        · rintro ⟨v, hv, hne⟩
          rw [h2 g (.inr hno), Dict.get?_set_self] at hv
          cases hv; exact hne rfl
        · exact h1 g hg
      · intro g hg
        have hgf : f ≠ g := by
          rintro rfl
          rcases hg with hg | hg
          · exact hg (by simp)
          · exact hg h
        rw [h2 g, Dict.get?_set_ne _ _ hgf]
        rcases hg with hg | hg
        · exact .inl (fun x => hg (by simp [x]))
        · refine .inr ?_
          rintro ⟨v, hv, hne⟩
          rw [Dict.get?_set_ne _ _ hgf] at hv
          exact hg ⟨v, hv, hne⟩
      · rw [h3]
        exact Dict.keys_set_of_mem _ _ _ ((Dict.mem_keys_iff _ _).2 ⟨_, hf⟩)
    · have hr : resetVars (f :: r) kw = resetVars r kw := by
        simp only [resetVars]
        split
        · rename_i c s hf
          exact absurd ((hasValue_iff kw f).2 ⟨c, s, hf⟩) h
        · rfl
      rw [hr]
      obtain ⟨⟨h1, h2, h3⟩, h4⟩ := ih kw
      refine ⟨⟨?_, ?_, h3⟩, ?_⟩
      · intro g hg
        rcases List.mem_cons.1 hg with rfl | hg
        · rintro ⟨v, hv, hne⟩
          rw [h2 g (.inr h)] at hv
          exact h ⟨v, hv, hne⟩
        · exact h1 g hg
      · intro g hg
        apply h2 g
        rcases hg with hg | hg
        · exact .inl (fun x => hg (by simp [x]))
        · exact .inr hg
      · rw [h4]
        constructor
        · rintro ⟨g, hg, hv⟩; exact ⟨g, by simp [hg], hv⟩
        · rintro ⟨g, hg, hv⟩
          rcases List.mem_cons.1 hg with rfl | hg
          · exact absurd hv h
          · exact ⟨g, hg, hv⟩

theorem resetAll_spec {α : Type} (kw : α → Dict (Option Str)) (put : α → Dict (Option Str) → α) (fields : List Str) (d : Dict α) :
    AllEmptied kw put fields d (resetAll kw put fields d).1 ∧
    ((resetAll kw put fields d).2 = true ↔ ∃ p ∈ d, ∃ f ∈ fields, HasValue (kw p.2) f) := by
  induction d with
  | nil => exact ⟨⟨rfl, fun k e h => by cases h⟩, by simp [resetAll]⟩
  | cons p r ih =>
    obtain ⟨k, e⟩ := p
    obtain ⟨⟨h1, h2⟩, h3⟩ := ih
    obtain ⟨g1, g2⟩ := resetVars_spec fields (kw e)
    refine ⟨⟨?_, ?_⟩, ?_⟩
    · simp only [resetAll, Dict.keys, List.map_cons] at h1 ⊢
      rw [h1]
    · intro k' e' h
      simp only [resetAll, Dict.get?] at h ⊢
      by_cases hk : k = k'
      · simp only [hk, if_true] at h ⊢
        cases h
        exact ⟨_, g1, rfl⟩
      · simp only [hk, if_false] at h ⊢
        exact h2 k' e' h
    · simp only [resetAll, Bool.or_eq_true, g2, h3]
      constructor
      · rintro (⟨f, hf, hv⟩ | ⟨p, hp, f, hf, hv⟩)
        · exact ⟨(k, e), by simp, f, hf, hv⟩
        · exact ⟨p, by simp [hp], f, hf, hv⟩
      · rintro ⟨p, hp, f, hf, hv⟩
        rcases List.mem_cons.1 hp with rfl | hp
        · exact .inl ⟨f, hf, hv⟩
        · exact .inr ⟨p, hp, f, hf, hv⟩

/-- **C41, keyword variables**: for a project file class without note variables (such as
`Yw7File`), after `reset_custom_variables` no keyword variable of the project, a chapter, a scene, a
character, a location or an item has a value; nothing else is changed; the function returns true if
and only if there was one with a value. -/
theorem C41_reset (f : KwVars) (hf : f.pnt = []) (n : Novel) :
    ∃ n' b, resetCustomVariables f n = .ok (n', b) ∧
      Emptied f.prj n.kwVar n'.kwVar ∧
      AllEmptied Chapter.kwVar (fun e kw => { e with kwVar := kw }) f.chp n.chapters n'.chapters ∧
      AllEmptied Scene.kwVar (fun e kw => { e with kwVar := kw }) f.scn n.scenes n'.scenes ∧
      AllEmptied (fun e : Character => e.kwVar) (fun e kw => { e with kwVar := kw }) f.crt n.characters n'.characters ∧
      AllEmptied WorldElement.kwVar (fun e kw => { e with kwVar := kw }) f.loc n.locations n'.locations ∧
      AllEmptied WorldElement.kwVar (fun e kw => { e with kwVar := kw }) f.itm n.items n'.items ∧
      n' = { n with kwVar := n'.kwVar, chapters := n'.chapters, scenes := n'.scenes, characters := n'.characters, locations := n'.locations, items := n'.items } ∧
      (b = true ↔ (∃ v ∈ f.prj, HasValue n.kwVar v) ∨ (∃ p ∈ n.chapters, ∃ v ∈ f.chp, HasValue p.2.kwVar v) ∨
        (∃ p ∈ n.scenes, ∃ v ∈ f.scn, HasValue p.2.kwVar v) ∨ (∃ p ∈ n.characters, ∃ v ∈ f.crt, HasValue p.2.kwVar v) ∨
        (∃ p ∈ n.locations, ∃ v ∈ f.loc, HasValue p.2.kwVar v) ∨ (∃ p ∈ n.items, ∃ v ∈ f.itm, HasValue p.2.kwVar v)) := by
  refine ⟨_, _, by unfold resetCustomVariables; rw [if_neg (by simp [hf])], (resetVars_spec _ _).1, (resetAll_spec _ _ _ _).1, (resetAll_spec _ _ _ _).1,
    (resetAll_spec _ _ _ _).1, (resetAll_spec _ _ _ _).1, (resetAll_spec _ _ _ _).1, rfl, ?_⟩
  simp only [Bool.or_eq_true, (resetVars_spec _ _).2, (resetAll_spec _ _ _ _).2, or_assoc]

/-- Finding: a file class with keyword variables for project notes would crash on any project with
notes (`novel.projectnotes` does not exist). -/
theorem C41_notes_raise (f : KwVars) (hf : f.pnt ≠ []) (n : Novel) (hn : n.projectNotes ≠ []) :
    resetCustomVariables f n = .error .attributeError := by
  unfold resetCustomVariables
  rw [if_pos ⟨hf, hn⟩]

/-- Finding: saving undoes the reset for scenes, because `write` copies the scene's arcs and mode
into the keyword variables: whatever the variables were, after the preparation for saving they
have the values of these attributes again. -/
theorem C41_scene_variables_return (s : Scene) (a : Str) (ha : s.scnArcs = some a) (h : a ≠ []) : HasValue (syncScene s).kwVar c!"Field_SceneArcs" := by
  unfold syncScene HasValue
  refine ⟨a, ?_, h⟩
  rw [ha]
  simp only
  rw [Dict.get?_set_ne _ _ (by decide)]
  split
  · exact Dict.get?_set_self _ _ _
  · rw [Dict.get?_set_ne _ _ (by decide)]
    exact Dict.get?_set_self _ _ _

/-! ### Language tags -/

theorem slash_of_mem (r : Str) (c : Char) (h : c ∈ r.takeWhile (· = '/')) : c = '/' := by
  induction r with
  | nil => cases h
  | cons d r ih =>
    by_cases hd : d = '/'
    · rw [List.takeWhile_cons_of_pos (by simpa using hd)] at h
      rcases List.mem_cons.1 h with rfl | h
      · exact hd
      · exact ih h
    · rw [List.takeWhile_cons_of_neg (by simpa using hd)] at h
      cases h

theorem languageTag_some {b : Bool} {s : Str} {k : Nat} (h : languageTag b s = some k) : LangTagAt s (s.drop k) ∧ 0 < k := by
  unfold languageTag at h
  split at h
  · rename_i r
    simp only at h
    split at h
    · rename_i hp
      simp only [Option.map_eq_some_iff] at h
      obtain ⟨m, hm, rfl⟩ := h
      obtain ⟨code, rest, e, a, b, rfl⟩ := lazyTo_bracket _ m hm
      obtain ⟨t, ht⟩ := List.isPrefixOf_iff_prefix.1 hp
      have hr : r = r.takeWhile (· = '/') ++ (c!"lang=" ++ code ++ ']' :: rest) := by
        have h1 : r = r.takeWhile (· = '/') ++ r.drop (r.takeWhile (· = '/')).length := by
          conv => lhs; rw [← List.take_append_drop (r.takeWhile (· = '/')).length r]
          congr 1
          exact (List.prefix_iff_eq_take.1 (List.takeWhile_prefix _)).symm
        refine h1.trans ?_
        congr 1
        · rw [← ht, List.append_assoc]
          congr 1
          have : t = r.drop ((r.takeWhile (· = '/')).length + 5) := by
            rw [← List.drop_drop, ← ht]
            rfl
          rw [this, e]
      refine ⟨⟨r.takeWhile (· = '/'), code, ?_, a, b, ?_⟩, by omega⟩
      · intro c hc
        exact slash_of_mem r c hc
      · generalize hsl : r.takeWhile (· = '/') = sl at hr ⊢
        rw [hr]
        have e2 : ('[' :: (sl ++ (c!"lang=" ++ code ++ ']' :: rest))) = ('[' :: sl ++ c!"lang=" ++ code ++ [']']) ++ rest := by simp
        have : (('[' :: (sl ++ (c!"lang=" ++ code ++ ']' :: rest)))).drop (code.length + 1 + (sl.length + 6)) = rest := by
          rw [e2, List.drop_append_of_le_length (by simp; omega), List.drop_of_length_le (by simp; omega)]
          rfl
        rw [this]
        simp
    · cases h
  · cases h

theorem takeWhile_slashes (sl : Str) (h : ∀ c ∈ sl, c = '/') (r : Str) : (sl ++ 'l' :: r).takeWhile (· = '/') = sl := by
  induction sl with
  | nil => rfl
  | cons c s ih =>
    rw [List.cons_append, List.takeWhile_cons_of_pos (by simpa using h c (by simp)), ih (fun c hc => h c (by simp [hc]))]

theorem languageTag_of {b : Bool} {s rest : Str} (h : LangTagAt s rest) : ∃ k, languageTag b s = some k ∧ s.drop k = rest := by
  obtain ⟨sl, code, h1, h2, h3, rfl⟩ := h
  refine ⟨code.length + 1 + (sl.length + 6), ?_, ?_⟩
  · have e : ('[' :: sl ++ c!"lang=" ++ code ++ ']' :: rest) = '[' :: (sl ++ 'l' :: (c!"ang=" ++ code ++ ']' :: rest)) := by simp
    rw [e]
    unfold languageTag
    simp only [takeWhile_slashes sl h1]
    rw [List.drop_left]
    have hp : c!"lang=".isPrefixOf ('l' :: (c!"ang=" ++ code ++ ']' :: rest)) = true :=
      List.isPrefixOf_iff_prefix.2 ⟨code ++ ']' :: rest, by simp⟩
    rw [if_pos hp, ← List.drop_drop, List.drop_left]
    have : List.drop 5 ('l' :: (c!"ang=" ++ code ++ ']' :: rest)) = code ++ ']' :: rest := rfl
    rw [this, lazyTo_bracket_of code rest h2 h3]
    rfl
  · have e : ('[' :: sl ++ c!"lang=" ++ code ++ ']' :: rest) = ('[' :: sl ++ c!"lang=" ++ code ++ [']']) ++ rest := by simp
    rw [e, List.drop_append_of_le_length (by simp; omega), List.drop_of_length_le (by simp; omega)]
    rfl

theorem subGo_drop (m : Matcher) (rep : Str) : ∀ (k : Nat) (b : Bool) (s : Str), ∃ b', subGo m rep b k s = subGo m rep b' 0 (s.drop k) := by
  intro k
  induction k with
  | zero => intro b s; exact ⟨b, rfl⟩
  | succ k ih =>
    intro b s
    cases s with
    | nil => exact ⟨b, by cases k <;> simp [subGo]⟩
    | cons c r =>
      obtain ⟨b', hb⟩ := ih (c = '\n') r
      exact ⟨b', by simpa [subGo] using hb⟩

/-- Induction along the scan of `re.sub`. -/
theorem tags_scan {P : Str → Str → Prop} (h0 : P [] []) (h1 : ∀ s rest r, LangTagAt s rest → P rest r → P s r)
    (h2 : ∀ c s r, (∀ rest, ¬ LangTagAt (c :: s) rest) → P s r → P (c :: s) (c :: r)) (b : Bool) (s : Str) :
    P s (subGo languageTag [] b 0 s) := by
  induction hn : s.length using Nat.strongRecOn generalizing s b with
  | ind n ih =>
    cases s with
    | nil => simpa [subGo] using h0
    | cons c r =>
      by_cases ht : ∃ rest, LangTagAt (c :: r) rest
      · obtain ⟨rest, ht⟩ := ht
        obtain ⟨k, hk, hd⟩ := languageTag_of (b := b) ht
        have hk0 := (languageTag_some hk).2
        obtain ⟨j, rfl⟩ : ∃ j, k = j + 1 := ⟨k - 1, by omega⟩
        simp only [subGo, hk, List.nil_append]
        obtain ⟨b', hb⟩ := subGo_drop languageTag [] j (c = '\n') r
        rw [hb]
        have hd' : r.drop j = rest := by simpa using hd
        rw [hd']
        refine h1 _ _ _ ht (ih rest.length ?_ b' rest rfl)
        rw [← hn, ← hd']
        simp only [List.length_drop, List.length_cons]
        omega
      · have hnone : languageTag b (c :: r) = none := by
          cases hm : languageTag b (c :: r) with
          | none => rfl
          | some k => exact absurd ⟨_, (languageTag_some hm).1⟩ ht
        simp only [subGo, hnone]
        exact h2 _ _ _ (fun rest h => ht ⟨rest, h⟩) (ih r.length (by rw [← hn]; simp) _ r rfl)

theorem tagsRemoved_sub (s : Str) : TagsRemoved s (sub languageTag [] s) :=
  tags_scan (P := TagsRemoved) .nil (fun _ _ _ h h' => .tag h h') (fun _ _ _ h h' => .char h h') true s

/-- A text without tags is not changed. -/
theorem sub_of_no_tag {s : Str} (h : ¬ HasLangTag s) : sub languageTag [] s = s := by
  unfold sub
  generalize true = b
  refine tags_scan (P := fun s r => ¬ HasLangTag s → r = s) (fun _ => rfl) ?_ ?_ b s h
  · intro s rest r ht _ hn
    exact absurd ⟨[], s, rest, rfl, ht⟩ hn
  · intro c s r _ ih hn
    rw [ih (fun ⟨p, t, rest, e, ht⟩ => hn ⟨c :: p, t, rest, by simp [e], ht⟩)]

theorem sub_prefix {a : Str} (h : '[' ∉ a) : ∀ (b : Bool) (s : Str), ∃ b', subGo languageTag [] b 0 (a ++ s) = a ++ subGo languageTag [] b' 0 s := by
  induction a with
  | nil => intro b s; exact ⟨b, rfl⟩
  | cons c r ih =>
    intro b s
    simp only [List.mem_cons, not_or] at h
    obtain ⟨b', hb⟩ := ih h.2 (c = '\n') s
    refine ⟨b', ?_⟩
    have : languageTag b (c :: (r ++ s)) = none := by
      unfold languageTag
      split
      · rename_i heq; cases heq; exact absurd rfl h.1
      · rfl
    simp only [List.cons_append, subGo, this, hb]

theorem langTagAt_head {s rest : Str} (h : LangTagAt s rest) : s.head? = some '[' := by
  obtain ⟨sl, code, _, _, _, rfl⟩ := h; simp

/-- The first character of the kinds `]` and newline. -/
theorem first_stop (s : Str) : (∃ a d b, s = a ++ d :: b ∧ (d = ']' ∨ d = '\n') ∧ ']' ∉ a ∧ '\n' ∉ a) ∨ (']' ∉ s ∧ '\n' ∉ s) := by
  induction s with
  | nil => right; simp
  | cons c r ih =>
    by_cases hc : c = ']' ∨ c = '\n'
    · left; exact ⟨[], c, r, rfl, hc, by simp, by simp⟩
    · simp only [not_or] at hc
      rcases ih with ⟨a, d, b, e, h1, h2, h3⟩ | ⟨h2, h3⟩
      · left
        exact ⟨c :: a, d, b, by simp [e], h1, by simp [h2, Ne.symm hc.1], by simp [h3, Ne.symm hc.2]⟩
      · right
        exact ⟨by simp [h2, Ne.symm hc.1], by simp [h3, Ne.symm hc.2]⟩

theorem append_cons_inj {a a' b b' : Str} {d d' : Char} {p : Char → Prop} (h : a ++ d :: b = a' ++ d' :: b')
    (h1 : ∀ c ∈ a, ¬ p c) (h2 : p d) (h3 : ∀ c ∈ a', ¬ p c) (h4 : p d') : a = a' ∧ d = d' ∧ b = b' := by
  induction a generalizing a' with
  | nil =>
    cases a' with
    | nil => simp at h; exact ⟨rfl, h.1, h.2⟩
    | cons c r => simp at h; exact absurd (h.1 ▸ h2) (h3 c (by simp))
  | cons c r ih =>
    cases a' with
    | nil => simp at h; exact absurd (h.1 ▸ h4) (h1 c (by simp))
    | cons c' r' =>
      simp only [List.cons_append, List.cons.injEq] at h
      obtain ⟨e1, e2, e3⟩ := ih h.2 (fun c hc => h1 c (by simp [hc])) (fun c hc => h3 c (by simp [hc]))
      exact ⟨by rw [h.1, e1], e2, e3⟩

theorem Spec.FlatBrackets.tail {c : Char} {s : Str} (h : FlatBrackets (c :: s)) : FlatBrackets s :=
  fun pre a post e => h (c :: pre) a post (by simp [e])

theorem Spec.FlatBrackets.rest {s rest : Str} (h : FlatBrackets s) (ht : LangTagAt s rest) : FlatBrackets rest := by
  obtain ⟨sl, code, _, _, _, rfl⟩ := ht
  intro pre a post e
  exact h ('[' :: sl ++ c!"lang=" ++ code ++ ']' :: pre) a post (by simp [e])

theorem no_tag_after {b : Bool} {s : Str} (hf : FlatBrackets s) : ¬ HasLangTag (subGo languageTag [] b 0 s) := by
  induction hn : s.length using Nat.strongRecOn generalizing s b with
  | ind n ih =>
    cases s with
    | nil =>
      rintro ⟨pre, t, rest, e, ht⟩
      simp only [subGo] at e
      have := langTagAt_head ht
      cases t with
      | nil => cases this
      | cons => simp at e
    | cons c r =>
      by_cases ht : ∃ rest, LangTagAt (c :: r) rest
      · obtain ⟨rest, ht⟩ := ht
        obtain ⟨k, hk, hd⟩ := languageTag_of (b := b) ht
        have hk0 := (languageTag_some hk).2
        obtain ⟨j, rfl⟩ : ∃ j, k = j + 1 := ⟨k - 1, by omega⟩
        simp only [subGo, hk, List.nil_append]
        obtain ⟨b', hb⟩ := subGo_drop languageTag [] j (c = '\n') r
        rw [hb]
        have hd' : r.drop j = rest := by simpa using hd
        rw [hd']
        refine ih rest.length ?_ (hf.rest ht) rfl
        rw [← hn, ← hd']
        simp only [List.length_drop, List.length_cons]
        omega
      · have hnone : languageTag b (c :: r) = none := by
          cases hm : languageTag b (c :: r) with
          | none => rfl
          | some k => exact absurd ⟨_, (languageTag_some hm).1⟩ ht
        simp only [subGo, hnone]
        have ihr := ih r.length (by rw [← hn]; simp) (b := (c = '\n')) hf.tail rfl
        rintro ⟨pre, t, rest, e, htag⟩
        cases pre with
        | cons p pre =>
          simp only [List.cons_append, List.cons.injEq] at e
          exact ihr ⟨pre, t, rest, e.2, htag⟩
        | nil =>
          simp only [List.nil_append] at e
          rw [← e] at htag
          have hc : c = '[' := by simpa using langTagAt_head htag
          subst hc
          rcases first_stop r with ⟨a, d, b2, hr, hd, ha1, ha2⟩ | ⟨hr1, hr2⟩
          · have ha : '[' ∉ a := by
              intro hm
              obtain ⟨x, y, rfl⟩ := List.append_of_mem hm
              have := hf [] x (y ++ d :: b2) (by simp [hr])
              simp only [List.mem_append, not_or] at ha1 ha2
              rcases this with h | h
              · exact ha1.1 h
              · exact ha2.1 h
            have had : '[' ∉ a ++ [d] := by
              simp only [List.mem_append, List.mem_singleton, not_or]
              refine ⟨ha, ?_⟩
              rcases hd with rfl | rfl <;> decide
            obtain ⟨b', hb⟩ := sub_prefix had ('[' = '\n') b2
            have hr' : r = a ++ [d] ++ b2 := by simp [hr]
            rw [hr', hb] at htag
            obtain ⟨sl, code, h1, h2, h3, h4⟩ := htag
            have h4' : a ++ d :: subGo languageTag [] b' 0 b2 = (sl ++ c!"lang=" ++ code) ++ ']' :: rest := by
              simpa using h4
            have hstop := append_cons_inj (p := fun c => c = ']' ∨ c = '\n') h4'
              (by
                intro x hx h
                rcases h with rfl | rfl
                · exact ha1 hx
                · exact ha2 hx)
              hd
              (by
                intro x hx h
                simp only [List.mem_append] at hx
                rcases hx with (hx | hx) | hx
                · have := h1 x hx; subst this; revert h; decide
                · simp only [List.mem_cons, List.not_mem_nil, or_false] at hx
                  rcases hx with rfl | rfl | rfl | rfl | rfl <;> (revert h; decide)
                · rcases h with rfl | rfl
                  · exact h2 hx
                  · exact h3 hx)
              (.inl rfl)
            apply ht
            refine ⟨b2, sl, code, h1, h2, h3, ?_⟩
            rw [hr, hstop.1, hstop.2.1]
            simp
          · have ha : '[' ∉ r := by
              intro hm
              obtain ⟨x, y, rfl⟩ := List.append_of_mem hm
              have := hf [] x y (by simp)
              simp only [List.mem_append, not_or] at hr1 hr2
              rcases this with h | h
              · exact hr1.1 h
              · exact hr2.1 h
            obtain ⟨b', hb⟩ := sub_prefix ha ('[' = '\n') []
            simp only [List.append_nil] at hb
            rw [hb] at htag
            obtain ⟨sl, code, h1, h2, h3, h4⟩ := htag
            have hmem : ']' ∈ r := by
              have h5 : r ++ subGo languageTag [] b' 0 [] = sl ++ c!"lang=" ++ code ++ ']' :: rest := by simpa using h4
              simp only [subGo, List.append_nil] at h5
              rw [h5]; simp
            exact hr1 hmem

theorem get?_mapVals {α β : Type} (f : α → β) (d : Dict α) (k : Str) (v : α) (h : d.get? k = some v) :
    Dict.get? (d.map fun p => (p.1, f p.2)) k = some (f v) := by
  induction d with
  | nil => cases h
  | cons p r ih =>
    obtain ⟨k', v'⟩ := p
    simp only [Dict.get?, List.map_cons] at h ⊢
    by_cases hk : k' = k
    · simp only [hk, if_true] at h ⊢; cases h; rfl
    · simp only [hk, if_false] at h ⊢; exact ih h

theorem purgeScene_spec (s : Scene) :
    (s.sceneContent = none → purgeScene s = (s, false)) ∧
    (∀ t, s.sceneContent = some t →
      (HasLangTag t → (purgeScene s).2 = true ∧ (purgeScene s).1 = s.setContent (sub languageTag [] t)) ∧
      (¬ HasLangTag t → purgeScene s = (s, false))) := by
  refine ⟨fun h => by simp [purgeScene, h], fun t h => ⟨?_, ?_⟩⟩
  · intro ht
    have hne : t ≠ sub languageTag [] t := by
      intro e
      obtain ⟨pre, u, rest, e1, h1⟩ := ht
      have hlen : ∀ (b : Bool) (s : Str), (subGo languageTag [] b 0 s).length ≤ s.length ∧ (HasLangTag s → (subGo languageTag [] b 0 s).length < s.length) := by
        intro b s
        refine tags_scan (P := fun s r => r.length ≤ s.length ∧ (HasLangTag s → r.length < s.length)) ?_ ?_ ?_ b s
        · refine ⟨Nat.le_refl _, ?_⟩
          rintro ⟨pre, t, rest, e, ht⟩
          have := langTagAt_head ht
          cases t with
          | nil => cases this
          | cons => simp at e
        · rintro s rest r ⟨sl, code, _, _, _, rfl⟩ ⟨hl, _⟩
          have : r.length < ('[' :: sl ++ c!"lang=" ++ code ++ ']' :: rest).length := by simp; omega
          exact ⟨Nat.le_of_lt this, fun _ => this⟩
        · rintro c s r hno ⟨h1, h2⟩
          refine ⟨by simpa using h1, ?_⟩
          rintro ⟨pre, t, rest, e, ht⟩
          cases pre with
          | nil => simp only [List.nil_append] at e; exact absurd (e ▸ ht) (hno rest)
          | cons p pre =>
            simp only [List.cons_append, List.cons.injEq] at e
            simpa using h2 ⟨pre, t, rest, e.2, ht⟩
      have := (hlen true t).2 ⟨pre, u, rest, e1, h1⟩
      have e' := congrArg List.length e
      unfold sub at e'
      omega
    simp only [purgeScene, h]
    rw [if_pos hne]
    exact ⟨rfl, rfl⟩
  · intro ht
    simp only [purgeScene, h, sub_of_no_tag ht]
    simp

/-- **C41, language tags (partial)**: for every novel, `remove_language_tags` changes nothing but the
contents of scenes that contain a language tag (and their word and letter counts, which it keeps
right); of their texts it removes the language tags, one after the other, and nothing else; it
returns true if and only if there was one.  If brackets are not nested in the text of a scene, then
no language tag remains.  Missing: nested brackets, see `C41_false`. -/
theorem C41_tags_partial (n : Novel) :
    (removeLanguageTags n).1 = { n with scenes := (removeLanguageTags n).1.scenes } ∧
    (removeLanguageTags n).1.scenes.keys = n.scenes.keys ∧
    (∀ id s, n.scenes.get? id = some s → ∃ s', (removeLanguageTags n).1.scenes.get? id = some s' ∧
      ((∀ t, s.sceneContent = some t → ¬ HasLangTag t) → s' = s) ∧
      (∀ t, s.sceneContent = some t → HasLangTag t → ∃ t', TagsRemoved t t' ∧ s' = s.setContent t') ∧
      (∀ t, s.sceneContent = some t → FlatBrackets t → ∀ t', s'.sceneContent = some t' → ¬ HasLangTag t')) ∧
    ((removeLanguageTags n).2 = true ↔ ∃ p ∈ n.scenes, ∃ t, p.2.sceneContent = some t ∧ HasLangTag t) := by
  refine ⟨rfl, by simp [removeLanguageTags, Dict.keys, Function.comp_def], ?_, ?_⟩
  · intro id s hs
    refine ⟨(purgeScene s).1, ?_, ?_, ?_, ?_⟩
    · simp only [removeLanguageTags]
      exact get?_mapVals (fun s => (purgeScene s).1) _ _ _ hs
    · intro h
      cases hc : s.sceneContent with
      | none => rw [(purgeScene_spec s).1 hc]
      | some t => rw [((purgeScene_spec s).2 t hc).2 (h t hc)]
    · intro t hc ht
      exact ⟨_, tagsRemoved_sub t, (((purgeScene_spec s).2 t hc).1 ht).2⟩
    · intro t hc hf t' ht'
      by_cases ht : HasLangTag t
      · rw [(((purgeScene_spec s).2 t hc).1 ht).2] at ht'
        simp only [Scene.setContent, Option.some.injEq] at ht'
        rw [← ht']
        exact no_tag_after hf
      · rw [((purgeScene_spec s).2 t hc).2 ht, hc] at ht'
        cases ht'
        exact ht
  · simp only [removeLanguageTags, List.any_eq_true]
    constructor
    · rintro ⟨p, hp, h⟩
      cases hc : p.2.sceneContent with
      | none => rw [(purgeScene_spec p.2).1 hc] at h; cases h
      | some t =>
        refine ⟨p, hp, t, hc, ?_⟩
        by_cases ht : HasLangTag t
        · exact ht
        · rw [((purgeScene_spec p.2).2 t hc).2 ht] at h; cases h
    · rintro ⟨p, hp, t, hc, ht⟩
      exact ⟨p, hp, (((purgeScene_spec p.2).2 t hc).1 ht).1⟩

/-- **C41 is false of the code for nested brackets**: cutting out a tag can make a new one. -/
theorem C41_false : ∃ n : Novel, ∃ s, (removeLanguageTags n).1.scenes.get? c!"1" = some s ∧ s.sceneContent = some c!"[lang=de]Wort" ∧ HasLangTag c!"[lang=de]Wort" := by
  refine ⟨{ scenes := [(c!"1", { sceneContent := some c!"[la[lang=en]ng=de]Wort" })] }, _, rfl, rfl, [], c!"[lang=de]Wort", c!"Wort", rfl, [], c!"de", ?_, ?_, ?_, ?_⟩ <;> decide

/-- A test for `FlatBrackets`; `o` tells whether there is an open bracket. -/
def flatGo : Bool → Str → Bool
  | _, [] => true
  | o, c :: r => if c = '[' then !o && flatGo true r else if c = ']' ∨ c = '\n' then flatGo false r else flatGo o r

theorem flatGo_spec (s : Str) : ∀ o, flatGo o s = true →
    (o = true → ∀ a post, s = a ++ '[' :: post → ']' ∈ a ∨ '\n' ∈ a) ∧ FlatBrackets s := by
  induction s with
  | nil =>
    intro o _
    exact ⟨fun _ a post e => by simp at e, fun pre a post e => by simp at e⟩
  | cons c r ih =>
    intro o h
    unfold flatGo at h
    by_cases hc : c = '['
    · rw [if_pos hc] at h
      simp only [Bool.and_eq_true, Bool.not_eq_true'] at h
      obtain ⟨i1, i2⟩ := ih true h.2
      refine ⟨fun ho => (by rw [h.1] at ho; cases ho), ?_⟩
      intro pre a post e
      cases pre with
      | nil =>
        simp only [List.nil_append, List.cons_append, List.cons.injEq] at e
        exact i1 rfl a post e.2
      | cons p pre =>
        simp only [List.cons_append, List.cons.injEq] at e
        exact i2 pre a post (by simpa using e.2)
    · rw [if_neg hc] at h
      have hflat : FlatBrackets r → FlatBrackets (c :: r) := by
        intro hr pre a post e
        cases pre with
        | nil => simp only [List.nil_append, List.cons_append, List.cons.injEq] at e; exact absurd e.1 hc
        | cons p pre =>
          simp only [List.cons_append, List.cons.injEq] at e
          exact hr pre a post (by simpa using e.2)
      by_cases hd : c = ']' ∨ c = '\n'
      · rw [if_pos hd] at h
        refine ⟨fun _ a post e => ?_, hflat (ih false h).2⟩
        cases a with
        | nil => simp only [List.nil_append, List.cons.injEq] at e; exact absurd e.1 hc
        | cons x a =>
          simp only [List.cons_append, List.cons.injEq] at e
          rcases hd with rfl | rfl
          · left; simp [← e.1]
          · right; simp [← e.1]
      · rw [if_neg hd] at h
        refine ⟨fun ho a post e => ?_, hflat (ih o h).2⟩
        cases a with
        | nil => simp only [List.nil_append, List.cons.injEq] at e; exact absurd e.1 hc
        | cons x a =>
          simp only [List.cons_append, List.cons.injEq] at e
          rcases (ih o h).1 ho a post e.2 with h' | h'
          · left; simp [h']
          · right; simp [h']

/-- A concrete case: an ordinary text with tags. -/
theorem C41_demo : FlatBrackets c!"[lang=de]Wort[/lang=de] [i]x[/i]" ∧ HasLangTag c!"[lang=de]Wort[/lang=de] [i]x[/i]" ∧
    sub languageTag [] c!"[lang=de]Wort[/lang=de] [i]x[/i]" = c!"Wort [i]x[/i]" := by
  refine ⟨(flatGo_spec _ false (by decide)).2, ⟨[], _, c!"Wort[/lang=de] [i]x[/i]", rfl, [], c!"de", by decide, by decide, by decide, by decide⟩, by decide +kernel⟩

end Verif
