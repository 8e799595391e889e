/-
The whole project tree on the second saving.
-/
import Verif.Lemmas.Fix8
import Verif.Lemmas.Fix4
import Verif.Props.C20_Settled

namespace Verif
open Xml Spec Elem

/-- What the second saving needs to know about the novel. -/
structure Fixable (n : Novel) : Prop where
  scKeys : n.scenes.keys.Nodup
  scIds : ∀ id ∈ n.scenes.keys, id ≠ []
  starts : ∀ p ∈ n.scenes, ∀ d t, p.2.date = some d → p.2.time = some t → d ++ ' ' :: t = c!" " ∨ 2 ≤ (d ++ ' ' :: t).count ':'
  chKeys : n.srtChapters.Nodup
  chIds : ∀ id ∈ n.srtChapters, id ≠ []
  locale : (n.languages.getD [] = [] ∧ falsy n.languageCode = true ∧ falsy n.countryCode = true) ∨
    ∃ l c, ∀ sl sc, (n.checkLocale sl sc).languageCode = some l ∧ (n.checkLocale sl sc).countryCode = some c
  languages : (n.languages.getD []).Nodup ∧ ∀ c ∈ n.languages.getD [], '=' ∉ c

theorem sections_once {sl sc : Str} {n : Novel} {rk out : List Elem} (h : buildRoot sl sc n rk = .ok out) (t : Str) (ho : (sel t rk).length ≤ 1) : (sel t out).length ≤ 1 := by
  have hadd : ∀ (u : Str) (k : List Elem), (sel t k).length ≤ 1 → (sel t (if hasTag u k then k else k ++ [node u none none []])).length ≤ 1 := by
    intro u k hk
    split
    · exact hk
    · rename_i h0
      rw [sel_app, List.length_append]
      by_cases hu : u = t
      · subst hu
        rw [hasTag_false_sel (Bool.eq_false_iff.2 h0)]
        exact Nat.le_trans (Nat.add_le_add_left (List.length_filter_le _ _) _) (by simp)
      · have : sel t [node u none none []] = [] := by simp [sel, hu]
        rw [this]
        exact hk
  unfold buildRoot at h
  obtain ⟨r1, h1, h⟩ := bind_ok h
  obtain ⟨r2, h2, h⟩ := bind_ok h
  obtain ⟨r3, h3, h⟩ := bind_ok h
  obtain ⟨r4, h4, h⟩ := bind_ok h
  obtain ⟨r5, h5, h⟩ := bind_ok h
  obtain ⟨r6, h6, h⟩ := bind_ok h
  obtain ⟨r7, h7, h⟩ := bind_ok h
  obtain ⟨r8, h8, h⟩ := bind_ok h
  have a4 : (sel t r4).length ≤ 1 := by
    rw [onSection_length h4, onSection_length h3, onSection_length h2, onSection_length h1]
    exact ho
  have a5 : (sel t r5).length ≤ 1 := by
    unfold buildNotes at h5
    split at h5
    · cases h5
      by_cases hu : c!"PROJECTNOTES" = t
      · subst hu
        rw [sel_removeFirst_self, List.length_tail]
        omega
      · rw [sel_removeFirst_ne hu]
        exact a4
    · rw [onSection_length h5]
      exact hadd _ _ a4
  have a6 : (sel t r6).length ≤ 1 := by
    unfold buildProjectVars at h6
    split at h6
    · cases h6; exact a5
    · rw [onSection_length h6]
      exact hadd _ _ a5
  rw [onSection_length h, onSection_length h8, onSection_length h7]
  exact a6

theorem find_hasTag {t : Str} {k : List Elem} {e : Elem} (h : find t k = some e) : hasTag t k = true := by
  unfold hasTag; rw [h]; rfl

theorem find_some_of {t : Str} {k : List Elem} (h : hasTag t k = true) : ∃ e, find t k = some e := Option.isSome_iff_exists.1 h

/-- The notes section that is written. -/
theorem notes_out {n : Novel} {rk out : List Elem} (h : buildNotes n rk = .ok out) (ho : (sel c!"PROJECTNOTES" rk).length ≤ 1) :
    (hasTag c!"PROJECTNOTES" out = true ↔ n.srtPrjNotes ≠ []) ∧
    (∀ e, find c!"PROJECTNOTES" out = some e → (∀ s, find c!"PROJECTNOTES" rk = some s → ∀ e ∈ s.kids, e.tag = c!"PROJECTNOTE") →
      mapE (newEntry c!"PROJECTNOTE" n.projectNotes buildNote) n.srtPrjNotes = .ok e.kids) := by
  unfold buildNotes at h
  split at h
  · rename_i h0
    cases h
    have : sel c!"PROJECTNOTES" (removeFirst c!"PROJECTNOTES" rk) = [] := by
      rw [sel_removeFirst_self]
      exact tail_once ho
    refine ⟨⟨fun h' => ?_, fun h' => absurd h0 h'⟩, fun e he => ?_⟩
    · rw [hasTag_sel_nil this] at h'; cases h'
    · rw [find_eq, this] at he; cases he
  · rename_i h0
    obtain ⟨e, ks, h1, h2, h3, _⟩ := onSection_ok h
    refine ⟨⟨fun _ => h0, fun _ => find_hasTag h3⟩, fun e' he' ht => ?_⟩
    rw [h3] at he'
    cases he'
    rw [Elem.kids_mapKids']
    refine rebuildSection_ok h2 ?_
    split at h1
    · exact ht e h1
    · rename_i hh
      have hnone : find c!"PROJECTNOTES" rk = none := by
        rw [find_eq, hasTag_false_sel (Bool.eq_false_iff.2 hh)]
        rfl
      rw [find_append_of_none (t := c!"PROJECTNOTES") (e := node c!"PROJECTNOTES" none none []) rfl hnone] at h1
      cases h1
      intro e he
      cases he

theorem root_fixed {sl sc sl' sc' : Str} {n : Novel} {rk o z k : List Elem} (hn : Fixable n) (ht : RegularTree rk) (tidy : TidyTree rk) (hz : RegularTree z)
    (h : buildRoot sl sc n rk = .ok o) (hr : RelL listTags o z) (h' : buildRoot sl' sc' n z = .ok k) : AlikeL o k := by
  have hmono : RelL writtenTags o z := hr.mono (fun e _ => by
    have : ∀ t ∈ listTags, t ∈ writtenTags := by decide
    exact this e.tag)
  obtain ⟨⟨p, p1, p2⟩, ⟨le, lk, l1, l2, l3⟩, ⟨ie, ik, i1, i2, i3⟩, ⟨ce, ck, c1, c2, c3⟩, _, ⟨v2, v3, v4, v5, v6⟩, ⟨se, sk1, sk2, s1, s2, s3, s4⟩, ⟨he, hk, h1, h2, h3⟩⟩ := buildRoot_ok h
  obtain ⟨⟨p', p1', p2'⟩, ⟨le', lk', l1', l2', l3'⟩, ⟨ie', ik', i1', i2', i3'⟩, ⟨ce', ck', c1', c2', c3'⟩, _, ⟨v2', v3', v4', v5', v6'⟩, ⟨se', sk1', sk2', s1', s2', s3', s4'⟩,
    ⟨he', hk', h1', h2', h3'⟩⟩ := buildRoot_ok h'
  obtain ⟨n2, n3, n4, n5, n6⟩ := buildRoot_notes h
  obtain ⟨n2', n3', n4', n5', n6'⟩ := buildRoot_notes h'
  have nOnce : (sel c!"PROJECTNOTES" n2).length ≤ 1 := by rw [n5]; exact ht.tree.notesOnce
  have nOnce' : (sel c!"PROJECTNOTES" n2').length ≤ 1 := by rw [n5']; exact hz.tree.notesOnce
  obtain ⟨nt, nk⟩ := notes_out n4 nOnce
  obtain ⟨nt', nk'⟩ := notes_out n4' nOnce'
  have hfo : find c!"PROJECTNOTES" o = find c!"PROJECTNOTES" n3 := find_of_sel_eq n6
  have hfk : find c!"PROJECTNOTES" k = find c!"PROJECTNOTES" n3' := find_of_sel_eq n6'
  have hvt : ¬ ((n.languages.getD []) = [] ∧ falsy n.languageCode ∧ falsy n.countryCode) → hasTag c!"PROJECTVARS" o = true := by
    intro h0
    rcases buildProjectVars_ok v4 with ⟨v, _⟩ | ⟨_, out, _, _, v⟩
    · exact absurd v h0
    · unfold hasTag
      rw [find_of_sel_eq v6]
      exact v
  have hrel : RelL writtenTags o k := root_same hmono h' (by unfold hasTag at nt ⊢; rw [hfo]; exact nt) hvt
  refine hrel.alike (fun t ht' => sections_once h t (tidy.sections t ht')) ?_
  have kid : ∀ {t : Str} {e e' : Elem}, t ∉ listTags → find t o = some e → find t z = some e' → AlikeL e.kids e'.kids := by
    intro t e e' hd h1 h2
    obtain ⟨e'', h3, h4⟩ := hr.find h1
    rw [h2] at h3
    cases h3
    refine h4.2.2.2 ?_
    rw [(find_mem h1).2]
    exact hd
  intro t htw e e' he1 he2
  simp only [writtenTags, List.mem_cons, List.not_mem_nil, or_false] at htw
  rcases htw with rfl | rfl | rfl | rfl | rfl | rfl | rfl | rfl
  · rw [p2] at he1; rw [p2'] at he2
    cases he1; cases he2
    have ha := kid (by decide) p2 p1'
    rw [Elem.kids_mapKids', Elem.kids_mapKids'] at *
    exact project_fixed (ht.node.fields p p1) (tidy.project p p1) ha
  · rw [l3] at he1; rw [l3'] at he2
    cases he1; cases he2
    rw [Elem.kids_mapKids', Elem.kids_mapKids']
    exact rebuilt_fixed (ht.tree.entries (c!"LOCATIONS", c!"LOCATION") (by simp [sectionTags]) le l1) (hz.tree.entries (c!"LOCATIONS", c!"LOCATION") (by simp [sectionTags]) le' l1') l2 l2'
  · rw [i3] at he1; rw [i3'] at he2
    cases he1; cases he2
    rw [Elem.kids_mapKids', Elem.kids_mapKids']
    exact rebuilt_fixed (ht.tree.entries (c!"ITEMS", c!"ITEM") (by simp [sectionTags]) ie i1) (hz.tree.entries (c!"ITEMS", c!"ITEM") (by simp [sectionTags]) ie' i1') i2 i2'
  · rw [c3] at he1; rw [c3'] at he2
    cases he1; cases he2
    rw [Elem.kids_mapKids', Elem.kids_mapKids']
    exact rebuilt_fixed (ht.tree.entries (c!"CHARACTERS", c!"CHARACTER") (by simp [sectionTags]) ce c1) (hz.tree.entries (c!"CHARACTERS", c!"CHARACTER") (by simp [sectionTags]) ce' c1') c2 c2'
  · rw [hfo] at he1; rw [hfk] at he2
    have a := nk e he1 (by rw [find_of_sel_eq n5]; exact ht.tree.entries (c!"PROJECTNOTES", c!"PROJECTNOTE") (by simp [sectionTags]))
    have b := nk' e' he2 (by rw [find_of_sel_eq n5']; exact hz.tree.entries (c!"PROJECTNOTES", c!"PROJECTNOTE") (by simp [sectionTags]))
    rw [a] at b
    rw [Except.ok.inj b]
    exact AlikeL.refl _
  · have ov : ∀ {a b : List Elem}, sel c!"PROJECTVARS" a = sel c!"PROJECTVARS" b → oldVars a = oldVars b := by
      intro a b hab
      unfold oldVars
      rw [find_of_sel_eq hab]
    have oe : oldVars o = e.kids := by unfold oldVars; rw [he1]
    have ok : oldVars k = e'.kids := by unfold oldVars; rw [he2]
    obtain ⟨z', hz1, hz2⟩ := hmono.find he1
    have ha := kid (by decide) he1 hz1
    have oz : oldVars z = z'.kids := by unfold oldVars; rw [hz1]
    rcases buildProjectVars_ok v4 with ⟨v, w⟩ | ⟨v, out, w1, w2, w3⟩
    · rcases buildProjectVars_ok v4' with ⟨_, w'⟩ | ⟨v', _⟩
      · rw [← ok, ov v6', w', ov v5', oz]
        exact ha
      · exact absurd v v'
    · rcases buildProjectVars_ok v4' with ⟨v', _⟩ | ⟨_, out', w1', w2', w3'⟩
      · exact absurd v' v
      · rcases hn.locale with h0 | ⟨lc, cc, h0⟩
        · exact absurd h0 v
        · rw [(h0 sl sc).1, (h0 sl sc).2, ov v5] at w1
          rw [(h0 sl' sc').1, (h0 sl' sc').2, ov v5', oz] at w1'
          have e1 : out = e.kids := by rw [← w2, ← oe, ov v6]
          have e2 : out' = e'.kids := by rw [← w2', ← ok, ov v6']
          subst e1 e2
          obtain ⟨o', o1, o2⟩ := vars_fixed (by
            intro a ha'
            unfold oldVars at ha'
            cases hs : find c!"PROJECTVARS" rk with
            | none => rw [hs] at ha'; cases ha'
            | some s =>
              rw [hs] at ha'
              exact ht.node.vars s hs a ha') hn.languages.1 hn.languages.2 w1 ha (hz.node.vars z' hz1)
          rw [o1] at w1'
          cases w1'
          exact o2
  · rw [s4] at he1; rw [s4'] at he2
    cases he1; cases he2
    have ha := kid (by decide) s4 s1'
    rw [Elem.kids_mapKids', Elem.kids_mapKids'] at *
    exact scenes_fixed hn.scKeys hn.scIds (ht.tree.entries (c!"SCENES", c!"SCENE") (by simp [sectionTags]) se s1) (ht.tree.ids _ (by simp) se s1) (ht.tree.scenes se s1) (tidy.scenes se s1) hn.starts s2 s3
      ha (hz.tree.entries (c!"SCENES", c!"SCENE") (by simp [sectionTags]) se' s1') s2' s3'
  · rw [h3] at he1; rw [h3'] at he2
    cases he1; cases he2
    have ha := kid (by decide) h3 h1'
    rw [Elem.kids_mapKids', Elem.kids_mapKids'] at *
    exact chapters_fixed hn.chKeys hn.chIds (ht.tree.entries (c!"CHAPTERS", c!"CHAPTER") (by simp [sectionTags]) he h1) (ht.tree.ids _ (by simp) he h1) (ht.tree.chapters he h1) (tidy.chapters he h1) h2
      ha (hz.tree.entries (c!"CHAPTERS", c!"CHAPTER") (by simp [sectionTags]) he' h1') h2'

end Verif
