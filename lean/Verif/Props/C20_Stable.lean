/-
C20: saving a project that was read and reading it again changes nothing.
-/
import Verif.Lemmas.Stable3
import Verif.Props.C38_Project
import Verif.Props.C45_Readable

namespace Verif
open Xml Spec

theorem readText_same {v : Option Str} (h : NotEmpty v) : readText v = v := by
  cases v with
  | none => rfl
  | some t => exact readText_ne (fun e => h (by rw [e]))

theorem savedTags_same {o : Option (List Str)} (h : ∀ l, o = some l → l ≠ []) : savedTags o = o := by
  cases o with
  | none => rfl
  | some l =>
    have := h l rfl
    cases l with
    | nil => exact absurd rfl this
    | cons a l => rfl

/-- **A location or an item that was read is read again as it was.** -/
theorem world_stable {w : WorldElement} {r : List Elem} (h0 : ∃ ks, w = readWorld ks) (hset : SettledElement w) (h : WorldSame w (readWorld r)) : readWorld r = w := by
  obtain ⟨ks, hw⟩ := h0
  have hkw : w.kwVar = [(c!"Field_Link", customOf c!"Field_Link" ks)] := by rw [hw]; rfl
  have e1 := h.title.trans (readText_same (hset.texts w.title (by simp)))
  have e2 := h.desc.trans (readText_same (hset.texts w.desc (by simp)))
  have e3 := h.image.trans (readText_same (hset.texts w.image (by simp)))
  have e4 := h.aka.trans (readText_same (hset.texts w.aka (by simp)))
  have e5 := (h.tags (fun l hl => (hset.tags l hl).2)).trans (savedTags_same (fun l hl => (hset.tags l hl).1))
  have e6 := h.link (fun v hv => (hset.link v hv).2)
  have e7 : (readWorld r).kwVar = w.kwVar := by
    rw [hkw]
    have : customOf c!"Field_Link" r = customOf c!"Field_Link" ks := by
      have hl := hset.link
      rw [hkw] at e6 hl
      have a : ((readWorld r).kwVar.get? c!"Field_Link").join = customOf c!"Field_Link" r := rfl
      have b : (Dict.get? [(c!"Field_Link", customOf c!"Field_Link" ks)] c!"Field_Link") = some (customOf c!"Field_Link" ks) := rfl
      rw [a, b] at e6
      rw [b] at hl
      rw [e6]
      refine readText_same ?_
      intro e
      exact (hl [] (by rw [← e]; rfl)).1 rfl
    show [(c!"Field_Link", customOf c!"Field_Link" r)] = _
    rw [this]
  cases hc : readWorld r
  cases w
  rw [hc] at e1 e2 e3 e4 e5 e7
  dsimp only at e1 e2 e3 e4 e5 e7
  subst e1 e2 e3 e4 e5 e7
  rfl

/-- **A character that was read is read again as it was.** -/
theorem character_stable {w : Character} {r : List Elem} (h0 : ∃ ks, w = readCharacter ks) (hset : SettledCharacter w) (h : CharacterSame w (readCharacter r)) : readCharacter r = w := by
  obtain ⟨ks, hw⟩ := h0
  have hkw : w.kwVar = [(c!"Field_Link", customOf c!"Field_Link" ks), (c!"Field_BirthDate", customOf c!"Field_BirthDate" ks), (c!"Field_DeathDate", customOf c!"Field_DeathDate" ks)] := by
    rw [hw]; rfl
  have hmj : w.isMajor = some (hasTag c!"Major" ks) := by rw [hw]; rfl
  have e1 := h.title.trans (readText_same (hset.texts w.title (by simp)))
  have e2 := h.desc.trans (readText_same (hset.texts w.desc (by simp)))
  have e3 := h.image.trans (readText_same (hset.texts w.image (by simp)))
  have e4 := h.aka.trans (readText_same (hset.texts w.aka (by simp)))
  have e5 := (h.tags (fun l hl => (hset.tags l hl).2)).trans (savedTags_same (fun l hl => (hset.tags l hl).1))
  have e6 := h.notes.trans (readText_same (hset.texts w.notes (by simp)))
  have e7 := h.bio.trans (readText_same (hset.texts w.bio (by simp)))
  have e8 := h.goals.trans (readText_same (hset.texts w.goals (by simp)))
  have e9 := h.fullName.trans (readText_same (hset.texts w.fullName (by simp)))
  have e10 : (readCharacter r).isMajor = w.isMajor := by rw [h.isMajor, hmj]; rfl
  have key : ∀ f ∈ [c!"Field_Link", c!"Field_BirthDate", c!"Field_DeathDate"], customOf f r = customOf f ks := by
    intro f hf
    have e := h.custom f hf (fun v hv => (hset.custom f hf v hv).2)
    have hl := fun v hv => (hset.custom f hf v hv).1
    have a : ((readCharacter r).kwVar.get? f).join = customOf f r := by
      simp only [List.mem_cons, List.not_mem_nil, or_false] at hf
      rcases hf with rfl | rfl | rfl <;> rfl
    have b : w.kwVar.get? f = some (customOf f ks) := by
      rw [hkw]
      simp only [List.mem_cons, List.not_mem_nil, or_false] at hf
      rcases hf with rfl | rfl | rfl <;> rfl
    rw [a, b] at e
    rw [b] at hl
    rw [e]
    refine readText_same ?_
    intro e
    exact hl [] (by rw [← e]; rfl) rfl
  have e11 : (readCharacter r).kwVar = w.kwVar := by
    rw [hkw, ← key _ (by simp), ← key c!"Field_BirthDate" (by simp), ← key c!"Field_DeathDate" (by simp)]
    rfl
  obtain ⟨⟨⟩⟩ := w
  generalize readCharacter r = y at *
  obtain ⟨⟨⟩⟩ := y
  clear hw hkw hmj hset h
  dsimp only at e1 e2 e3 e4 e5 e6 e7 e8 e9 e10 e11
  subst e1 e2 e3 e4 e5 e6 e7 e8 e9 e10 e11
  rfl

theorem oldEntry_unique {rk : List Elem} {t id : Str} {old : List Elem} {sec e : Elem} (ho : OldEntry rk t id old) (hf : find t rk = some sec)
    (hn : (sec.kids.map (fun e => textOf c!"ID" e.kids)).Nodup) (he : e ∈ sec.kids) (hi : textOf c!"ID" e.kids = some id) : old = e.kids := by
  rcases ho with ⟨s, e', h1, h2, h3, rfl⟩ | ⟨h1, -⟩
  · rw [hf] at h1
    cases h1
    rw [entry_unique hn h2 he (h3.trans hi.symm)]
  · exact absurd hi (h1 sec hf e he)

theorem chapters_stable {lib : PyLib} {x0 : Elem} {n m : Novel} (ht : ProjectTree x0.kids) (h0 : ReadFrom lib x0.kids n) (hset : SettledNovel lib n)
    (hb : ReadBack lib n x0.kids m) : m.srtChapters = n.srtChapters ∧ m.chapters = n.chapters := by
  obtain ⟨b1, b2, b3⟩ := hb.chapters
  obtain ⟨sec, c1, c2, c3, c4⟩ := h0.chapters
  have hn := hset.ids.sound.chNodup
  refine ⟨b1, Dict.ext (b2.trans (c3 hn).symm) (by rw [b2]; exact hn) ?_⟩
  intro id hid
  rw [b2] at hid
  obtain ⟨c, old, out, ks, g1, g2, g3, g4, g5⟩ := b3 id hid
  obtain ⟨e, e1, e2, e3⟩ := c4 id c g1
  have hnd : (sec.kids.map (fun e => textOf c!"ID" e.kids)).Nodup := by
    rw [nodup_of_mapE c2]
    exact List.Pairwise.map some (fun a b h e => h (Option.some.inj e)) hn
  have := oldEntry_unique g2 c1 hnd e1 e2
  subst this
  rw [g5, g1]
  congr 1
  refine chapter_stable (ht.chapters sec c1 e e1) e3 (hset.chapters id c g1) g3 g4 ?_
  intro i hi
  have : i ∈ n.scenes.keys := by
    rw [e3] at hi
    unfold readChapter at hi
    dsimp only at hi
    split at hi
    · cases hi
    · have := (List.mem_filter.1 hi).2
      simpa using this
  exact ⟨this, hset.ids.scenes i this⟩

theorem scenes_stable {lib : PyLib} {x0 : Elem} {n m : Novel} (ht : ProjectTree x0.kids) (hd : DistinctScenes x0.kids) (h0 : ReadFrom lib x0.kids n) (hset : SettledNovel lib n)
    (hb : ReadBack lib n x0.kids m) : m.scenes = n.scenes := by
  obtain ⟨m1, m2⟩ := chapters_stable ht h0 hset hb
  obtain ⟨b1, b2⟩ := hb.scenes
  obtain ⟨sec, c1, c2⟩ := h0.scenes
  refine Dict.ext b1 (by rw [b1]; exact hset.ids.sound.scKeys) ?_
  intro id hid
  rw [b1] at hid
  obtain ⟨s, hs⟩ := (Dict.mem_keys_iff _ _).1 hid
  obtain ⟨old, out, ks, x, g1, g2, g3, g4, g5⟩ := b2 id s hs
  obtain ⟨e, e1, e2, y, e3, e4⟩ := c2 id s hs
  have := oldEntry_unique g1 c1 (hd sec c1) e1 e2
  subst this
  have hset' := hset.scenes id s hs
  have hy : y = { s with scType := y.scType } ∧ s = { y with scType := s.scType } := by
    rw [e4]
    cases governing n id with
    | none => exact ⟨rfl, rfl⟩
    | some ch => exact ⟨rfl, rfl⟩
  have hsy : SettledScene lib y := by
    rw [hy.1]
    exact ⟨hset'.texts, hset'.plain, hset'.arcs, hset'.status, hset'.tags, hset'.items, hset'.mode, hset'.modeText, hset'.start⟩
  have key := scene_stable (ty := s.scType) (ht.scenes sec c1 e e1) e3 hsy (fun i hi => hset.ids.characters.2 i hi) (fun i hi => hset.ids.locations.2 i hi)
    (by rw [← hy.2]; exact g2) g3 g4
  have hg : governing m id = governing n id := governing_congr m1 m2 id
  rw [g5, hs, hg]
  congr 1
  have hsc := (readScene_read e3).scType
  cases hgov : governing n id with
  | none =>
    rw [hgov] at e4
    dsimp only at e4 ⊢
    subst e4
    rw [key, hsc]
    dsimp only [Option.getD_some]
    rw [← hsc]
  | some ch =>
    rw [hgov] at e4
    dsimp only at e4 ⊢
    rw [key, e4]
    unfold typeOf
    rw [m2]

theorem lastDesc_reloaded (name : Str) {vs r : List Elem} (h : ReloadedL vs r) (hv : ∀ e ∈ vs, VarElement e) (a : Option Str) :
    lastDesc name r (readText a) = readText (lastDesc name vs a) := by
  induction vs generalizing r a with
  | nil => cases h; rfl
  | cons e0 vs ih =>
    cases h with
    | cons _ e _ r' h1 h2 =>
      have ih := ih h2 (fun e he => hv e (by simp [he]))
      obtain ⟨-, -, i3, -⟩ := reloadedVars (.cons _ _ _ _ h1 .nil) (fun e he => hv e (by
        simp only [List.mem_cons, List.not_mem_nil, or_false] at he
        simp [he]))
      obtain ⟨e1, j1, j2, j3⟩ := i3 e (by simp)
      simp only [List.mem_cons, List.not_mem_nil, or_false] at j1
      subst j1
      unfold lastDesc at ih ⊢
      rw [List.foldl_cons, List.foldl_cons, j2, j3]
      split
      · exact ih _
      · exact ih _

theorem languagesIn_none {t : Str} (h : ∀ q u code rest, t = q ++ u → ¬ TagAt u code rest) : languagesIn t = [] := by
  unfold languagesIn languagesLoop
  cases hs : searchLang t with
  | none => rfl
  | some p =>
    obtain ⟨code, rest⟩ := p
    obtain ⟨pre, u, h1, h2, -⟩ := searchLang_some t code rest hs
    exact absurd h2 (h pre u code rest h1)

theorem savedLanguages_settled {n : Novel} (h : n.languages = none → ∀ p ∈ n.scenes, ∀ t, p.2.sceneContent = some t → ∀ q u code rest, t = q ++ u → ¬ TagAt u code rest) :
    savedLanguages n = n.languages.getD [] := by
  unfold savedLanguages
  cases hl : n.languages with
  | some l => rfl
  | none =>
    dsimp only
    have h := h hl
    unfold Novel.getLanguages
    dsimp only [Option.getD_some, Option.getD_none]
    generalize n.scenes = d at h
    induction d with
    | nil => rfl
    | cons p d ih =>
      rw [List.foldl_cons]
      have e' := ih (fun q hq => h q (by simp [hq]))
      cases hc : p.2.sceneContent with
      | none => exact e'
      | some t =>
        cases t with
        | nil => exact e'
        | cons c t =>
          dsimp only
          rw [languagesIn_none (h p (by simp) _ hc)]
          exact e'

/-- If there is no locale and no language, nothing is written to the project variables, and no locale is read. -/
theorem unset_locale {lib : PyLib} {sl sc : Str} {n m : Novel} {x0 out x : Elem} (hp : ProjectNode x0.kids) (hsl : savedLanguages n = []) (hc1 : n.languageCode = none)
    (hc2 : n.countryCode = none) (h1 : lastDesc c!"Language" (oldVars x0.kids) none = none) (h2 : lastDesc c!"Country" (oldVars x0.kids) none = none)
    (hw : writeTree sl sc n (some x0) = .ok out) (hr : Reloaded out x) (hm : readTree lib x = .ok m) : m.languageCode = none ∧ m.countryCode = none := by
  obtain ⟨rk, hb, hr'⟩ := writeTree_ok hw hr
  obtain ⟨⟨p, b1, b2⟩, _, _, _, _, ⟨rk2, rk3, v1, v2, v3⟩, _⟩ := buildRoot_ok hb
  obtain ⟨pe, q, q0, hq, _, _, _, _, _, _, _, _, _, _, _, q11⟩ := readTree_project hm
  obtain ⟨pe', g1, g2⟩ := hr'.find b2
  rw [q0] at g1; cases g1
  have hk := g2.kids
  rw [Elem.kids_mapKids] at hk
  have hlng := project_no_locale (t := c!"Field_LanguageCode") (by simp) (hp.fieldsOnce p b1) (hp.fields p b1) hk
  have hctr := project_no_locale (t := c!"Field_CountryCode") (by simp) (hp.fieldsOnce p b1) (hp.fields p b1) hk
  have hq1 : q.languageCode = none := by
    rw [hq]; unfold readProject; simp only [hlng]; rfl
  have hq2 : q.countryCode = none := by
    rw [hq]; unfold readProject; simp only [hctr]; rfl
  rw [hq1, hq2] at q11
  obtain ⟨_, _, _, _, _, _, _, _, _, _, n1, n2, n3⟩ := prepareNovel_project n
  have hsl' : (prepareNovel n).languages.getD [] = savedLanguages n := by
    rw [n3]; unfold savedLanguages
    cases n.languages <;> rfl
  have hold2 : oldVars rk2 = oldVars x0.kids := by
    unfold oldVars; rw [find_of_sel_eq v2]; rfl
  have hoX : ∃ r, oldVars x.kids = r ∧ ReloadedL (oldVars rk3) r := by
    refine ⟨_, rfl, ?_⟩
    unfold oldVars
    rw [← find_of_sel_eq v3]
    cases hf : find c!"PROJECTVARS" rk with
    | none => rw [hr'.find_none hf]; exact .nil
    | some e =>
      obtain ⟨e', h1, h2⟩ := hr'.find hf
      rw [h1]
      exact h2.kids
  obtain ⟨r, hrx, hrr⟩ := hoX
  have q12 : (m.languageCode, m.countryCode, m.languages) = readVars (none, none, none) r := by
    rw [q11, ← hrx]; rfl
  have hvold : ∀ e ∈ oldVars x0.kids, VarElement e := by
    intro e he
    unfold oldVars at he
    cases hf : find c!"PROJECTVARS" x0.kids with
    | none => rw [hf] at he; cases he
    | some s => rw [hf] at he; exact hp.vars s hf e he
  rcases buildProjectVars_ok v1 with ⟨⟨c1, c2, c3⟩, rfl⟩ | ⟨hcond, _⟩
  · rw [hold2] at hrr
    obtain ⟨e1, e2, _, _⟩ := reloadedVars hrr hvold
    rw [readVars_eq e2, Prod.mk.injEq, Prod.mk.injEq] at q12
    have a := lastDesc_reloaded c!"Language" hrr hvold none
    have b := lastDesc_reloaded c!"Country" hrr hvold none
    rw [h1] at a
    rw [h2] at b
    exact ⟨q12.1.trans a, q12.2.1.trans b⟩
  · refine absurd ⟨hsl'.trans hsl, ?_, ?_⟩ hcond
    · rw [n1, hc1]; rfl
    · rw [n2, hc2]; rfl

/-- Everything about the project itself is the same. -/
structure SameProject (n m : Novel) : Prop where
  title : m.title = n.title
  desc : m.desc = n.desc
  authorName : m.authorName = n.authorName
  authorBio : m.authorBio = n.authorBio
  fieldTitle1 : m.fieldTitle1 = n.fieldTitle1
  fieldTitle2 : m.fieldTitle2 = n.fieldTitle2
  fieldTitle3 : m.fieldTitle3 = n.fieldTitle3
  fieldTitle4 : m.fieldTitle4 = n.fieldTitle4
  wordTarget : m.wordTarget = n.wordTarget
  wordCountStart : m.wordCountStart = n.wordCountStart
  kwVar : m.kwVar = n.kwVar
  languageCode : m.languageCode = n.languageCode
  countryCode : m.countryCode = n.countryCode
  languages : m.languages = n.languages

theorem kwVar_read (lib : PyLib) (ks : List Elem) : (readProject lib {} ks).kwVar = [(c!"Field_LanguageCode", customOf c!"Field_LanguageCode" ks), (c!"Field_CountryCode", customOf c!"Field_CountryCode" ks)] := rfl

theorem project_stable {lib : PyLib} {sl sc : Str} {n m : Novel} {x0 out x : Elem} (hp : ProjectNode x0.kids) (h0 : readTree lib x0 = .ok n) (hset : SettledProject n)
    (hw : writeTree sl sc n (some x0) = .ok out) (hr : Reloaded out x) (hm : readTree lib x = .ok m) : SameProject n m := by
  obtain ⟨p, p1, p2⟩ := C46_project lib sl sc n m (some x0) out x hp hw hr hm
  obtain ⟨pe, q, q0, hq, q1, q2, q3, q4, q5, q6, q7, q8, q9, q10, q13, q11⟩ := readTree_project h0
  rw [show ((some x0).getD newRoot) = x0 from rfl] at p1
  rw [q0] at p1
  injection p1 with p1
  subst p1
  have tx : ∀ {v w : Option Str} {t : Str}, w = saved (textOf t pe.kids) v → v = readOver t none pe.kids → NotEmpty v → w = v := by
    intro v w t h1 h2 h3
    rw [readOver_none] at h2
    rw [h1, ← h2]
    exact saved_same h3
  have ht := hset.texts
  have hsl : savedLanguages n = n.languages.getD [] := savedLanguages_settled hset.used
  obtain ⟨c1, c2⟩ := C38_project_partial lib sl sc n m (some x0) out x hp (by
    rw [hsl]
    cases hl : n.languages with
    | none => exact List.nodup_nil
    | some l => exact (hset.languages l hl).1) (by
    rw [hsl]
    cases hl : n.languages with
    | none => intro c hc; cases hc
    | some l => exact (hset.languages l hl).2) hw hr hm
  have hvold : ∀ e ∈ oldVars x0.kids, VarElement e := by
    intro e he
    unfold oldVars at he
    cases hf : find c!"PROJECTVARS" x0.kids with
    | none => rw [hf] at he; cases he
    | some s => rw [hf] at he; exact hp.vars s hf e he
  have hq13 : customOf c!"Field_LanguageCode" pe.kids = none ∧ customOf c!"Field_CountryCode" pe.kids = none := by
    have := hset.custom
    rw [q13, hq, kwVar_read] at this
    simp only [List.cons.injEq, Prod.mk.injEq, true_and, and_true] at this
    exact this
  have hql : q.languageCode = none ∧ q.countryCode = none := by
    rw [hq]
    unfold readProject
    rw [hq13.1, hq13.2]
    exact ⟨rfl, rfl⟩
  rw [hql.1, hql.2] at q11
  have hrv := readVars_eq (ks := oldVars x0.kids) (fun e he => by
    have v := hvold e he
    obtain ⟨t, v1, -⟩ := v.title
    refine ⟨⟨t, v1⟩, ?_⟩
    have := v.desc
    rw [hasTag_iff]
    exact this) none none none
  have q11 : (n.languageCode, n.countryCode, n.languages) = readVars (none, none, none) (oldVars x0.kids) := by rw [q11]; rfl
  rw [hrv, Prod.mk.injEq, Prod.mk.injEq] at q11
  obtain ⟨r1, r2, r3⟩ := q11
  have hll : n.languages = readList (langsIn (oldVars x0.kids)) := by
    rw [r3]
    unfold readList
    split <;> rfl
  have hgd : n.languages.getD [] = langsIn (oldVars x0.kids) := by
    rw [hll]
    unfold readList
    split
    · rename_i h; rw [h]; rfl
    · rfl
  have hlang : m.languages = n.languages := by
    rw [c1, hsl, hgd]
    show readList (langsIn (oldVars x0.kids) ++ (langsIn (oldVars x0.kids)).filter (fun c => decide (c ∉ langsIn (oldVars x0.kids)))) = _
    rw [List.filter_eq_nil_iff.2 (fun a ha => by simp [ha]), List.append_nil, hll]
  have hcodes : m.languageCode = n.languageCode ∧ m.countryCode = n.countryCode := by
    rcases hset.locale with ⟨l, c, l1, l2, l3⟩ | ⟨l1, l2, l3⟩
    · have hne : l ≠ [] := by
        rintro rfl
        rcases l3 with ⟨l3, -⟩ | ⟨l3, -⟩ <;> cases l3
      have hnc : c ≠ [] := by
        rintro rfl
        rcases l3 with ⟨-, l3⟩ | ⟨-, l3⟩ <;> cases l3
      obtain ⟨d1, d2⟩ := c2 (by
        rintro ⟨-, h, -⟩
        rw [l1] at h
        unfold falsy at h
        cases l with
        | nil => exact hne rfl
        | cons a l => cases h)
      have hck : (n.checkLocale sl sc).languageCode = some l ∧ (n.checkLocale sl sc).countryCode = some c := by
        unfold Novel.checkLocale
        rw [l1, l2, if_neg (by simp [hne])]
        dsimp only
        rcases l3 with l3 | ⟨rfl, rfl⟩
        · rw [if_pos l3]
          exact ⟨l1, l2⟩
        · exact ⟨rfl, rfl⟩
      rw [d1, d2, hck.1, hck.2, l1, l2]
      exact ⟨readText_ne hne, readText_ne hnc⟩
    · have := unset_locale hp (by rw [hsl, l3]; rfl) l1 l2 (r1.symm.trans l1) (r2.symm.trans l2) hw hr hm
      rw [l1, l2]
      exact this
  obtain ⟨wt, hwt⟩ := Option.isSome_iff_exists.1 hset.counts.1
  obtain ⟨ws, hws⟩ := Option.isSome_iff_exists.1 hset.counts.2
  have hkw : m.kwVar = n.kwVar := by
    obtain ⟨rk, hb, hr'⟩ := writeTree_ok hw hr
    obtain ⟨⟨p, b1, b2⟩, -⟩ := buildRoot_ok hb
    obtain ⟨pe', q', u0, hu, _, _, _, _, _, _, _, _, _, _, u13, -⟩ := readTree_project hm
    obtain ⟨pe'', g1, g2⟩ := hr'.find b2
    rw [u0] at g1; cases g1
    have hk := g2.kids
    rw [Elem.kids_mapKids] at hk
    have hlng := project_no_locale (t := c!"Field_LanguageCode") (by simp) (hp.fieldsOnce p b1) (hp.fields p b1) hk
    have hctr := project_no_locale (t := c!"Field_CountryCode") (by simp) (hp.fieldsOnce p b1) (hp.fields p b1) hk
    rw [u13, hu, kwVar_read, hlng, hctr, hset.custom]
  rw [hq] at q1 q2 q3 q4 q5 q6 q7 q8
  exact ⟨tx p2.title q1 (ht n.title (by simp)), tx p2.desc q2 (ht n.desc (by simp)), tx p2.authorName q3 (ht n.authorName (by simp)), tx p2.authorBio q4 (ht n.authorBio (by simp)),
    tx p2.fieldTitle1 q5 (ht n.fieldTitle1 (by simp)), tx p2.fieldTitle2 q6 (ht n.fieldTitle2 (by simp)), tx p2.fieldTitle3 q7 (ht n.fieldTitle3 (by simp)),
    tx p2.fieldTitle4 q8 (ht n.fieldTitle4 (by simp)), by rw [p2.wordTarget wt hwt, hwt], by rw [p2.wordCountStart ws hws, hws], hkw, hcodes.1, hcodes.2, hlang⟩

/-- A scene that was read can be read again after it was saved. -/
theorem settled_readable {lib : PyLib} {a b c : List Str} {ks out r : List Elem} {s : Scene} (hk : SceneElement ks) (h0 : ∃ y, readScene lib a b c ks = .ok y ∧ s = { y with scType := s.scType })
    (hset : SettledScene lib s) (hs : sceneOut (syncScene s) ks = .ok out) (hr : ReloadedL out r) : ∀ a b c, ∃ y, readScene lib a b c r = .ok y := by
  intro a' b' c'
  obtain ⟨y, h1, h2⟩ := h0
  have f := readScene_read h1
  have hst : readStart lib r = .ok (s.date, s.time, s.day) := by
    have e : readStart lib ks = .ok (s.date, s.time, s.day) := by rw [h2]; exact f.start
    rw [← e]
    exact start_stable (s := syncScene s) hk hs hr e hset.start
  have hstat : ∃ o, readStatus lib r = .ok o := by
    cases hi : s.status with
    | none => exact absurd hi hset.status
    | some i =>
      have hi' : (syncScene s).status = some i := hi
      have ht := textOf_alwaysSel hr (scene_Status hs) (hk.plain _ (by decide)).2
        (Or.inr (by rw [hi']; intro v hv; simp only [Option.map_some, Option.some_or, Option.some.injEq] at hv; subst hv; exact plainStr_ofInt i))
      rw [hi'] at ht
      simp only [Option.map_some, saved, Option.some_or, readText_ne (ofInt_ne_nil i)] at ht
      obtain ⟨e, e1, e2⟩ := textOf_eq_some ht
      unfold readStatus
      rw [e1]
      dsimp only
      rw [e2]
      dsimp only
      rw [lib.int_str]
      exact ⟨_, rfl⟩
  obtain ⟨o, ho⟩ := hstat
  unfold readScene
  rw [ho, hst]
  exact ⟨_, rfl⟩

/-- **C20**: a project that was read and is saved without a change can be read again, and it is the same in every respect. -/
theorem C20_stable_partial (lib : PyLib) (sl sc : Str) (x0 out x : Elem) (n : Novel) (ht : ProjectTree x0.kids) (hp : ProjectNode x0.kids) (hd : DistinctScenes x0.kids)
    (h0 : readTree lib x0 = .ok n) (hset : SettledNovel lib n) (hw : writeTree sl sc n (some x0) = .ok out) (hr : Reloaded out x) : readTree lib x = .ok n := by
  have f := readFrom h0
  obtain ⟨sec, c1, c2⟩ := f.scenes
  have hread : ∃ m, readTree lib x = .ok m := by
    refine readable_of_scenes lib sl sc n (some x0) out x ht hset.ids hw hr ?_
    intro id s old o r hs hold hse hd' hzk
    obtain ⟨e, e1, e2, y, e3, e4⟩ := c2 id s hs
    have := oldEntry_unique hold c1 (hd sec c1) e1 e2
    subst this
    refine settled_readable hse ⟨y, e3, ?_⟩ (hset.scenes id s hs) hd' hzk
    rw [e4]
    cases governing n id <;> rfl
  obtain ⟨m, hm⟩ := hread
  rw [hm]
  congr 1
  have hb := readBack lib sl sc n m (some x0) out x ht hset.ids hw hr hm
  have hpr := project_stable hp h0 hset.project hw hr hm
  obtain ⟨m1, m2⟩ := chapters_stable ht f hset hb
  have m3 := scenes_stable ht hd f hset hb
  have world : ∀ {d d' : Dict WorldElement} {srt : List Str}, d'.keys = srt → d.keys = srt → srt.Nodup → (∀ id w, d.get? id = some w → ∃ ks, w = readWorld ks) →
      (∀ id w, d.get? id = some w → SettledElement w) →
      (∀ id ∈ srt, ∃ w ks, d.get? id = some w ∧ ReloadedL (buildWorld w [Elem.leaf c!"ID" (some id)]) ks ∧ d'.get? id = some (readWorld ks)) → d' = d := by
    intro d d' srt k1 k2 k3 k4 k5 k6
    refine Dict.ext (k1.trans k2.symm) (by rw [k1]; exact k3) ?_
    intro id hid
    rw [k1] at hid
    obtain ⟨w, ks, g1, g2, g3⟩ := k6 id hid
    rw [g3, g1, world_stable (k4 id w g1) (k5 id w g1) (world_entry w id ks g2)]
  obtain ⟨l1, l2, l3⟩ := hb.locations
  obtain ⟨i1, i2, i3⟩ := hb.items
  obtain ⟨k1, k2, k3⟩ := hb.characters
  obtain ⟨o1, o2, o3⟩ := hb.notes
  have m4 := world l2 (f.locations.1 hset.ids.locations.1) hset.ids.locations.1 f.locations.2 hset.locations l3
  have m5 := world i2 (f.items.1 hset.ids.items.1) hset.ids.items.1 f.items.2 hset.items i3
  have m6 : m.characters = n.characters := by
    refine Dict.ext (k2.trans (f.characters.1 hset.ids.characters.1).symm) (by rw [k2]; exact hset.ids.characters.1) ?_
    intro id hid
    rw [k2] at hid
    obtain ⟨w, ks, g1, g2, g3⟩ := k3 id hid
    rw [g3, g1, character_stable (f.characters.2 id w g1) (hset.characters id w g1) (character_entry w id ks g2)]
  have m7 : m.projectNotes = n.projectNotes := by
    refine Dict.ext (o2.trans (f.notes.1 hset.ids.notes.1).symm) (by rw [o2]; exact hset.ids.notes.1) ?_
    intro id hid
    rw [o2] at hid
    obtain ⟨w, y, g1, g2, g3, g4⟩ := (C23_world lib sl sc n m (some x0) out x ht hset.ids hw hr hm).2.2.2 id hid
    obtain ⟨w', ks, q1, q2, q3⟩ := o3 id hid
    obtain ⟨t, d, ht'⟩ := f.notes.2 id w g1
    obtain ⟨s1, s2⟩ := hset.notes id w g1
    rw [g1, g2]
    rw [q3] at g2
    injection g2 with g2
    rw [readText_same s1] at g3
    rw [readText_same s2] at g4
    rw [ht'] at g3 g4 ⊢
    rw [← g2] at g3 g4 ⊢
    dsimp only at g3 g4
    rw [g3, g4]
  cases m
  cases n
  obtain ⟨p1, p2, p3, p4, p5, p6, p7, p8, p9, p10, p11, p12, p13, p14⟩ := hpr
  dsimp only at *
  subst p1 p2 p3 p4 p5 p6 p7 p8 p9 p10 p11 p12 p13 p14 m1 m2 m3 m4 m5 m6 m7 l1 i1 k1 o1
  rfl

end Verif
