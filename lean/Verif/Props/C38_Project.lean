/-
C38 and C46 for whole projects: what is read back of the project data and of the languages.
-/
import Verif.Props.C38_Vars
import Verif.Props.C11_C12_Languages

namespace Verif
open Xml Elem Spec

namespace Spec

/-- The text elements of the project node. -/
def projectTextTags : List Str :=
  [c!"Title", c!"Desc", c!"AuthorName", c!"Bio", c!"FieldTitle1", c!"FieldTitle2", c!"FieldTitle3",
   c!"FieldTitle4", c!"WordCountStart", c!"WordTarget"]

/-- The project node as yWriter writes it, and regular project variables. -/
structure ProjectNode (rk : List Elem) : Prop where
  plain : ∀ p, find c!"PROJECT" rk = some p → PlainOnce projectTextTags p.kids
  fieldsOnce : ∀ p, find c!"PROJECT" rk = some p → (sel c!"Fields" p.kids).length ≤ 1
  fields : ∀ p, find c!"PROJECT" rk = some p → ∀ f ∈ sel c!"Fields" p.kids,
    ∀ t ∈ [c!"Field_LanguageCode", c!"Field_CountryCode"], (sel t f.kids).length ≤ 1
  vars : ∀ s, find c!"PROJECTVARS" rk = some s → ∀ e ∈ s.kids, VarElement e

/-- The texts of the project are read back as they were saved. -/
structure ProjectTexts (old : List Elem) (n m : Novel) : Prop where
  title : m.title = saved (Verif.textOf c!"Title" old) n.title
  desc : m.desc = saved (Verif.textOf c!"Desc" old) n.desc
  authorName : m.authorName = saved (Verif.textOf c!"AuthorName" old) n.authorName
  authorBio : m.authorBio = saved (Verif.textOf c!"Bio" old) n.authorBio
  fieldTitle1 : m.fieldTitle1 = saved (Verif.textOf c!"FieldTitle1" old) n.fieldTitle1
  fieldTitle2 : m.fieldTitle2 = saved (Verif.textOf c!"FieldTitle2" old) n.fieldTitle2
  fieldTitle3 : m.fieldTitle3 = saved (Verif.textOf c!"FieldTitle3" old) n.fieldTitle3
  fieldTitle4 : m.fieldTitle4 = saved (Verif.textOf c!"FieldTitle4" old) n.fieldTitle4
  wordTarget : ∀ i, n.wordTarget = some i → m.wordTarget = some i
  wordCountStart : ∀ i, n.wordCountStart = some i → m.wordCountStart = some i

end Spec

theorem readOver_none (t : Str) (ks : List Elem) : readOver t none ks = textOf t ks := by
  unfold readOver textOf
  cases find t ks <;> rfl

theorem prepareNovel_project (n : Novel) : (prepareNovel n).title = n.title ∧ (prepareNovel n).desc = n.desc ∧
    (prepareNovel n).authorName = n.authorName ∧ (prepareNovel n).authorBio = n.authorBio ∧
    (prepareNovel n).fieldTitle1 = n.fieldTitle1 ∧ (prepareNovel n).fieldTitle2 = n.fieldTitle2 ∧
    (prepareNovel n).fieldTitle3 = n.fieldTitle3 ∧ (prepareNovel n).fieldTitle4 = n.fieldTitle4 ∧
    (prepareNovel n).wordTarget = n.wordTarget ∧ (prepareNovel n).wordCountStart = n.wordCountStart ∧
    (prepareNovel n).languageCode = n.languageCode ∧ (prepareNovel n).countryCode = n.countryCode ∧
    (prepareNovel n).languages = (if n.languages = none then n.getLanguages.languages else n.languages) := by
  unfold prepareNovel Novel.getLanguages
  split <;> simp_all

theorem project_sels (n : Novel) (ks : List Elem) :
    sel c!"Title" (buildProject n ks) = alwaysSel c!"Title" n.title (sel c!"Title" ks) ∧
    sel c!"Desc" (buildProject n ks) = alwaysSel c!"Desc" n.desc (sel c!"Desc" ks) ∧
    sel c!"AuthorName" (buildProject n ks) = alwaysSel c!"AuthorName" n.authorName (sel c!"AuthorName" ks) ∧
    sel c!"Bio" (buildProject n ks) = alwaysSel c!"Bio" n.authorBio (sel c!"Bio" ks) ∧
    sel c!"FieldTitle1" (buildProject n ks) = alwaysSel c!"FieldTitle1" n.fieldTitle1 (sel c!"FieldTitle1" ks) ∧
    sel c!"FieldTitle2" (buildProject n ks) = alwaysSel c!"FieldTitle2" n.fieldTitle2 (sel c!"FieldTitle2" ks) ∧
    sel c!"FieldTitle3" (buildProject n ks) = alwaysSel c!"FieldTitle3" n.fieldTitle3 (sel c!"FieldTitle3" ks) ∧
    sel c!"FieldTitle4" (buildProject n ks) = alwaysSel c!"FieldTitle4" n.fieldTitle4 (sel c!"FieldTitle4" ks) ∧
    sel c!"WordCountStart" (buildProject n ks) =
      alwaysSel c!"WordCountStart" (n.wordCountStart.map Str.ofInt) (sel c!"WordCountStart" ks) ∧
    sel c!"WordTarget" (buildProject n ks) =
      alwaysSel c!"WordTarget" (n.wordTarget.map Str.ofInt) (sel c!"WordTarget" ks) ∧
    sel c!"Fields" (buildProject n ks) = onFieldsSel (removeFirst c!"Field_CountryCode")
      (onFieldsSel (removeFirst c!"Field_LanguageCode") (sel c!"Fields" ks)) := by
  unfold buildProject
  refine ⟨?_, ?_, ?_, ?_, ?_, ?_, ?_, ?_, ?_, ?_, ?_⟩ <;>
    simp (disch := decide) only [sel_removeFirst_ne, sel_onFields, sel_onFields_ne, sel_putAlways_ne, sel_putAlways]

theorem project_num {lib : PyLib} {out r : List Elem} {t : Str} {i : Int} {l : List Elem}
    (hr : ReloadedL out r) (hs : sel t out = alwaysSel t (some (Str.ofInt i)) l) (hl : ∀ e ∈ l, e.kids = []) :
    readNum lib t none r = some i := by
  have h := textOf_alwaysSel hr hs hl (Or.inr (by
    intro s hs; simp only [Option.some_or, Option.some.injEq] at hs; subst hs; exact plainStr_ofInt i))
  have h2 : textOf t r = some (Str.ofInt i) := by
    rw [h]; exact readText_ne (ofInt_ne_nil i)
  obtain ⟨e, he1, he2⟩ := textOf_eq_some h2
  unfold readNum
  rw [he1]
  simp only [he2, Option.bind_some, lib.int_str, Option.getD_some]

/-- **C46**: the project's texts and numbers are read back as they were saved. -/
theorem C46_project (lib : PyLib) (sl sc : Str) (n m : Novel) (tree : Option Elem) (out x : Elem)
    (hp : ProjectNode (tree.getD newRoot).kids)
    (hw : writeTree sl sc n tree = .ok out) (hr : Reloaded out x) (hm : readTree lib x = .ok m) :
    ∃ p, find c!"PROJECT" (tree.getD newRoot).kids = some p ∧ ProjectTexts p.kids n m := by
  obtain ⟨rk, hb, hr'⟩ := writeTree_ok hw hr
  obtain ⟨⟨p, b1, b2⟩, _⟩ := buildRoot_ok hb
  obtain ⟨pe, q, q0, hq, q1, q2, q3, q4, q5, q6, q7, q8, q9, q10, _⟩ := readTree_project hm
  obtain ⟨pe', g1, g2⟩ := hr'.find b2
  rw [q0] at g1; cases g1
  have hk := g2.kids
  rw [kids_mapKids] at hk
  obtain ⟨s1, s2, s3, s4, s5, s6, s7, s8, s9, s10, _⟩ := project_sels (prepareNovel n) p.kids
  obtain ⟨p1, p2, p3, p4, p5, p6, p7, p8, p9, p10, _⟩ := prepareNovel_project n
  rw [p1] at s1; rw [p2] at s2; rw [p3] at s3; rw [p4] at s4; rw [p5] at s5; rw [p6] at s6; rw [p7] at s7
  rw [p8] at s8; rw [p9] at s10; rw [p10] at s9
  have hpl := hp.plain p b1
  have leaf' : ∀ t ∈ projectTextTags, ∀ e ∈ sel t p.kids, e.kids = [] := fun t ht => (hpl t ht).2
  subst hq
  refine ⟨p, b1, ?_, ?_, ?_, ?_, ?_, ?_, ?_, ?_, ?_, ?_⟩
  · rw [q1, textOf_eq]; exact (readOver_none _ _).trans (textOf_alwaysSel hk s1 (leaf' _ (by decide)) (Or.inl (by decide)))
  · rw [q2, textOf_eq]; exact (readOver_none _ _).trans (textOf_alwaysSel hk s2 (leaf' _ (by decide)) (Or.inl (by decide)))
  · rw [q3, textOf_eq]; exact (readOver_none _ _).trans (textOf_alwaysSel hk s3 (leaf' _ (by decide)) (Or.inl (by decide)))
  · rw [q4, textOf_eq]; exact (readOver_none _ _).trans (textOf_alwaysSel hk s4 (leaf' _ (by decide)) (Or.inl (by decide)))
  · rw [q5, textOf_eq]; exact (readOver_none _ _).trans (textOf_alwaysSel hk s5 (leaf' _ (by decide)) (Or.inl (by decide)))
  · rw [q6, textOf_eq]; exact (readOver_none _ _).trans (textOf_alwaysSel hk s6 (leaf' _ (by decide)) (Or.inl (by decide)))
  · rw [q7, textOf_eq]; exact (readOver_none _ _).trans (textOf_alwaysSel hk s7 (leaf' _ (by decide)) (Or.inl (by decide)))
  · rw [q8, textOf_eq]; exact (readOver_none _ _).trans (textOf_alwaysSel hk s8 (leaf' _ (by decide)) (Or.inl (by decide)))
  · intro i hi
    rw [hi] at s10
    rw [q9]; exact project_num hk s10 (leaf' _ (by decide))
  · intro i hi
    rw [hi] at s9
    rw [q10]; exact project_num hk s9 (leaf' _ (by decide))

/-- The custom fields for the locale are gone after saving. -/
theorem project_no_locale {n : Novel} {ks r : List Elem} {t : Str}
    (ht : t ∈ [c!"Field_LanguageCode", c!"Field_CountryCode"])
    (h1 : (sel c!"Fields" ks).length ≤ 1) (h2 : ∀ f ∈ sel c!"Fields" ks,
      ∀ t ∈ [c!"Field_LanguageCode", c!"Field_CountryCode"], (sel t f.kids).length ≤ 1)
    (hr : ReloadedL (buildProject n ks) r) : customOf t r = none := by
  obtain ⟨_, _, _, _, _, _, _, _, _, _, hs⟩ := project_sels n ks
  have hrs := hr.sel c!"Fields"
  rw [hs] at hrs
  have hlen := length_reloaded hrs
  revert h1 h2 hrs hlen
  generalize hl : sel c!"Fields" ks = l
  intro h1 h2 hrs hlen
  match l, h1, hl with
  | [], _, hl =>
    have hnil : sel c!"Fields" r = [] := by
      generalize sel c!"Fields" r = z at hrs
      simp only [onFieldsSel] at hrs
      cases hrs; rfl
    unfold customOf; rw [hnil]; rfl
  | [f], _, hl =>
    have hle : (sel c!"Fields" r).length ≤ 1 := by rw [hlen]; simp [onFieldsSel]
    rw [customOf_eq hle]
    have hk := reloaded_headKids hrs
    apply textOf_of_sel_nil
    refine reloaded_sel_nil hk ?_
    simp only [onFieldsSel, headKids, kids_mapKids]
    have hf := h2 f (by simp)
    simp only [List.mem_cons, List.not_mem_nil, or_false] at ht
    rcases ht with rfl | rfl
    · rw [sel_removeFirst_ne (by decide), sel_removeFirst_self]
      exact tail_of_le_one (hf _ (by simp))
    · rw [sel_removeFirst_self, sel_removeFirst_ne (by decide)]
      exact tail_of_le_one (hf _ (by simp))

theorem reloadedVars {vs r : List Elem} (h : ReloadedL vs r) (hv : ∀ e ∈ vs, VarElement e) :
    langsIn r = langsIn vs ∧
    (∀ e ∈ r, (∃ t, textOf c!"Title" e.kids = some t) ∧ hasTag c!"Desc" e.kids = true) ∧
    (∀ e ∈ r, ∃ e0 ∈ vs, textOf c!"Title" e.kids = textOf c!"Title" e0.kids ∧
      textOf c!"Desc" e.kids = readText (textOf c!"Desc" e0.kids)) ∧
    (∀ e0 ∈ vs, ∃ e ∈ r, textOf c!"Title" e.kids = textOf c!"Title" e0.kids ∧
      textOf c!"Desc" e.kids = readText (textOf c!"Desc" e0.kids)) := by
  induction vs generalizing r with
  | nil => cases h; simp [langsIn]
  | cons e0 vs ih =>
    cases h with
    | cons _ e _ r' h1 h2 =>
      obtain ⟨i1, i2, i3, i4⟩ := ih h2 (fun e he => hv e (by simp [he]))
      have he0 := hv e0 (by simp)
      have hk := h1.kids
      obtain ⟨t, ht, htn⟩ := he0.title
      have htt : textOf c!"Title" e.kids = textOf c!"Title" e0.kids := by
        rw [hk.textOf (he0.leaves c!"Title" (by simp)) (Or.inl (by decide)), ht, readText_ne htn]
      have htd : textOf c!"Desc" e.kids = readText (textOf c!"Desc" e0.kids) :=
        hk.textOf (he0.leaves c!"Desc" (by simp)) (Or.inl (by decide))
      refine ⟨?_, ?_, ?_, ?_⟩
      · unfold langsIn at i1 ⊢
        rw [List.filterMap_cons, List.filterMap_cons, i1, htt]
      · intro x hx
        rcases List.mem_cons.1 hx with rfl | hx
        · refine ⟨⟨t, htt.trans ht⟩, ?_⟩
          rw [hk.hasTag]
          exact (hasTag_iff _ _).2 he0.desc
        · exact i2 x hx
      · intro x hx
        rcases List.mem_cons.1 hx with rfl | hx
        · exact ⟨e0, by simp, htt, htd⟩
        · obtain ⟨y, hy, h⟩ := i3 x hx
          exact ⟨y, by simp [hy], h⟩
      · intro y hy
        rcases List.mem_cons.1 hy with rfl | hy
        · exact ⟨e, by simp, htt, htd⟩
        · obtain ⟨x, hx, h⟩ := i4 y hy
          exact ⟨x, by simp [hx], h⟩

/-- The variables in the old file. -/
def oldVars (rk : List Elem) : List Elem := match find c!"PROJECTVARS" rk with | none => [] | some e => e.kids

/-- The languages `write` registers: those of the novel, or those used in the scenes if none are set. -/
def savedLanguages (n : Novel) : List Str :=
  (match n.languages with
   | none => n.getLanguages.languages
   | some l => some l).getD []

theorem buildProjectVars_ok {sl sc : Str} {n : Novel} {rk rk' : List Elem}
    (h : buildProjectVars sl sc n rk = .ok rk') :
    ((n.languages.getD [] = [] ∧ falsy n.languageCode = true ∧ falsy n.countryCode = true) ∧ rk' = rk) ∨
    (¬ (n.languages.getD [] = [] ∧ falsy n.languageCode = true ∧ falsy n.countryCode = true) ∧
      ∃ out, buildVars (n.languages.getD []) (n.checkLocale sl sc).languageCode (n.checkLocale sl sc).countryCode
        (oldVars rk) = .ok out ∧ oldVars rk' = out ∧ (find c!"PROJECTVARS" rk').isSome) := by
  unfold buildProjectVars at h
  split at h
  · rename_i hc
    cases h
    exact Or.inl ⟨hc, rfl⟩
  · rename_i hc
    right
    refine ⟨hc, ?_⟩
    obtain ⟨e, ks, h1, h2, h3, _⟩ := onSection_ok h
    have he : e.kids = oldVars rk := by
      unfold oldVars
      split at h1
      · rw [h1]
      · rename_i hh
        have hnone : find c!"PROJECTVARS" rk = none := by
          unfold hasTag at hh
          cases hf : find c!"PROJECTVARS" rk with
          | none => rfl
          | some e => rw [hf] at hh; simp at hh
        have hfa := find_append_of_none (t := c!"PROJECTVARS") (e := node c!"PROJECTVARS" none none []) rfl hnone
        rw [hnone]
        rw [hfa] at h1
        cases h1
        rfl
    rw [he] at h2
    refine ⟨ks, h2, ?_, by rw [h3]; rfl⟩
    unfold oldVars
    rw [h3]
    simp

/-- **C38, reading back**: after saving and reading the file again, the languages are those that were
registered in the old file, followed by those of the novel that were not, each once; the document's
locale is the one that was saved (after the check of C12). -/
theorem C38_project_partial (lib : PyLib) (sl sc : Str) (n m : Novel) (tree : Option Elem) (out x : Elem)
    (hp : ProjectNode (tree.getD newRoot).kids)
    (hl : (savedLanguages n).Nodup) (hc : ∀ c ∈ savedLanguages n, '=' ∉ c)
    (hw : writeTree sl sc n tree = .ok out) (hr : Reloaded out x) (hm : readTree lib x = .ok m) :
    let old := oldVars (tree.getD newRoot).kids
    m.languages = readList (langsIn old ++ (savedLanguages n).filter (fun c => decide (c ∉ langsIn old))) ∧
    (¬ (savedLanguages n = [] ∧ falsy n.languageCode = true ∧ falsy n.countryCode = true) →
      m.languageCode = readText (n.checkLocale sl sc).languageCode ∧
      m.countryCode = readText (n.checkLocale sl sc).countryCode) := by
  intro old
  obtain ⟨rk, hb, hr'⟩ := writeTree_ok hw hr
  obtain ⟨⟨p, b1, b2⟩, _, _, _, _, ⟨rk2, rk3, v1, v2, v3⟩, _⟩ := buildRoot_ok hb
  obtain ⟨pe, q, q0, hq, _, _, _, _, _, _, _, _, _, _, _, q11⟩ := readTree_project hm
  obtain ⟨pe', g1, g2⟩ := hr'.find b2
  rw [q0] at g1; cases g1
  have hk := g2.kids
  rw [kids_mapKids] at hk
  have hlng := project_no_locale (t := c!"Field_LanguageCode") (by simp) (hp.fieldsOnce p b1) (hp.fields p b1) hk
  have hctr := project_no_locale (t := c!"Field_CountryCode") (by simp) (hp.fieldsOnce p b1) (hp.fields p b1) hk
  have hq1 : q.languageCode = none := by
    rw [hq]; unfold readProject; simp only [hlng]; rfl
  have hq2 : q.countryCode = none := by
    rw [hq]; unfold readProject; simp only [hctr]; rfl
  rw [hq1, hq2] at q11
  obtain ⟨_, _, _, _, _, _, _, _, _, _, n1, n2, n3⟩ := prepareNovel_project n
  have hsl : (prepareNovel n).languages.getD [] = savedLanguages n := by
    rw [n3]; unfold savedLanguages
    cases n.languages <;> rfl
  have hcl : ((prepareNovel n).checkLocale sl sc).languageCode = (n.checkLocale sl sc).languageCode ∧
      ((prepareNovel n).checkLocale sl sc).countryCode = (n.checkLocale sl sc).countryCode := by
    unfold Novel.checkLocale
    rw [n1, n2]
    split
    · exact ⟨rfl, rfl⟩
    · cases hl1 : n.languageCode <;> cases hc1 : n.countryCode <;>
        first
        | exact ⟨rfl, rfl⟩
        | (simp only; split
           · exact ⟨n1, n2⟩
           · exact ⟨rfl, rfl⟩)
  have hold2 : oldVars rk2 = old := by
    show oldVars rk2 = oldVars _
    unfold oldVars; rw [find_of_sel_eq v2]
  have hoX : ∃ r, oldVars x.kids = r ∧ ReloadedL (oldVars rk3) r := by
    refine ⟨_, rfl, ?_⟩
    unfold oldVars
    rw [← find_of_sel_eq v3]
    cases hf : find c!"PROJECTVARS" rk with
    | none => rw [hr'.find_none hf]; exact .nil
    | some e =>
      obtain ⟨e', h1, h2⟩ := hr'.find hf
      rw [h1]
      exact h2.kids
  obtain ⟨r, hrx, hrr⟩ := hoX
  have q12 : (m.languageCode, m.countryCode, m.languages) = readVars (none, none, none) r := by
    rw [q11, ← hrx]; rfl
  have hvold : ∀ e ∈ old, VarElement e := by
    intro e he
    have he : e ∈ oldVars (tree.getD newRoot).kids := he
    unfold oldVars at he
    cases hf : find c!"PROJECTVARS" (tree.getD newRoot).kids with
    | none => rw [hf] at he; cases he
    | some s => rw [hf] at he; exact hp.vars s hf e he
  have rl : ∀ l : List Str, (if l = [] then none else some ((none : Option (List Str)).getD [] ++ l)) = readList l := by
    intro l; unfold readList; split <;> rfl
  rcases buildProjectVars_ok v1 with ⟨⟨c1, c2, c3⟩, rfl⟩ | ⟨hcond, o, hbv, ho, _⟩
  · rw [hold2] at hrr
    obtain ⟨e1, e2, _, _⟩ := reloadedVars hrr hvold
    rw [readVars_eq e2, Prod.mk.injEq, Prod.mk.injEq, e1, rl] at q12
    rw [hsl] at c1
    refine ⟨?_, ?_⟩
    · rw [q12.2.2, c1]; simp
    · intro hcon; exact absurd ⟨c1, n1 ▸ c2, n2 ▸ c3⟩ hcon
  · rw [hsl, hold2, hcl.1, hcl.2] at hbv
    rw [ho] at hrr
    obtain ⟨l1, l2, l3, l4, l5⟩ := buildVars_locale hvold hl hbv
    obtain ⟨kept, new, s1, _, _, _, _, _, s7⟩ := C38_saved (savedLanguages n)
      (n.checkLocale sl sc).languageCode (n.checkLocale sl sc).countryCode old hvold hl hc
    rw [hbv] at s1
    simp only [Except.ok.injEq] at s1
    obtain ⟨e1, e2, e3, e4⟩ := reloadedVars hrr l1
    rw [readVars_eq e2, Prod.mk.injEq, Prod.mk.injEq, e1, rl, s1, s7] at q12
    refine ⟨q12.2.2, fun _ => ⟨?_, ?_⟩⟩
    · rw [q12.1]
      refine lastDesc_const ?_ ?_ _
      · intro e he ht
        obtain ⟨e0, h1, h2, h3⟩ := e3 e he
        rw [h3, l2 e0 h1 (h2 ▸ ht)]
      · obtain ⟨e0, h1, h2⟩ := l4
        obtain ⟨e, h3, h4, _⟩ := e4 e0 h1
        exact ⟨e, h3, h4.trans h2⟩
    · rw [q12.2.1]
      refine lastDesc_const ?_ ?_ _
      · intro e he ht
        obtain ⟨e0, h1, h2, h3⟩ := e3 e he
        rw [h3, l3 e0 h1 (h2 ▸ ht)]
      · obtain ⟨e0, h1, h2⟩ := l5
        obtain ⟨e, h3, h4, _⟩ := e4 e0 h1
        exact ⟨e, h3, h4.trans h2⟩

/-- A language code with an equals sign, as in `[lang=a=b]`, is registered again each time the project is
saved, and never read back: the statement of C38 does not hold for such codes. -/
theorem C38_false : ∃ out1 out2,
    buildVars [c!"a=b"] (some c!"en") (some c!"US") [] = .ok out1 ∧
    buildVars [c!"a=b"] (some c!"en") (some c!"US") out1 = .ok out2 ∧
    (out2.filter (fun e => decide (textOf c!"Title" e.kids = some c!"lang=a=b"))).length = 2 ∧
    (readVars (none, none, none) out2).2.2 = none := by
  refine ⟨_, _, rfl, rfl, by decide, by decide⟩

/-- The hypotheses can be met: a file with a foreign variable, a registered language and a locale, a
novel with one registered and one new language. -/
example : ∃ out, buildVars [c!"de", c!"fr"] (some c!"en") (some c!"US")
      [mkVar (c!"1", c!"Mood", some c!"x"), mkVar (c!"3", c!"lang=de", none), mkVar (c!"4", c!"Language", none)]
      = .ok out ∧ langsIn out = [c!"de", c!"fr"] ∧
      varIds out = [c!"1", c!"3", c!"4", c!"2", c!"5", c!"6"] := by
  refine ⟨_, rfl, by decide, by decide⟩

end Verif
