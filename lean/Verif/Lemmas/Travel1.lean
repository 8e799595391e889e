/-
Languages that a project file has already are not written again.
-/
import Verif.Props.C54_Proof
import Verif.Props.C66_Notes
import Verif.Props.C53_Identical
import Verif.Props.C64_OdfMeta

namespace Verif
open Spec Elem Rd Xml

/-! ### Languages that are in the file already -/

/-- The variables of a project, if the file has the languages already. -/
theorem buildVars_known {langs langs' : List Str} {lng ctr : Option Str} {ks : List Elem} (hk : ∀ e ∈ ks, VarElement e)
    (h1 : langs.Nodup) (h2 : ∀ l ∈ langs, l ∈ langsIn ks) (h1' : langs'.Nodup) (h2' : ∀ l ∈ langs', l ∈ langsIn ks) :
    buildVars langs lng ctr ks = buildVars langs' lng ctr ks := by
  unfold buildVars
  rw [scanVars_ok hk, scanVars_ok hk]
  dsimp only
  rw [foldl_erase_nodup _ _ h1, foldl_erase_nodup _ _ h1', List.filter_eq_nil_iff.2 (fun a ha => by simp [h2 a ha]), List.filter_eq_nil_iff.2 (fun a ha => by simp [h2' a ha])]

theorem languages_read {lib : PyLib} {n : Novel} {x0 : Elem} (hp : ProjectNode x0.kids) (h0 : readTree lib x0 = .ok n) :
    n.languages.getD [] = langsIn (oldVars x0.kids) := by
  obtain ⟨pe, q, q0, hq, q1, q2, q3, q4, q5, q6, q7, q8, q9, q10, q13, q11⟩ := readTree_project h0
  have hvold : ∀ e ∈ oldVars x0.kids, VarElement e := by
    intro e he
    unfold oldVars at he
    cases hf : find c!"PROJECTVARS" x0.kids with
    | none => rw [hf] at he; cases he
    | some s => rw [hf] at he; exact hp.vars s hf e he
  have hrv := readVars_eq (ks := oldVars x0.kids) (fun e he => by
    have v := hvold e he
    obtain ⟨t, v1, -⟩ := v.title
    refine ⟨⟨t, v1⟩, ?_⟩
    have := v.desc
    rw [hasTag_iff]
    exact this) q.languageCode q.countryCode none
  have q11 : (n.languageCode, n.countryCode, n.languages) = readVars (q.languageCode, q.countryCode, none) (oldVars x0.kids) := by rw [q11]; rfl
  rw [hrv, Prod.mk.injEq, Prod.mk.injEq] at q11
  obtain ⟨r1, r2, r3⟩ := q11
  rw [r3]
  split
  · rename_i h; rw [h]; rfl
  · rfl

theorem except_bind_congr {α β : Type} {x : Except Exc α} {f g : α → Except Exc β} (h : ∀ a, x = .ok a → f a = g a) : (x >>= f) = (x >>= g) := by
  cases x with
  | error e => rfl
  | ok a => exact h a rfl

theorem oldVars_of_sel {a b : List Elem} (h : sel c!"PROJECTVARS" a = sel c!"PROJECTVARS" b) : oldVars a = oldVars b := by
  unfold oldVars
  rw [find_of_sel_eq h]

/-- The project variables do not depend on the languages, if the file has them all. -/
theorem projectVars_known {sl sc : Str} {n : Novel} {langs : List Str} {rk : List Elem} (hk : ∀ e ∈ oldVars rk, VarElement e) (hc : falsy n.languageCode = false)
    (h1 : (n.languages.getD []).Nodup) (h2 : ∀ l ∈ n.languages.getD [], l ∈ langsIn (oldVars rk)) (h1' : langs.Nodup) (h2' : ∀ l ∈ langs, l ∈ langsIn (oldVars rk)) :
    buildProjectVars sl sc { n with languages := some langs } rk = buildProjectVars sl sc n rk := by
  have g1 : ¬ ((Option.getD (some langs) []) = [] ∧ falsy n.languageCode = true ∧ falsy n.countryCode = true) := by
    rintro ⟨-, h, -⟩
    rw [hc] at h
    cases h
  have g2 : ¬ (n.languages.getD [] = [] ∧ falsy n.languageCode = true ∧ falsy n.countryCode = true) := by
    rintro ⟨-, h, -⟩
    rw [hc] at h
    cases h
  unfold buildProjectVars
  rw [if_neg g2, if_neg g1]
  have ec : ∀ m : Novel, m.languageCode = n.languageCode → m.countryCode = n.countryCode → (m.checkLocale sl sc).languageCode = (n.checkLocale sl sc).languageCode ∧
      (m.checkLocale sl sc).countryCode = (n.checkLocale sl sc).countryCode := by
    intro m a b
    rw [(checkLocale_document m sl sc).1, (checkLocale_document m sl sc).2, (checkLocale_document n sl sc).1, (checkLocale_document n sl sc).2]
    unfold documentLocale
    rw [a, b]
    exact ⟨rfl, rfl⟩
  obtain ⟨e1, e2⟩ := ec { n with languages := some langs } rfl rfl
  dsimp only
  rw [e1, e2]
  generalize hr : (if hasTag c!"PROJECTVARS" rk = true then rk else rk ++ [node c!"PROJECTVARS" none none []]) = rk'
  unfold onSection
  cases hf : find c!"PROJECTVARS" rk' with
  | none => rfl
  | some e =>
    have he : e.kids = oldVars rk := by
      unfold oldVars
      rw [← hr] at hf
      split at hf
      · rw [hf]
      · rename_i hh
        have hnone : find c!"PROJECTVARS" rk = none := by
          cases hx : find c!"PROJECTVARS" rk with
          | none => rfl
          | some y =>
            refine absurd ?_ hh
            rw [hasTag_iff]
            rw [find_eq] at hx
            intro hn
            rw [hn] at hx
            cases hx
        rw [hnone]
        have hap := find_append_of_none (t := c!"PROJECTVARS") (e := node c!"PROJECTVARS" none none []) rfl hnone
        rw [hap] at hf
        cases hf
        rfl
    dsimp only
    rw [he, Option.getD_some, buildVars_known hk h1' h2' h1 h2]

/-- Nothing else depends on the languages. -/
theorem buildRoot_langs {sl sc : Str} {n : Novel} {langs : List Str} {rk : List Elem}
    (h : ∀ rk', sel c!"PROJECTVARS" rk' = sel c!"PROJECTVARS" rk → buildProjectVars sl sc { n with languages := some langs } rk' = buildProjectVars sl sc n rk') :
    buildRoot sl sc { n with languages := some langs } rk = buildRoot sl sc n rk := by
  unfold buildRoot
  refine except_bind_congr fun r1 e1 => ?_
  refine except_bind_congr fun r2 e2 => ?_
  refine except_bind_congr fun r3 e3 => ?_
  refine except_bind_congr fun r4 e4 => ?_
  refine except_bind_congr fun r5 e5 => ?_
  have k : ∀ {t : Str} {f : List Elem → Except Exc (List Elem)} {a b : List Elem}, t ≠ c!"PROJECTVARS" → onSection t f a = .ok b →
      sel c!"PROJECTVARS" b = sel c!"PROJECTVARS" a := by
    intro t f a b ht hb
    obtain ⟨_, _, _, _, _, hs⟩ := onSection_ok hb
    exact hs _ (Ne.symm ht)
  have k5 : sel c!"PROJECTVARS" r5 = sel c!"PROJECTVARS" r4 := by
    unfold buildNotes at e5
    split at e5
    · cases e5
      exact sel_removeFirst_ne (by decide) r4
    · rw [k (by decide) e5]
      split
      · rfl
      · simp [sel, List.filter_append]
  rw [h r5 (by rw [k5, k (by decide) e4, k (by decide) e3, k (by decide) e2, k (by decide) e1])]
  rfl

/-- **Key**: a project that was read from a file is saved in the same way if only some of its languages are registered. -/
theorem writeTree_langs {lib : PyLib} {sl sc : Str} {n : Novel} {x : Elem} {langs : List Str} (hp : ProjectNode x.kids) (h0 : readTree lib x = .ok n) (hset : SettledProject n)
    (hc : falsy n.languageCode = false) (h1 : langs.Nodup) (h2 : ∀ l ∈ langs, l ∈ n.languages.getD []) :
    writeTree sl sc { n with languages := some langs } (some x) = writeTree sl sc n (some x) := by
  have hr := languages_read hp h0
  have hv : ∀ e ∈ oldVars x.kids, VarElement e := by
    intro e he
    unfold oldVars at he
    cases hf : find c!"PROJECTVARS" x.kids with
    | none => rw [hf] at he; cases he
    | some s => rw [hf] at he; exact hp.vars s hf e he
  have hpl : (prepareNovel n).languages.getD [] = n.languages.getD [] := by
    rw [prepareNovel_languages]
    exact savedLanguages_settled hset.used
  have hnd : (n.languages.getD []).Nodup := by
    cases hl : n.languages with
    | none => exact List.nodup_nil
    | some l => exact (hset.languages l hl).1
  have e : prepareNovel { n with languages := some langs } = { prepareNovel n with languages := some langs } := by
    unfold prepareNovel
    cases hl : n.languages with
    | none => rfl
    | some l => rfl
  unfold writeTree
  rw [e]
  dsimp only
  rw [buildRoot_langs]
  intro rk' hs
  have ho : oldVars rk' = oldVars x.kids := oldVars_of_sel hs
  refine projectVars_known (by rw [ho]; exact hv) ?_ (by rw [hpl]; exact hnd) (by rw [hpl, hr, ho]; exact fun _ h => h) h1 (by rw [ho, ← hr]; exact h2)
  rw [(prepareNovel_project n).2.2.2.2.2.2.2.2.2.2.1]
  exact hc

end Verif
