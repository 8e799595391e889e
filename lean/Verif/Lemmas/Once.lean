/-
Reading a document with formatted text registers no language twice.
-/
import Verif.Model.OdtRead
import Verif.Lemmas.Export

namespace Verif
open Spec Rd

/-! ### Languages are registered once -/

/-- No language is registered twice. -/
def LangsOnce (r : Rd) : Prop := (r.novel.languages.getD []).Nodup

theorem once_eq {r r' : Rd} (h : r'.novel.languages = r.novel.languages) (hr : LangsOnce r) : LangsOnce r' := by
  unfold LangsOnce at *
  rw [h]
  exact hr

theorem once_language {r : Rd} (as : List (Str × Option Str)) (hr : LangsOnce r) : LangsOnce (r.startLanguage as) := by
  unfold Rd.startLanguage
  split
  · split
    · rename_i l _ _
      show (Option.getD (some _) []).Nodup
      rw [Option.getD_some]
      split
      · exact hr
      · rename_i hn
        rw [List.nodup_append]
        refine ⟨hr, by simp, ?_⟩
        intro a ha b hb
        rw [List.mem_singleton] at hb
        subst hb
        rintro rfl
        exact hn ha
    · exact hr
  · exact hr

theorem stop_languages (r : Rd) : r.stopLanguage.novel.languages = r.novel.languages := by
  unfold Rd.stopLanguage
  split <;> rfl

theorem body_languages (as : List (Str × Option Str)) : ∀ (r : Rd), (r.startBody as).novel.languages = r.novel.languages := by
  induction as with
  | nil => intro r; rfl
  | cons p as ih =>
    intro r
    obtain ⟨k, v⟩ := p
    unfold Rd.startBody
    rw [ih]
    rcases v with _ | _ | ⟨c, v⟩
    · rfl
    · rfl
    · dsimp only
      split
      · rfl
      · split <;> rfl

theorem onScene_languages {r r' : Rd} {id : Str} {f : Scene → Scene} (h : r.onScene id f = .ok r') : r'.novel.languages = r.novel.languages := by
  unfold Rd.onScene at h
  split at h
  · cases h; rfl
  · cases h

theorem onChapter_languages {r r' : Rd} {id : Str} {f : Chapter → Chapter} (h : r.onChapter id f = .ok r') : r'.novel.languages = r.novel.languages := by
  unfold Rd.onChapter at h
  split at h
  · cases h; rfl
  · cases h

theorem ensureScene_languages {r r' : Rd} {id : Str} (h : r.ensureScene id = .ok r') : r'.novel.languages = r.novel.languages := by
  unfold Rd.ensureScene at h
  split at h
  · cases h; rfl
  · unfold Rd.listScene at h
    split at h
    · cases h
    · have := onChapter_languages h
      exact this

theorem ensureChapter_languages (r : Rd) (id : Str) : (r.ensureChapter id).novel.languages = r.novel.languages := by
  unfold Rd.ensureChapter
  split <;> rfl

theorem base_languages {type : Nat} {r r' : Rd} {tag : Str} {as : List (Str × Option Str)} (h : Rd.baseStart type r tag as = .ok r') :
    r'.novel.languages = r.novel.languages := by
  unfold Rd.baseStart at h
  split at h
  · split at h
    · cases h
    · split at h
      · split at h
        · unfold Rd.startScene at h
          obtain ⟨id, _, h⟩ := bind_ok h
          obtain ⟨r1, h1, h⟩ := bind_ok h
          have e := ensureScene_languages h1
          exact (onScene_languages h).trans e
        · split at h
          · unfold Rd.startChapter at h
            obtain ⟨id, _, h⟩ := bind_ok h
            have e := ensureChapter_languages { r with chId := some id } id
            exact (onChapter_languages h).trans e
          · cases h; rfl
      · cases h; rfl
  · split at h
    · cases h; rfl
    · cases h; rfl

theorem msStart_once {type : Nat} {r r' : Rd} {tag : Str} {as : List (Str × Option Str)} (h : msStart type r tag as = .ok r') (hr : LangsOnce r) : LangsOnce r' := by
  unfold msStart at h
  obtain ⟨r1, h1, h⟩ := bind_ok h
  have h1' : LangsOnce r1 := once_eq (base_languages h1) hr
  clear h1
  by_cases hs : r1.scId.isSome = true
  · rw [if_pos hs] at h
    split at h
    · cases h; exact h1'
    split at h
    · cases h; exact h1'
    split at h
    · cases h; exact once_language _ h1'
    split at h
    · cases h; exact h1'
    split at h
    · cases h; exact h1'
    split at h
    · cases h; exact h1'
    split at h
    · cases h; exact h1'
    split at h
    · cases h; exact once_language _ h1'
    cases h; exact h1'
  · rw [if_neg hs] at h
    split at h
    · cases h; exact once_eq (body_languages _ _) h1'
    split at h
    · cases h; exact h1'
    cases h; exact h1'

theorem msStop_once {r r' : Rd} {tag : Str} (h : msStop r tag = .ok r') (hr : LangsOnce r) : LangsOnce r' := by
  unfold msStop at h
  split at h
  · split at h
    · cases h; exact once_eq (r := r) (stop_languages r) hr
    split at h
    · cases h; exact hr
    split at h
    · cases h; exact hr
    split at h
    · cases h; exact once_eq (stop_languages r) hr
    split at h
    · obtain ⟨r1, h1, h⟩ := bind_ok h
      cases h
      have e := onScene_languages h1
      exact once_eq (r := r) e hr
    split at h
    · cases h; exact hr
    cases h; exact hr
  · split at h
    · cases h; exact hr
    · cases h; exact hr

theorem msData_once {r r' : Rd} {s : Str} (h : msData r s = .ok r') (hr : LangsOnce r) : LangsOnce r' := by
  unfold msData at h
  split at h
  · cases h; exact hr
  split at h
  · cases h
    split <;> exact hr
  split at h
  · cases h; exact hr
  · split at h
    · cases h
    · split at h
      · exact once_eq (onChapter_languages h) hr
      · cases h; exact hr

theorem msComment_once {r : Rd} (s : Str) (hr : LangsOnce r) : LangsOnce (msComment r s) := by
  unfold msComment
  split
  · exact hr
  · split
    · split <;> exact hr
    · exact hr

theorem manuscript_once {type : Nat} {r r' : Rd} {c : Call} (h : manuscriptReader type r c = .ok r') (hr : LangsOnce r) : LangsOnce r' := by
  cases c with
  | start t as => exact msStart_once h hr
  | stop t => exact msStop_once h hr
  | data s => exact msData_once h hr
  | comment s => cases h; exact msComment_once s hr

theorem proof_once {r r' : Rd} {c : Call} (h : proofReader r c = .ok r') (hr : LangsOnce r) : LangsOnce r' := by
  cases c with
  | start t as =>
    cases h
    show LangsOnce (proofStart r t as)
    unfold proofStart
    split
    · exact hr
    split
    · exact hr
    split
    · exact once_language _ hr
    split
    · exact hr
    split
    · exact hr
    split
    · exact hr
    split
    · exact once_language _ hr
    split
    · exact once_eq (body_languages _ _) hr
    split
    · exact hr
    split <;> exact hr
  | stop t =>
    cases h
    show LangsOnce (proofStop r t)
    unfold proofStop
    split
    · exact once_eq (stop_languages _) hr
    split
    · exact hr
    split
    · exact hr
    split
    · exact once_eq (stop_languages _) hr
    · exact hr
  | data s =>
    replace h : proofData r s = .ok r' := h
    unfold proofData at h
    dsimp only at h
    split at h
    · cases h; exact hr
    split at h
    · split at h
      · cases h; exact hr
      · cases h
    split at h
    · split at h
      · split at h
        · split at h
          · rename_i e
            cases h
            have e := onScene_languages e
            exact once_eq (r := r) e hr
          · cases h
        · cases h; exact hr
      · cases h; exact hr
    · cases h
      split <;> exact hr
  | comment s =>
    cases h
    show LangsOnce (Rd.baseComment r s)
    unfold Rd.baseComment
    split <;> exact hr

theorem run_once {h : Reader} (hh : ∀ {r r' c}, h r c = .ok r' → LangsOnce r → LangsOnce r') {cs : List Call} : ∀ {r r' : Rd}, h.run r cs = .ok r' → LangsOnce r → LangsOnce r' := by
  induction cs with
  | nil => intro r r' e hr; cases e; exact hr
  | cons c cs ih =>
    intro r r' e hr
    unfold Reader.run at e
    obtain ⟨r1, e1, e⟩ := bind_ok e
    exact ih e (hh e1 hr)

theorem readOdt_once {h : Reader} (hh : ∀ {r r' c}, h r c = .ok r' → LangsOnce r → LangsOnce r') {f : OdtFile} {n m : Novel} (hn : n.languages = some [])
    (e : readOdt h f n = .ok m) : (m.languages.getD []).Nodup := by
  unfold readOdt at e
  obtain ⟨cs, _, e⟩ := bind_ok e
  obtain ⟨r, e1, e⟩ := bind_ok e
  cases e
  exact run_once hh e1 (by unfold LangsOnce; rw [hn]; exact List.nodup_nil)

end Verif
