/-
The division of character data into pieces: the manuscript reader.
-/
import Verif.Lemmas.Chunks4
import Verif.Lemmas.Export

namespace Verif
open Spec

theorem SameText2.startLanguage {r r' : Rd} (h : SameText2 r r') (as : List (Str × Option Str)) :
    SameText2 (r.startLanguage as) (r'.startLanguage as) := by
  unfold Rd.startLanguage
  split
  · split
    · apply SameText2.push
      obtain ⟨l, d, rfl, hl, hd⟩ := h
      exact ⟨l, d, rfl, hl, hd⟩
    · exact h
  · exact h

theorem SameText2.stopLanguage {r r' : Rd} (h : SameText2 r r') : SameText2 r.stopLanguage r'.stopLanguage := by
  obtain ⟨l, d, rfl, hl, hd⟩ := h
  unfold Rd.stopLanguage
  dsimp only
  split
  · exact ⟨l, d, rfl, hl, hd⟩
  · exact ⟨_, d, rfl, by simp [Rd.push, hl], hd⟩

theorem SameText2.cleanup {r r' : Rd} (h : SameText2 r r') (t : Str) : r'.cleanupScene t = r.cleanupScene t := by
  obtain ⟨l, d, rfl, hl, hd⟩ := h
  rfl

theorem SameText2.startBody {r r' : Rd} (h : SameText2 r r') (as : List (Str × Option Str)) :
    SameText2 (r.startBody as) (r'.startBody as) := by
  induction as generalizing r r' with
  | nil => exact h
  | cons p as ih =>
    obtain ⟨k, v⟩ := p
    obtain ⟨l, d, rfl, hl, hd⟩ := h
    simp only [Rd.startBody]
    apply ih
    rcases v with _ | _ | ⟨c, v⟩
    · exact ⟨l, d, rfl, hl, hd⟩
    · exact ⟨l, d, rfl, hl, hd⟩
    · dsimp only
      split
      · exact ⟨l, d, rfl, hl, hd⟩
      split
      · exact ⟨l, d, rfl, hl, hd⟩
      · exact ⟨l, d, rfl, hl, hd⟩

theorem SameText2.msStop {r r' : Rd} (h : SameText2 r r') (t : Str) : SameOutcome SameText2 (msStop r t) (msStop r' t) := by
  unfold Verif.msStop
  rw [h.scId, h.chId, h.text, h.cleanup]
  split
  · refine outcome_ite (h.stopLanguage.push _) ?_
    refine outcome_ite (h.push _) ?_
    refine outcome_ite (h.push _) ?_
    refine outcome_ite h.stopLanguage ?_
    refine outcome_ite (outcome_bind (h.onScene _ _) (fun a b hab => hab.close)) ?_
    exact outcome_ite (h.push _) h
  · refine outcome_ite ?_ h
    obtain ⟨l, d, rfl, hl, hd⟩ := h
    exact ⟨l, d, rfl, hl, hd⟩

theorem SameText2.msStart {r r' : Rd} (h : SameText2 r r') (type : Nat) (t : Str) (as : List (Str × Option Str)) :
    SameOutcome SameText2 (msStart type r t as) (msStart type r' t as) := by
  unfold Verif.msStart
  refine outcome_bind (h.baseStart type t as) ?_
  clear h r r'
  intro r r' h
  rw [h.scId]
  refine outcome_ite ?_ ?_
  · refine outcome_ite (h.push _) ?_
    refine outcome_ite (h.push _) ?_
    refine outcome_ite (h.startLanguage _) ?_
    refine outcome_ite (by obtain ⟨l, d, rfl, hl, hd⟩ := h; exact ⟨l, d, rfl, hl, hd⟩) ?_
    refine outcome_ite (h.push _) ?_
    refine outcome_ite (h.push _) ?_
    refine outcome_ite (h.push _) ?_
    exact outcome_ite ((h.push _).startLanguage _) h
  · refine outcome_ite (h.startBody _) ?_
    exact outcome_ite (h.push _) h

theorem SameText2.msComment {r r' : Rd} (h : SameText2 r r') (s : Str) : SameText2 (msComment r s) (msComment r' s) := by
  unfold Verif.msComment
  rw [h.scId]
  split
  · exact h
  · split
    · split
      · obtain ⟨l, d, rfl, hl, hd⟩ := h; exact ⟨l, d, rfl, hl, hd⟩
      · exact h
    · exact h.push _

theorem SameText2.msData {r r' : Rd} (h : SameText2 r r') (hk : r.skipData = false) (s s' : Str) (hs : r.scId.isSome = true → s' = s) :
    SameOutcome SameText2 (msData r s) (msData r' s') := by
  unfold Verif.msData
  have hk1 : ¬ r.skipData = true := by rw [hk]; decide
  rw [h.scId, h.chId, h.skip, if_neg hk1, if_neg hk1]
  by_cases hc : r.scId.isSome = true
  · rw [if_pos hc, if_pos hc, hs hc]
    show SameText2 _ _
    split
    · exact h
    · exact h.push _
  · rw [if_neg hc, if_neg hc]
    cases r.chId with
    | none => exact h
    | some id => exact h.title id _ _ _ _

/-- Data outside of scenes only concerns titles. -/
theorem msData_title {r r1 : Rd} {s : Str} (hk : r.skipData = false) (hc : r.scId.isSome = false) (h : msData r s = .ok r1) :
    SameText2 r r1 := by
  unfold msData at h
  rw [if_neg (by rw [hk]; decide), if_neg (by rw [hc]; decide)] at h
  cases hch : r.chId with
  | none => rw [hch] at h; cases h; exact .refl _
  | some id =>
    rw [hch] at h
    dsimp only at h
    cases hg : r.novel.chapters.get? id with
    | none => rw [hg] at h; cases h
    | some c =>
      rw [hg] at h
      have := (SameText2.refl r).title id (fun ch => ch.title.isNone) (fun _ => false) (some (Str.strip s)) none
      simp only [hg] at h this
      rw [h] at this
      exact this.symm

/-! Whether a scene's section is open. -/

theorem onScene_scId {r r' : Rd} {id : Str} {f : Scene → Scene} (h : r.onScene id f = .ok r') : r'.scId = r.scId ∧ r'.skipData = r.skipData := by
  unfold Rd.onScene at h
  split at h
  · cases h; exact ⟨rfl, rfl⟩
  · cases h

theorem onChapter_scId {r r' : Rd} {id : Str} {f : Chapter → Chapter} (h : r.onChapter id f = .ok r') :
    r'.scId = r.scId ∧ r'.skipData = r.skipData := by
  unfold Rd.onChapter at h
  split at h
  · cases h; exact ⟨rfl, rfl⟩
  · cases h

theorem baseStart_scId {type : Nat} {r r' : Rd} {t : Str} {as : List (Str × Option Str)} (h : Rd.baseStart type r t as = .ok r') :
    r'.scId.isSome = (r.scId.isSome || isSceneSection t as) ∧ r'.skipData = r.skipData := by
  unfold Rd.baseStart at h
  split at h
  · rename_i htag
    split at h
    · cases h
    · rename_i k v rest
      split at h
      · rename_i hk
        split at h
        · rename_i hs
          have hsec : isSceneSection t ((k, v) :: rest) = true := by
            cases v with
            | none => cases hs
            | some v => simpa [isSceneSection, htag, hk] using hs
          unfold Rd.startScene at h
          obtain ⟨id, _, h⟩ := bind_ok h
          obtain ⟨r1, h1, h2⟩ := bind_ok h
          obtain ⟨e1, e2⟩ := onScene_scId h2
          have e3 : r1.scId = some id ∧ r1.skipData = r.skipData := by
            unfold Rd.ensureScene at h1
            split at h1
            · cases h1; exact ⟨rfl, rfl⟩
            · unfold Rd.listScene at h1
              split at h1
              · cases h1
              · have := onChapter_scId h1
                exact this
          rw [e1, e2, e3.1, e3.2, hsec]
          exact ⟨by simp, rfl⟩
        · rename_i hs
          have hsec : isSceneSection t ((k, v) :: rest) = false := by
            cases v with
            | none => rfl
            | some v => 
              have : Str.startsWith v c!"ScID" = false := by simpa using hs
              simp [isSceneSection, this]
          rw [hsec, Bool.or_false]
          split at h
          · unfold Rd.startChapter at h
            obtain ⟨id, _, h⟩ := bind_ok h
            obtain ⟨e1, e2⟩ := onChapter_scId h
            rw [e1, e2]
            unfold Rd.ensureChapter
            split
            · exact ⟨rfl, rfl⟩
            · exact ⟨rfl, rfl⟩
          · cases h; exact ⟨rfl, rfl⟩
      · rename_i hk
        have hsec : isSceneSection t ((k, v) :: rest) = false := by
          cases v with
          | none => rfl
          | some v => simp [isSceneSection, hk]
        cases h
        rw [hsec, Bool.or_false]
        exact ⟨rfl, rfl⟩
  · rename_i htag
    have hsec : isSceneSection t as = false := by
      unfold isSceneSection
      split
      · simp [htag]
      · rfl
    rw [hsec, Bool.or_false]
    split at h
    · cases h; exact ⟨rfl, rfl⟩
    · cases h; exact ⟨rfl, rfl⟩

theorem startLanguage_scId (r : Rd) (as : List (Str × Option Str)) : (r.startLanguage as).scId = r.scId := by
  unfold Rd.startLanguage
  split
  · split
    · rfl
    · rfl
  · rfl

theorem startBody_scId (r : Rd) (as : List (Str × Option Str)) : (r.startBody as).scId = r.scId := by
  induction as generalizing r with
  | nil => rfl
  | cons p as ih =>
    obtain ⟨k, v⟩ := p
    simp only [Rd.startBody]
    rw [ih]
    rcases v with _ | _ | ⟨c, v⟩
    · rfl
    · rfl
    · dsimp only
      split
      · rfl
      split <;> rfl

theorem stopLanguage_scId (r : Rd) : r.stopLanguage.scId = r.scId := by
  unfold Rd.stopLanguage
  split
  · rfl
  · rfl

/-- What an ok outcome satisfies, through an `if`. -/
theorem ok_ite {P : Rd → Prop} {c : Prop} [Decidable c] {a b : Except Exc Rd} {r : Rd} (ha : c → a = .ok r → P r) (hb : ¬ c → b = .ok r → P r)
    (h : (if c then a else b) = .ok r) : P r := by
  by_cases hc : c
  · rw [if_pos hc] at h; exact ha hc h
  · rw [if_neg hc] at h; exact hb hc h

theorem msStart_scId {type : Nat} {r r' : Rd} {t : Str} {as : List (Str × Option Str)} (h : msStart type r t as = .ok r')
    (h3 : (r.scId.isSome || isSceneSection t as) = true → t ≠ c!"h3") :
    r'.scId.isSome = (r.scId.isSome || isSceneSection t as) ∧ r'.skipData = r.skipData := by
  unfold msStart at h
  obtain ⟨r1, h1, h⟩ := bind_ok h
  obtain ⟨e1, e2⟩ := baseStart_scId h1
  rw [← e1, ← e2]
  rw [← e1] at h3
  have keep : ∀ x : Rd, x.scId = r1.scId → x.skipData = r1.skipData → (Except.ok x : Except Exc Rd) = .ok r' →
      r'.scId.isSome = r1.scId.isSome ∧ r'.skipData = r1.skipData := by
    intro x hx hy he
    cases he
    exact ⟨by rw [hx], hy⟩
  revert h
  refine ok_ite (P := fun x => x.scId.isSome = r1.scId.isSome ∧ x.skipData = r1.skipData) ?_ ?_
  · intro hs
    refine ok_ite (P := fun x => x.scId.isSome = r1.scId.isSome ∧ x.skipData = r1.skipData) (fun _ => keep _ rfl rfl) (fun _ => ?_)
    refine ok_ite (P := fun x => x.scId.isSome = r1.scId.isSome ∧ x.skipData = r1.skipData) (fun _ => keep _ rfl rfl) (fun _ => ?_)
    refine ok_ite (P := fun x => x.scId.isSome = r1.scId.isSome ∧ x.skipData = r1.skipData)
      (fun _ => keep _ (startLanguage_scId _ _) (startLanguage_skip _ _)) (fun _ => ?_)
    refine ok_ite (P := fun x => x.scId.isSome = r1.scId.isSome ∧ x.skipData = r1.skipData) (fun ht => absurd ht (h3 hs)) (fun _ => ?_)
    refine ok_ite (P := fun x => x.scId.isSome = r1.scId.isSome ∧ x.skipData = r1.skipData) (fun _ => keep _ rfl rfl) (fun _ => ?_)
    refine ok_ite (P := fun x => x.scId.isSome = r1.scId.isSome ∧ x.skipData = r1.skipData) (fun _ => keep _ rfl rfl) (fun _ => ?_)
    refine ok_ite (P := fun x => x.scId.isSome = r1.scId.isSome ∧ x.skipData = r1.skipData) (fun _ => keep _ rfl rfl) (fun _ => ?_)
    exact ok_ite (P := fun x => x.scId.isSome = r1.scId.isSome ∧ x.skipData = r1.skipData)
      (fun _ => keep _ (startLanguage_scId _ _) (startLanguage_skip _ _)) (fun _ => keep _ rfl rfl)
  · intro _
    refine ok_ite (P := fun x => x.scId.isSome = r1.scId.isSome ∧ x.skipData = r1.skipData)
      (fun _ => keep _ (startBody_scId _ _) (startBody_skip _ _)) (fun _ => ?_)
    exact ok_ite (P := fun x => x.scId.isSome = r1.scId.isSome ∧ x.skipData = r1.skipData) (fun _ => keep _ rfl rfl) (fun _ => keep _ rfl rfl)

theorem msStop_scId {r r' : Rd} {t : Str} (h : msStop r t = .ok r') :
    r'.scId.isSome = (r.scId.isSome && t ≠ c!"div") ∧ r'.skipData = r.skipData := by
  unfold msStop at h
  cases hsc : r.scId with
  | none =>
    rw [hsc] at h
    dsimp only at h
    split at h
    · cases h; exact ⟨by simp [hsc], rfl⟩
    · cases h; exact ⟨by rw [hsc]; rfl, rfl⟩
  | some id =>
    rw [hsc] at h
    dsimp only at h
    have keep : ∀ {x : Rd}, (Except.ok x : Except Exc Rd) = .ok r' → t ≠ c!"div" → x.scId = r.scId → x.skipData = r.skipData →
        r'.scId.isSome = ((some id : Option Str).isSome && t ≠ c!"div") ∧ r'.skipData = r.skipData := by
      intro x he ht hx hy
      cases he
      exact ⟨by rw [hx, hsc]; simp [ht], hy⟩
    split at h
    · rename_i ht
      refine keep h ?_ (stopLanguage_scId _) (stopLanguage_skip _)
      rcases ht with rfl | rfl <;> decide
    split at h
    · rename_i ht; subst ht; exact keep h (by decide) rfl rfl
    split at h
    · rename_i ht; subst ht; exact keep h (by decide) rfl rfl
    split at h
    · rename_i ht; subst ht; exact keep h (by decide) (stopLanguage_scId _) (stopLanguage_skip _)
    split at h
    · rename_i ht
      obtain ⟨r1, h1, h2⟩ := bind_ok h
      cases h2
      exact ⟨by simp [ht], (onScene_scId h1).2⟩
    · rename_i hd
      split at h
      · exact keep h hd rfl rfl
      · exact keep h hd rfl rfl

theorem msData_scId {r r' : Rd} {s : Str} (hk : r.skipData = false) (h : msData r s = .ok r') :
    r'.scId = r.scId ∧ r'.skipData = false := by
  unfold msData at h
  rw [if_neg (by rw [hk]; decide)] at h
  split at h
  · cases h
    split
    · exact ⟨rfl, hk⟩
    · exact ⟨rfl, hk⟩
  · split at h
    · cases h; exact ⟨rfl, hk⟩
    · split at h
      · cases h
      · split at h
        · exact ⟨(onChapter_scId h).1, (onChapter_scId h).2.trans hk⟩
        · cases h; exact ⟨rfl, hk⟩

theorem msComment_scId (r : Rd) (s : Str) : (msComment r s).scId = r.scId ∧ (msComment r s).skipData = r.skipData := by
  unfold msComment
  split
  · exact ⟨rfl, rfl⟩
  · split
    · split
      · exact ⟨rfl, rfl⟩
      · exact ⟨rfl, rfl⟩
    · exact ⟨rfl, rfl⟩

theorem noSceneHeading3_rechunk {Q : Str → Prop} {a b : List Call} (h : Rechunk Q a b) (o : Bool) : NoSceneHeading3 o a ↔ NoSceneHeading3 o b := by
  induction h generalizing o with
  | refl a => exact Iff.rfl
  | cons c _ ih => cases c <;> simp only [NoSceneHeading3, ih]
  | merge hs ht a => simp only [NoSceneHeading3]
  | trans _ _ ih1 ih2 => exact (ih1 o).trans (ih2 o)

theorem Spec.NotBlank.isSpace {s : Str} (h : NotBlank s) : isSpaceStr s = false := by
  obtain ⟨c, hc, hw⟩ := h
  unfold isSpaceStr
  have : s.all Str.isWs = false := by
    rw [Bool.eq_false_iff]
    intro hall
    rw [List.all_eq_true] at hall
    rw [hall c hc] at hw
    cases hw
  rw [this, Bool.and_false]

theorem manuscript_divisible (type : Nat) :
    Divisible (manuscriptReader type) NotBlank SameText2 (fun r cs => r.skipData = false ∧ NoSceneHeading3 r.scId.isSome cs) where
  refl := .refl
  symm := .symm
  trans := .trans
  app := fun s t hs _ => by obtain ⟨c, hc, hw⟩ := hs; exact ⟨c, by simp [hc], hw⟩
  kstep := by
    intro r r' c cs hk h
    cases c with
    | start t as =>
      obtain ⟨e1, e2⟩ := msStart_scId (h : msStart type r t as = .ok r') hk.2.1
      exact ⟨e2.trans hk.1, by rw [e1]; exact hk.2.2⟩
    | stop t =>
      obtain ⟨e1, e2⟩ := msStop_scId (h : msStop r t = .ok r')
      exact ⟨e2.trans hk.1, by rw [e1]; exact hk.2⟩
    | data s =>
      obtain ⟨e1, e2⟩ := msData_scId hk.1 (h : msData r s = .ok r')
      exact ⟨e2, by rw [e1]; exact hk.2⟩
    | comment s =>
      cases h
      obtain ⟨e1, e2⟩ := msComment_scId r s
      exact ⟨e2.trans hk.1, by rw [e1]; exact hk.2⟩
  kmerge := fun h => and_congr_right (fun _ => noSceneHeading3_rechunk h _)
  krel := by
    intro r r' _ h hk
    rw [h.scId, h.skip]
    exact hk
  merge := by
    intro r s t _ hk hs ht
    have hk := hk.1
    have hst : NotBlank (s ++ t) := by obtain ⟨c, hc, hw⟩ := hs; exact ⟨c, by simp [hc], hw⟩
    by_cases hc : r.scId.isSome = true
    · have e : ∀ x : Rd, x.scId = r.scId → x.skipData = false → ∀ u, NotBlank u → msData x u = .ok (x.push u) := by
        intro x hx hsk u hu
        unfold msData
        rw [if_neg (by rw [hsk]; decide), if_pos (by rw [hx]; exact hc), hu.isSpace]
        rfl
      exact outcome_ok ⟨r.push s, (r.push s).push t, r.push (s ++ t), e r rfl hk s hs, e (r.push s) rfl hk t ht, e r rfl hk _ hst,
        SameText2.push_push r s t⟩
    · have hc' : r.scId.isSome = false := by simpa using hc
      have h3 : SameOutcome SameText2 (msData r s) (msData r (s ++ t)) := (SameText2.refl r).msData hk s _ (fun h => absurd h hc)
      show SameOutcome SameText2 (msData r s >>= fun r1 => msData r1 t) (msData r (s ++ t))
      cases h1 : msData r s with
      | error e => rw [h1] at h3; exact h3
      | ok r1 =>
        rw [h1] at h3
        have e1 := msData_title hk hc' h1
        have h4 : SameOutcome SameText2 (msData r s) (msData r1 t) := e1.msData hk s t (fun h => absurd h hc)
        rw [h1] at h4
        show SameOutcome SameText2 (msData r1 t) _
        cases h5 : msData r1 t with
        | error e => rw [h5] at h4; exact h4.elim
        | ok r2 =>
          rw [h5] at h4
          cases h6 : msData r (s ++ t) with
          | error e => rw [h6] at h3; exact h3.elim
          | ok r3 => rw [h6] at h3; exact SameText2.trans (SameText2.symm h4) h3
  respects := by
    intro r r' c _ hk h
    cases c with
    | start t as => exact h.msStart type t as
    | stop t => exact h.msStop t
    | data s => exact h.msData hk.1 s s (fun _ => rfl)
    | comment s => exact h.msComment s

end Verif
