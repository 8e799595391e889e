/-
The chapters of a proof reading document.
-/
import Verif.Lemmas.Proof5

namespace Verif.Proof
open Spec Re Template

variable {ls : List Str} {author : Option Str}

/-! ### No carriage returns -/

theorem opText_cr (t : Str) : '\r' ∉ opText ls t ∨ opText ls t = openTag t := by
  unfold opText
  split
  · exact .inl (langSpan_cr _)
  split
  · exact .inl (langSpan_cr _)
  generalize 1 = i
  induction ls generalizing i with
  | nil => exact .inr rfl
  | cons l r ih =>
    unfold langOp
    split
    · exact .inl (langSpan_cr _)
    · exact ih _

theorem final_cr (ha : AuthorOk author) (hL : ∀ l ∈ ls, LangCode l) {ps : List Piece} (ho : ∀ x ∈ ps, x.Ok ls) : '\r' ∉ (finalStage author ls).flat (pairs ps) := by
  have ho' : ∀ p, some p ∈ pairs ps → p.Ok ls := fun p hp => ho p (mem_pairs hp)
  generalize pairs ps = prs at ho'
  induction prs with
  | nil => simp [Stage.flat]
  | cons p prs ih =>
    rw [flat_cons, List.mem_append, not_or]
    refine ⟨?_, ih (fun p hp => ho' p (by simp [hp]))⟩
    match p with
    | none => show '\r' ∉ nl2Out; decide
    | some .nl => show '\r' ∉ nlOut; decide
    | some (.ch c) =>
      have := ho' (.ch c) (by simp)
      exact not_mem_esc (by decide) this.2.2
    | some (.cl t) => show '\r' ∉ spanEnd; decide
    | some (.op t) =>
      have ht : t ∈ formats ls := ho' (.op t) (by simp)
      show '\r' ∉ opText ls t
      rcases opText_cr (ls := ls) t with h | h
      · exact h
      · have := opText_no ht
        rw [h] at this
        exact absurd (by simp [openTag]) this
    | some (.note s) =>
      have h := ho' (.note s) (by simp)
      show '\r' ∉ noteStart author ++ s.flatMap escChar ++ noteEnd
      simp only [List.mem_append, not_or, noteStart]
      exact ⟨⟨⟨⟨by decide, author_cr ha⟩, by decide⟩, escs_cr (fun hm => (h.1 _ hm).2.2.1 rfl)⟩, by decide⟩

/-- A part of the document. -/
def Part (ls : List Str) (s : Str) (r r' : Rd) : Prop := '\r' ∉ s ∧ Steps ls s r r'

theorem Part.nil (r : Rd) : Part ls [] r r := ⟨by simp, Steps.nil r⟩

theorem Part.append {s1 s2 : Str} {r r1 r2 : Rd} (h1 : Part ls s1 r r1) (h2 : Part ls s2 r1 r2) : Part ls (s1 ++ s2) r r2 :=
  ⟨by rw [List.mem_append, not_or]; exact ⟨h1.1, h2.1⟩, h1.2.append h2.2⟩

theorem title_cr {a t z : Str} (ha : '\r' ∉ a) (ht : PlainTitle t) (hz : '\r' ∉ z) : '\r' ∉ a ++ (t.flatMap escChar ++ z) := by
  rw [List.mem_append, List.mem_append, not_or, not_or]
  exact ⟨ha, escs_cr (fun hm => (ht.legal _ hm).2.2 rfl), hz⟩

/-! ### Templates -/

theorem subst_scene {m : Mapping} {t id c : Str} (ht : m.get? c!"Title" = some t) (hid : m.get? c!"ID" = some id) (hc : m.get? c!"SceneContent" = some c) :
    subst proofTemplates.scene m = (h3Open ++ (t ++ hEnd)) ++ ((markOpen ++ ((c!"[ScID:" ++ (id ++ c!"]")) ++ markEnd)) ++ ((pOpen bodyStyle ++ c ++ pEnd) ++ (c!"\n" ++ (markOpen ++ (c!"[/ScID]" ++ markEnd))))) := by
  have e : segs proofTemplates.scene = h3Open.map Seg.lit ++ (Seg.var c!"Title" c!"$Title" :: (hEnd.map Seg.lit ++
      (markOpen.map Seg.lit ++ (c!"[ScID:".map Seg.lit ++ (Seg.var c!"ID" c!"$ID" :: (c!"]".map Seg.lit ++ (markEnd.map Seg.lit ++
      ((pOpen bodyStyle).map Seg.lit ++ (Seg.var c!"SceneContent" c!"$SceneContent" :: (pEnd.map Seg.lit ++ (c!"\n".map Seg.lit ++ (markOpen.map Seg.lit ++ (c!"[/ScID]".map Seg.lit ++ markEnd.map Seg.lit))))))))))))) := by decide +kernel
  unfold subst
  rw [e]
  simp only [List.flatMap_append, List.flatMap_cons, render_lits, render, ht, hid, hc, Option.getD_some]
  simp only [List.append_assoc]

theorem subst_part {m : Mapping} {t : Str} (ht : m.get? c!"Title" = some t) : subst proofTemplates.part m = h1Open ++ (t ++ hEnd) := by
  have e : segs proofTemplates.part = h1Open.map Seg.lit ++ (Seg.var c!"Title" c!"$Title" :: hEnd.map Seg.lit) := by decide +kernel
  unfold subst
  rw [e]
  simp only [List.flatMap_append, List.flatMap_cons, render_lits, render, ht, Option.getD_some]

theorem subst_chapter {m : Mapping} {t : Str} (ht : m.get? c!"Title" = some t) : subst proofTemplates.chapter m = h2Open ++ (t ++ hEnd) := by
  have e : segs proofTemplates.chapter = h2Open.map Seg.lit ++ (Seg.var c!"Title" c!"$Title" :: hEnd.map Seg.lit) := by decide +kernel
  unfold subst
  rw [e]
  simp only [List.flatMap_append, List.flatMap_cons, render_lits, render, ht, Option.getD_some]

/-! ### Scenes -/

theorem sceneMapping_values (e : DocEnv) {n : Novel} (hn : Exportable n) {id : Str} (hid : id ∈ narrative n) {s : Scene} (hs : n.scenes.get? id = some s) (k w l : Nat) :
    ∃ m, (odtProof e).sceneMapping n id k w l = .ok m ∧ m.get? c!"Title" = some (proofConvert n s.title true) ∧ m.get? c!"ID" = some id ∧
      m.get? c!"SceneContent" = some (proofConvert n s.sceneContent false) := by
  obtain ⟨m, hm⟩ := e.proofBase.scene_total hn hid k w l
  refine ⟨Dict.set m c!"sceneTitle" c!"Scene", ?_, ?_⟩
  · show (e.proofBase.scene n id k w l >>= fun m => _) = _
    rw [hm]
    rfl
  · obtain ⟨h1, h2, h3, _⟩ := Base.scene_content hs hm
    refine ⟨?_, ?_, ?_⟩ <;> rw [get?_set_other (by decide)] <;> assumption

theorem Part.sceneText (e : DocEnv) {n : Novel} (hn : Exportable n) (hls : n.languages.getD [] = ls) (hL : ∀ l ∈ ls, LangCode l) (hd : (formats ls).Nodup) (hA : AuthorOk n.authorName)
    {r : Rd} (hr : Outside r) {p : Str × Scene} (hp : n.scenes.get? p.1 = some p.2) (hmem : p.1 ∈ narrative n) (hc : SceneProofed ls p)
    (hin : SceneIn r.novel p.1) (before : List (Str × Scene)) (first : Bool) :
    Part ls (Spec.sceneText (odtProof e) n before first p).flatten r (atNovel r (sceneBack p.1 (p.2.sceneContent.getD []) r.novel)) := by
  obtain ⟨ps, hps, hN⟩ := hc.text
  obtain ⟨s0, hs0⟩ := hin
  obtain ⟨m, hm, h1, h2, h3⟩ := sceneMapping_values e hn hmem hp (before ++ [p]).length (total (·.wordCount) (before ++ [p])) (total (·.letterCount) (before ++ [p]))
  obtain ⟨t', ht1, ht2⟩ := convert_title hls hL hA hc.title true
  have h3' : m.get? c!"SceneContent" = some (proofConvert n (some (rawText ps)) false) := by
    rw [h3, ← hps]
    cases hsc : p.2.sceneContent with
    | none => rfl
    | some t => rfl
  rw [ht1] at h1
  have hM : NoMark (rawText ps) := by rw [← hps]; exact hc.unmarked
  have hh : ∀ c r, rawText ps = c :: r → Str.isWs c = false := by rw [← hps]; exact hc.begin
  obtain ⟨hN', _, _⟩ := spread_nested hN
  have key : Part ls (subst proofTemplates.scene m) r (atNovel r (sceneBack p.1 (p.2.sceneContent.getD []) r.novel)) := by
    rw [subst_scene h1 h2 h3', hps]
    refine Part.append (r1 := r) ⟨title_cr (by decide) ht2 (by decide), Steps.h3 hr ht2⟩ ⟨?_, Steps.scene hr hc.number hs0 hls hL hd hA hN hM hh⟩
    have c1 : '\r' ∉ p.1 := fun h => by
      have := (List.all_eq_true.1 (NumId.plain hc.number)) _ h
      revert this
      decide
    have c2 : '\r' ∉ proofConvert n (some (rawText ps)) false := by
      rw [convert_flow hls hL hd hA hN]
      exact final_cr hA hL hN'.ok
    simp only [List.mem_append, not_or]
    exact ⟨⟨by decide, ⟨by decide, c1, by decide⟩, by decide⟩, ⟨⟨by decide, c2⟩, by decide⟩, by decide, by decide, by decide, by decide⟩
  unfold Spec.sceneText
  simp only [hm, filled]
  have e1 : (odtProof e).appendedScene = [] := rfl
  have e2 : (odtProof e).sceneDivider = [] := rfl
  have e3 : (odtProof e).scene = proofTemplates.scene := rfl
  rw [e1, e2, e3]
  rw [List.flatten_append]
  refine Part.append (r1 := r) ?_ ?_
  · split
    · exact Part.nil r
    · exact Part.nil r
  · rw [List.flatten_cons, List.flatten_nil, List.append_nil]
    split
    · rename_i h; simp at h
    · exact key

/-- See `sceneBack`. -/
def scenesBack : List (Str × Scene) → Novel → Novel
  | [], m => m
  | p :: r, m => scenesBack r (sceneBack p.1 (p.2.sceneContent.getD []) m)

theorem _root_.Verif.Spec.SceneIn.proofed {m : Novel} {k : Str} (h : SceneIn m k) (id t : Str) : SceneIn (sceneBack id t m) k := by
  obtain ⟨s, hs⟩ := h
  unfold SceneIn sceneBack
  simp only [Dict.get?_modify]
  split
  · exact ⟨_, by rw [hs]; rfl⟩
  · exact ⟨s, hs⟩

theorem _root_.Verif.Spec.SceneIn.proofs {m : Novel} {k : Str} (h : SceneIn m k) (l : List (Str × Scene)) : SceneIn (scenesBack l m) k := by
  induction l generalizing m with
  | nil => exact h
  | cons p l ih => exact ih (h.proofed _ _)

theorem Part.scenesText (e : DocEnv) {n : Novel} (hn : Exportable n) (hls : n.languages.getD [] = ls) (hL : ∀ l ∈ ls, LangCode l) (hd : (formats ls).Nodup) (hA : AuthorOk n.authorName)
    (l : List (Str × Scene)) {r : Rd} (hr : Outside r) (hp : ∀ p ∈ l, n.scenes.get? p.1 = some p.2 ∧ p.1 ∈ narrative n ∧ SceneProofed ls p)
    (hin : ∀ p ∈ l, SceneIn r.novel p.1) (before : List (Str × Scene)) (first : Bool) :
    Part ls (Spec.scenesText (odtProof e) n before first l).flatten r (atNovel r (scenesBack l r.novel)) := by
  induction l generalizing r before first with
  | nil => exact Part.nil r
  | cons p l ih =>
    unfold Spec.scenesText scenesBack
    rw [List.flatten_append]
    obtain ⟨h1, h2, h3⟩ := hp p (by simp)
    refine (Part.sceneText e hn hls hL hd hA hr h1 h2 h3 (hin p (by simp)) before first).append ?_
    exact ih (r := atNovel r (sceneBack p.1 (p.2.sceneContent.getD []) r.novel)) ⟨hr.scene, hr.skip⟩ (fun q hq => hp q (by simp [hq]))
      (fun q hq => (hin q (by simp [hq])).proofed _ _) _ _

/-! ### Chapters -/

theorem chapterMapping_values (e : DocEnv) {n : Novel} (hls : n.languages.getD [] = ls) (hL : ∀ l ∈ ls, LangCode l) (hA : AuthorOk n.authorName) {id : Str} {ch : Chapter}
    (hc : n.chapters.get? id = some ch) (ht : ∀ t, ch.title = some t → PlainTitle t) (k : Nat) :
    ∃ m, ∃ t' : Str, (odtProof e).chapterMapping n id k = .ok m ∧ m.get? c!"Title" = some (t'.flatMap escChar) ∧ PlainTitle t' := by
  obtain ⟨t', h1, h2⟩ := convert_title hls hL hA ht true
  have hb : ∃ m, e.proofBase.chapter n id k = .ok m ∧ m.get? c!"Title" = some (t'.flatMap escChar) := by
    unfold Base.chapter
    rw [Dict.get!_of hc, ← h1]
    exact ⟨_, rfl, rfl⟩
  obtain ⟨m, e1, e2⟩ := hb
  exact ⟨m, t', e1, e2, h2⟩

theorem Part.chapterText (e : DocEnv) {n : Novel} (hn : Exportable n) (hls : n.languages.getD [] = ls) (hL : ∀ l ∈ ls, LangCode l) (hd : (formats ls).Nodup) (hA : AuthorOk n.authorName)
    {r : Rd} (hr : Outside r) {id : Str} {ch : Chapter} (hid : id ∈ n.srtChapters) (hch : n.chapters.get? id = some ch)
    (hsh : chapterShown n ch = true) (hc : ∀ t, ch.title = some t → PlainTitle t)
    (hp : ∀ p ∈ exportedIn n ch, SceneProofed ls p) (hin : ∀ p ∈ exportedIn n ch, SceneIn r.novel p.1) (before : List Str) :
    Part ls (Spec.chapterText (odtProof e) n before id).flatten r (atNovel r (scenesBack (exportedIn n ch) r.novel)) := by
  unfold Spec.chapterText
  rw [hch]
  simp only
  rw [if_pos hsh]
  obtain ⟨m, t', e1, e2, e3⟩ := chapterMapping_values e hls hL hA hch hc
    (if isPart (odtProof e).toTemplates ch = true then 0 else (numberedChapters (odtProof e).toTemplates n before).length + 1)
  rw [e1]
  simp only [filled]
  have p2 : Part ls (subst (if isPart (odtProof e).toTemplates ch = true then (odtProof e).part else (odtProof e).chapter) m) r r := by
    split
    · rw [show (odtProof e).part = proofTemplates.part from rfl, subst_part e2]
      exact ⟨title_cr (by decide) e3 (by decide), Steps.h1 hr e3⟩
    · rw [show (odtProof e).chapter = proofTemplates.chapter from rfl, subst_chapter e2]
      exact ⟨title_cr (by decide) e3 (by decide), Steps.h2 hr e3⟩
  have hmem : ∀ p ∈ exportedIn n ch, n.scenes.get? p.1 = some p.2 ∧ p.1 ∈ narrative n := by
    intro p hp
    refine ⟨exportedIn_mem hp, ?_⟩
    unfold exportedIn at hp
    rw [List.mem_filter, List.mem_filterMap] at hp
    obtain ⟨⟨i, hi, h2⟩, _⟩ := hp
    cases hs : n.scenes.get? i with
    | none => rw [hs] at h2; cases h2
    | some s =>
      rw [hs] at h2
      cases h2
      unfold narrative
      rw [List.mem_flatMap]
      exact ⟨id, hid, by unfold scenesOf; rw [hch]; exact hi⟩
  have p3 := Part.scenesText e hn hls hL hd hA (exportedIn n ch) hr (fun p hq => ⟨(hmem p hq).1, (hmem p hq).2, hp p hq⟩) hin (exported n before) true
  have e6 : (if (odtProof e).chapterEnd = [] then [] else [subst (odtProof e).chapterEnd m]) = [] := rfl
  rw [e6, List.flatten_append, List.flatten_append, List.flatten_cons, List.flatten_nil, List.append_nil, List.append_nil]
  exact p2.append p3

/-- See `sceneBack`. -/
def novelBack (n : Novel) : List Str → Novel → Novel
  | [], m => m
  | id :: r, m =>
    match n.chapters.get? id with
    | none => novelBack n r m
    | some ch => novelBack n r (scenesBack (exportedIn n ch) m)

theorem Part.manuscript (e : DocEnv) {n : Novel} (hn : Exportable n) (hls : n.languages.getD [] = ls) (hL : ∀ l ∈ ls, LangCode l) (hd : (formats ls).Nodup) (hA : AuthorOk n.authorName)
    (ids : List Str) {r : Rd} (hr : Outside r) (hids : ∀ id ∈ ids, id ∈ n.srtChapters)
    (hch : ∀ id ∈ ids, ∀ ch, n.chapters.get? id = some ch → chapterShown n ch = true → (∀ t, ch.title = some t → PlainTitle t) ∧
      ∀ p ∈ exportedIn n ch, SceneProofed ls p ∧ SceneIn r.novel p.1) (before : List Str) :
    Part ls (Spec.manuscript (odtProof e) n before ids).flatten r (atNovel r (novelBack n ids r.novel)) := by
  induction ids generalizing r before with
  | nil => exact Part.nil r
  | cons id ids ih =>
    unfold Spec.manuscript novelBack
    rw [List.flatten_append]
    obtain ⟨ch, hc⟩ := hn.chapters id (hids id (by simp))
    rw [hc]
    simp only
    by_cases hsh : chapterShown n ch = true
    · obtain ⟨h1, h3⟩ := hch id (by simp) ch hc hsh
      refine (Part.chapterText e hn hls hL hd hA hr (hids id (by simp)) hc hsh h1 (fun p hp => (h3 p hp).1) (fun p hp => (h3 p hp).2) before).append ?_
      refine ih (r := atNovel r (scenesBack (exportedIn n ch) r.novel)) ⟨hr.scene, hr.skip⟩ (fun i hi => hids i (by simp [hi])) ?_ _
      intro i hi c' hc' hsh'
      obtain ⟨g1, g3⟩ := hch i (by simp [hi]) c' hc' hsh'
      exact ⟨g1, fun p hp => ⟨(g3 p hp).1, (g3 p hp).2.proofs _⟩⟩
    · rw [exportedIn_hidden (by simpa using hsh)]
      have : Spec.chapterText (odtProof e) n before id = [] := by
        unfold Spec.chapterText
        rw [hc]
        simp only
        rw [if_neg hsh]
      rw [this]
      exact Part.append (r1 := r) (Part.nil r) (ih hr (fun i hi => hids i (by simp [hi])) (fun i hi => hch i (by simp [hi])) _)

end Verif.Proof
