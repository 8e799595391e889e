/-
Importing an outline.
-/
import Verif.Lemmas.Import3

namespace Verif
open Spec

variable {n0 : Novel} {C : Dict Chapter} {S : Dict Scene} {cid : Str} {ch : Chapter}

/-! ### Paragraphs -/

/-- A part of a paragraph without comments: its characters are collected. -/
theorem ol_run {r : Run} (hn : r.isNote = false) (R : Rd) (st : Option Str) (cm : Str) :
    Goes outlineReader (parP st cm []) R r.events (parP st cm []) (R.push r.chars) := by
  cases r with
  | plain t => exact Goes.chars t st cm [] rfl
  | emph t => exact Goes.emph t st cm (r1 := R) (r2 := R.push t) rfl rfl rfl
  | strong t => exact Goes.strong t st cm (r1 := R) (r2 := R.push t) rfl rfl rfl
  | note a t => cases hn

/-- The reader with other lines. -/
def onLines (R : Rd) (L : List Str) : Rd := { R with lines := L }

theorem ol_runs {rs : List Run} (hn : ∀ r ∈ rs, r.isNote = false) (R : Rd) (L : List Str) (st : Option Str) (cm : Str) :
    ∃ L', Goes outlineReader (parP st cm []) (onLines R L) (rs.flatMap Run.events) (parP st cm []) (onLines R L') ∧
      L'.flatten = L.flatten ++ rs.flatMap Run.chars := by
  induction rs generalizing L with
  | nil => exact ⟨L, Goes.nil _ _ _, by simp⟩
  | cons r rs ih =>
    obtain ⟨L', h1, h2⟩ := ih (fun x hx => hn x (by simp [hx])) (L ++ [r.chars])
    refine ⟨L', ?_, ?_⟩
    · rw [List.flatMap_cons]
      exact (ol_run (hn r (by simp)) (onLines R L) st cm).append h1
    · rw [h2]
      simp

theorem strip_join {a b : Str} (ha : Str.strip a = a) (ha' : a ≠ []) (hb : Str.strip b = b) (hb' : b ≠ []) (m : Str) : Str.strip (a ++ (m ++ b)) = a ++ (m ++ b) := by
  unfold Str.strip at *
  rw [Str.stripBy_eq_self_iff] at *
  refine ⟨?_, ?_⟩
  · intro c hc
    refine ha.1 c ?_
    cases a with
    | nil => exact absurd rfl ha'
    | cons x a => simpa using hc
  · intro c hc
    refine hb.2 c ?_
    rw [List.getLast?_append, List.getLast?_append] at hc
    cases hl : b.getLast? with
    | none => exact absurd (List.getLast?_eq_none_iff.1 hl) hb'
    | some d => simpa [hl] using hc

/-- The description of paragraphs. -/
def descLines (ps : List Par) : Str := ps.flatMap (fun p => p.chars ++ c!"\n")

theorem strip_desc {ps : List Par} (hp : ∀ p ∈ ps, p.Solid) {q : Par} (hq : q.Solid) : Str.strip (descLines ps ++ q.chars) = descLines ps ++ q.chars := by
  cases ps with
  | nil => exact hq.trimmed
  | cons p ps =>
    unfold descLines
    rw [List.flatMap_cons, List.append_assoc, List.append_assoc, ← List.append_assoc c!"\n"]
    exact strip_join (hp p (by simp)).trimmed (hp p (by simp)).visible hq.trimmed hq.visible _

/-- A step of the reader at the end of a paragraph. -/
def Stores (R : Str → Rd) : Prop := ∀ (d : Str) (L : List Str), outlineReader (onLines (R d) L) (.stop c!"p") =
  .ok (onLines (R (Str.strip L.flatten ++ c!"\n")) [Str.strip L.flatten ++ c!"\n"])

/-- The paragraphs of a description; `R d` is the state in which `d` is stored. -/
theorem ol_pars {R : Str → Rd} (hR : Stores R) {ps : List Par} (hp : ∀ p ∈ ps, p.Ok ∧ p.Solid) {qs : List Par} (hq : ∀ p ∈ qs, p.Solid)
    {L : List Str} (hL : L.flatten = descLines qs) (st : Option Str) (cm : Str) :
    ∃ L' st', Goes outlineReader (docP st cm) (onLines (R (descLines qs)) L) (ps.flatMap Par.events) (docP st' cm) (onLines (R (descLines (qs ++ ps))) L') := by
  induction ps generalizing qs L st with
  | nil =>
    rw [List.append_nil]
    exact ⟨L, st, Goes.nil _ _ _⟩
  | cons p ps ih =>
    obtain ⟨hp1, hp2⟩ := hp p (by simp)
    obtain ⟨L1, h1, h2⟩ := ol_runs hp2.notes (R (descLines qs)) L st cm
    have e : Str.strip L1.flatten ++ c!"\n" = descLines (qs ++ [p]) := by
      rw [h2, hL]
      have : descLines qs ++ p.runs.flatMap Run.chars = descLines qs ++ p.chars := rfl
      rw [this, strip_desc hq hp2]
      unfold descLines
      simp
    have hs := hR (descLines qs) L1
    rw [e] at hs
    obtain ⟨st1, h3⟩ := Goes.inerts (h := outlineReader) hp1.after st cm (onLines (R (descLines (qs ++ [p]))) [descLines (qs ++ [p])])
    obtain ⟨L2, st2, h4⟩ := ih (fun x hx => hp x (by simp [hx])) (qs := qs ++ [p]) (L := [descLines (qs ++ [p])]) (by
      intro x hx
      rcases List.mem_append.1 hx with hx | hx
      · exact hq x hx
      · rw [List.mem_singleton.1 hx]; exact hp2) (by simp) st1
    refine ⟨L2, st2, ?_⟩
    rw [List.append_cons, List.flatMap_cons]
    refine Goes.append ?_ h4
    unfold Par.events
    rw [List.cons_append]
    refine Goes.cons (p1 := parP st cm []) (r1 := onLines (R (descLines qs)) L) (Goes.one1 (step_par hp1.style st cm) rfl) ?_
    refine h1.append ?_
    exact Goes.cons (Goes.one1 (step_parEnd st cm) hs) h3

/-! ### Scenes and chapters -/

theorem onScene_wip {id : Str} (h : id ∉ S.keys) (s : Scene) (L : List Str) (sc chi : Option Str) (hd : Bool) (f : Scene → Scene) :
    Rd.onScene (wip n0 C (S ++ [(id, s)]) L sc chi hd) id f = .ok (wip n0 C (S ++ [(id, f s)]) L sc chi hd) := by
  unfold Rd.onScene
  show (if Dict.has (S ++ [(id, s)]) id = true then
    Except.ok (Rd.mk { n0 with chapters := C, scenes := Dict.modify (S ++ [(id, s)]) id f, srtChapters := C.keys } _ _ _ _ _ _ _ _ (S ++ [(id, s)]).length _)
    else _) = _
  rw [if_pos (has_snoc h s), modify_snoc h]
  simp only [wip, List.length_append, List.length_singleton]

theorem stores_scene {id : Str} (h : id ∉ S.keys) (s : Scene) :
    Stores (fun d => wip n0 C (S ++ [(id, { s with desc := some d })]) [] (some id) (some cid) false) := by
  intro d L
  have e : outlineReader (onLines (wip n0 C (S ++ [(id, { s with desc := some d })]) [] (some id) (some cid) false) L) (.stop c!"p") =
      Rd.onScene (wip n0 C (S ++ [(id, { s with desc := some d })]) [Str.strip L.flatten ++ c!"\n"] (some id) (some cid) false) id
        (fun s => { s with desc := some (Str.strip L.flatten ++ c!"\n") }) := rfl
  rw [e, onScene_wip h]
  rfl

theorem stores_chapter (h : cid ∉ C.keys) (ch : Chapter) :
    Stores (fun d => wip n0 (C ++ [(cid, { ch with desc := some d })]) S [] none (some cid) false) := by
  intro d L
  have e : outlineReader (onLines (wip n0 (C ++ [(cid, { ch with desc := some d })]) S [] none (some cid) false) L) (.stop c!"p") =
      Rd.onChapter (wip n0 (C ++ [(cid, { ch with desc := some d })]) S [Str.strip L.flatten ++ c!"\n"] none (some cid) false) cid
        (fun s => { s with desc := some (Str.strip L.flatten ++ c!"\n") }) := rfl
  rw [e, onChapter_wip h]
  rfl

/-- The first paragraph is stored although there is no description yet. -/
theorem ol_pars_first {R : Str → Rd} {R0 : Rd} (hR : Stores R) (h0 : ∀ L : List Str, outlineReader (onLines R0 L) (.stop c!"p") =
    .ok (onLines (R (Str.strip L.flatten ++ c!"\n")) [Str.strip L.flatten ++ c!"\n"])) {ps : List Par} (hp : ∀ p ∈ ps, p.Ok ∧ p.Solid)
    (st : Option Str) (cm : Str) :
    ∃ L' st' R', Goes outlineReader (docP st cm) (onLines R0 []) (ps.flatMap Par.events) (docP st' cm) (onLines R' L') ∧
      (if ps.isEmpty then R' = R0 else R' = R (descLines ps)) := by
  cases ps with
  | nil => exact ⟨[], st, R0, Goes.nil _ _ _, rfl⟩
  | cons p ps =>
    obtain ⟨hp1, hp2⟩ := hp p (by simp)
    obtain ⟨L1, h1, h2⟩ := ol_runs hp2.notes R0 [] st cm
    have e : Str.strip L1.flatten ++ c!"\n" = descLines [p] := by
      rw [h2]
      have : ([] : List Str).flatten ++ p.runs.flatMap Run.chars = p.chars := rfl
      rw [this, hp2.trimmed]
      unfold descLines
      simp
    have hs := h0 L1
    rw [e] at hs
    obtain ⟨st1, h3⟩ := Goes.inerts (h := outlineReader) hp1.after st cm (onLines (R (descLines [p])) [descLines [p]])
    obtain ⟨L2, st2, h4⟩ := ol_pars hR (fun x hx => hp x (by simp [hx])) (qs := [p]) (L := [descLines [p]]) (by simpa using hp2) (by simp) st1 cm (ps := ps)
    refine ⟨L2, st2, R (descLines (p :: ps)), ?_, rfl⟩
    rw [List.flatMap_cons]
    refine Goes.append ?_ h4
    unfold Par.events
    rw [List.cons_append]
    refine Goes.cons (p1 := parP st cm []) (r1 := onLines R0 []) (Goes.one1 (step_par hp1.style st cm) rfl) ?_
    refine h1.append ?_
    exact Goes.cons (Goes.one1 (step_parEnd st cm) hs) h3

theorem ol_heading3 (t : Str) (hS : Grown S) (hc : cid ∉ C.keys) (L : List Str) (sc : Option Str) :
    ∃ r1 r2, outlineReader (wip n0 (C ++ [(cid, ch)]) S L sc (some cid) false) (.start ('h' :: Str.ofNat 3) []) = .ok r1 ∧ outlineReader r1 (.data t) = .ok r2 ∧
      outlineReader r2 (.stop ('h' :: Str.ofNat 3)) =
        .ok (wip n0 (C ++ [(cid, withScene ch (Str.ofNat (S.length + 1)))])
          (S ++ [(Str.ofNat (S.length + 1), { title := some (Str.strip t), scType := some 0, status := some 1, sceneContent := some [] })]) []
          (some (Str.ofNat (S.length + 1))) (some cid) false) := by
  have e1 : outlineReader (wip n0 (C ++ [(cid, ch)]) S L sc (some cid) false) (.start ('h' :: Str.ofNat 3) []) =
      .ok (wip n0 (C ++ [(cid, withScene ch (Str.ofNat (S.length + 1)))])
        (S ++ [(Str.ofNat (S.length + 1), { scType := some 0, status := some 1, sceneContent := some [] })]) []
          (some (Str.ofNat (S.length + 1))) (some cid) false) := by
    have e : outlineReader (wip n0 (C ++ [(cid, ch)]) S L sc (some cid) false) (.start ('h' :: Str.ofNat 3) []) =
      Rd.onChapter (Rd.mk { n0 with chapters := C ++ [(cid, ch)], scenes := Dict.set S (Str.ofNat (S.length + 1)) { (({} : Scene).setContent []) with status := some 1, scType := some 0 }, srtChapters := Dict.keys (C ++ [(cid, ch)]) }
        [] (some (Str.ofNat (S.length + 1))) (some cid) [] false none none (C ++ [(cid, ch)]).length (S.length + 1) false) cid
        (fun ch => { ch with srtScenes := ch.srtScenes ++ [Str.ofNat (S.length + 1)] }) := rfl
    rw [e, hS.set]
    have e2 : ∀ v : Scene, Rd.mk { n0 with chapters := C ++ [(cid, ch)], scenes := S ++ [(Str.ofNat (S.length + 1), v)], srtChapters := Dict.keys (C ++ [(cid, ch)]) }
        [] (some (Str.ofNat (S.length + 1))) (some cid) [] false none none (C ++ [(cid, ch)]).length (S.length + 1) false =
        wip n0 (C ++ [(cid, ch)]) (S ++ [(Str.ofNat (S.length + 1), v)]) [] (some (Str.ofNat (S.length + 1))) (some cid) false := by
      intro v
      simp only [wip, List.length_append, List.length_singleton]
    rw [e2, onChapter_wip hc]
    rfl
  refine ⟨_, _, e1, rfl, ?_⟩
  have e : outlineReader (Rd.push (wip n0 (C ++ [(cid, withScene ch (Str.ofNat (S.length + 1)))])
        (S ++ [(Str.ofNat (S.length + 1), { scType := some 0, status := some 1, sceneContent := some [] })]) []
          (some (Str.ofNat (S.length + 1))) (some cid) false) t) (.stop ('h' :: Str.ofNat 3)) =
      (do
        let r ← Rd.onScene (wip n0 (C ++ [(cid, withScene ch (Str.ofNat (S.length + 1)))])
          (S ++ [(Str.ofNat (S.length + 1), { scType := some 0, status := some 1, sceneContent := some [] })]) [t]
          (some (Str.ofNat (S.length + 1))) (some cid) false) (Str.ofNat (S.length + 1)) (fun s => { s with title := some (Str.strip [t].flatten) })
        .ok { r with lines := [] }) := rfl
  rw [e, onScene_wip hS.fresh]
  simp only [List.flatten_cons, List.flatten_nil, List.append_nil]
  rfl

theorem ol_heading {l : Nat} (hl : l = 1 ∨ l = 2) (t : Str) (hC : Grown C) (L : List Str) (sc chi : Option Str) :
    ∃ r1 r2, outlineReader (wip n0 C S L sc chi false) (.start ('h' :: Str.ofNat l) []) = .ok r1 ∧ outlineReader r1 (.data t) = .ok r2 ∧
      outlineReader r2 (.stop ('h' :: Str.ofNat l)) =
        .ok (wip n0 (C ++ [(Str.ofNat (C.length + 1), newWith (Str.strip t) none l [])]) S [] none (some (Str.ofNat (C.length + 1))) false) := by
  have key : ∀ lv, Rd.mk { n0 with chapters := Dict.set C (Str.ofNat (C.length + 1)) { chType := some 0, chLevel := some lv }, scenes := S, srtChapters := C.keys ++ [Str.ofNat (C.length + 1)] } [t] none (some (Str.ofNat (C.length + 1))) [] false none none (C.length + 1) S.length false =
      wip n0 (C ++ [(Str.ofNat (C.length + 1), { chType := some 0, chLevel := some lv })]) S [t] none (some (Str.ofNat (C.length + 1))) false := by
    intro lv
    rw [hC.set]
    simp only [wip, List.length_append, List.length_singleton, keys_snoc]
  have stop : ∀ lv x, x = c!"h1" ∨ x = c!"h2" →
      outlineReader (wip n0 (C ++ [(Str.ofNat (C.length + 1), { chType := some 0, chLevel := some lv })]) S [t] none (some (Str.ofNat (C.length + 1))) false) (.stop x) =
        .ok (wip n0 (C ++ [(Str.ofNat (C.length + 1), { title := some (Str.strip t), chType := some 0, chLevel := some lv })]) S [] none (some (Str.ofNat (C.length + 1))) false) := by
    intro lv x hx
    have e : outlineReader (wip n0 (C ++ [(Str.ofNat (C.length + 1), { chType := some 0, chLevel := some lv })]) S [t] none (some (Str.ofNat (C.length + 1))) false) (.stop x) =
      (do
        let r ← Rd.onChapter (wip n0 (C ++ [(Str.ofNat (C.length + 1), { chType := some 0, chLevel := some lv })]) S [t] none (some (Str.ofNat (C.length + 1))) false)
          (Str.ofNat (C.length + 1)) (fun ch => { ch with title := some (Str.strip [t].flatten) })
        .ok { r with lines := [] }) := by
      rcases hx with rfl | rfl <;> rfl
    rw [e, onChapter_wip hC.fresh]
    simp only [List.flatten_cons, List.flatten_nil, List.append_nil]
    rfl
  rcases hl with rfl | rfl
  · refine ⟨_, _, rfl, rfl, ?_⟩
    refine Eq.trans (congrArg (fun r => outlineReader r (.stop c!"h1")) (key 1)) ?_
    rw [stop 1 c!"h1" (.inl rfl)]
    rfl
  · refine ⟨_, _, rfl, rfl, ?_⟩
    refine Eq.trans (congrArg (fun r => outlineReader r (.stop c!"h2")) (key 0)) ?_
    rw [stop 0 c!"h2" (.inr rfl)]
    rfl

/-- A scene of an outline. -/
theorem ol_scene {s : OutlineScene} (hs : s.Ok) (hS : Grown S) (hc : cid ∉ C.keys) (L : List Str) (sc : Option Str) (st : Option Str) (cm : Str) :
    ∃ L' st', Goes outlineReader (docP st cm) (wip n0 (C ++ [(cid, ch)]) S L sc (some cid) false) s.events (docP st' cm)
      (wip n0 (C ++ [(cid, withScene ch (Str.ofNat (S.length + 1)))]) (S ++ [(Str.ofNat (S.length + 1), outlineScene s)]) L'
        (some (Str.ofNat (S.length + 1))) (some cid) false) := by
  obtain ⟨r1, r2, g1, g2, g3⟩ := ol_heading3 (n0 := n0) (ch := ch) s.head.text hS hc L sc
  rw [← hs.level] at g1 g3
  obtain ⟨st1, h1⟩ := Goes.heading hs.after st cm g1 g2 g3
  generalize hv : ({ title := some (Str.strip s.head.text), scType := some 0, status := some 1, sceneContent := some [] } : Scene) = v at h1
  generalize hC' : C ++ [(cid, withScene ch (Str.ofNat (S.length + 1)))] = C' at h1 ⊢
  obtain ⟨L', st2, R', h2, h3⟩ := ol_pars_first (stores_scene (n0 := n0) (C := C') (cid := cid) hS.fresh v)
    (R0 := wip n0 C' (S ++ [(Str.ofNat (S.length + 1), v)]) [] (some (Str.ofNat (S.length + 1))) (some cid) false) (by
      intro L
      have e : outlineReader (onLines (wip n0 C' (S ++ [(Str.ofNat (S.length + 1), v)]) [] (some (Str.ofNat (S.length + 1))) (some cid) false) L) (.stop c!"p") =
          Rd.onScene (wip n0 C' (S ++ [(Str.ofNat (S.length + 1), v)]) [Str.strip L.flatten ++ c!"\n"] (some (Str.ofNat (S.length + 1))) (some cid) false) (Str.ofNat (S.length + 1))
            (fun s => { s with desc := some (Str.strip L.flatten ++ c!"\n") }) := rfl
      rw [e, onScene_wip hS.fresh]
      rfl) hs.pars st1 cm
  refine ⟨L', st2, ?_⟩
  unfold OutlineScene.events
  refine h1.append ?_
  have e : onLines R' L' = wip n0 C' (S ++ [(Str.ofNat (S.length + 1), outlineScene s)]) L' (some (Str.ofNat (S.length + 1))) (some cid) false := by
    cases hps : s.pars with
    | nil =>
      rw [hps] at h3
      rw [show R' = _ from h3, ← hv]
      unfold outlineScene outlineDesc
      rw [hps]
      rfl
    | cons q qs =>
      rw [hps] at h3
      rw [show R' = _ from h3, ← hv]
      unfold outlineScene outlineDesc
      rw [hps]
      rfl
  rw [e] at h2
  exact h2

theorem outlineScenes_append (j : Nat) (a b : List OutlineScene) : outlineScenes j (a ++ b) = outlineScenes j a ++ outlineScenes (j + a.length) b := by
  induction a generalizing j with
  | nil => rfl
  | cons x a ih =>
    rw [List.cons_append, outlineScenes, outlineScenes, ih, List.cons_append, List.length_cons]
    congr 3
    omega

theorem outlineScenes_length (j : Nat) (l : List OutlineScene) : (outlineScenes j l).length = l.length := by
  induction l generalizing j with
  | nil => rfl
  | cons x l ih => rw [outlineScenes, List.length_cons, ih, List.length_cons]

theorem outlineScenes_keys (j : Nat) (l : List OutlineScene) : Dict.keys (outlineScenes j l) = idsFrom j l.length := by
  induction l generalizing j with
  | nil => rfl
  | cons x l ih =>
    rw [outlineScenes, List.length_cons, idsFrom_succ, ← ih]
    rfl

theorem Grown.outline (hS : Grown S) (l : List OutlineScene) : Grown (S ++ outlineScenes S.length l) := by
  unfold Grown
  rw [List.length_append, outlineScenes_length, ← ids_idsFrom, ← hS, ← outlineScenes_keys]
  simp [Dict.keys]

/-- The scenes of a chapter of an outline. -/
theorem ol_scenes {ss : List OutlineScene} (hs : ∀ s ∈ ss, s.Ok) (hS : Grown S) (hc : cid ∉ C.keys) (L : List Str) (sc : Option Str) (st : Option Str) (cm : Str) :
    ∃ L' sc' st', Goes outlineReader (docP st cm) (wip n0 (C ++ [(cid, ch)]) S L sc (some cid) false) (ss.flatMap OutlineScene.events) (docP st' cm)
      (wip n0 (C ++ [(cid, withScenes ch (idsFrom S.length ss.length))]) (S ++ outlineScenes S.length ss) L' sc' (some cid) false) := by
  induction ss generalizing S ch L sc st with
  | nil =>
    refine ⟨L, sc, st, ?_⟩
    have e : withScenes ch (idsFrom S.length ([] : List OutlineScene).length) = ch := by
      show { ch with srtScenes := ch.srtScenes ++ [] } = ch
      rw [List.append_nil]
    rw [List.flatMap_nil, e, outlineScenes, List.append_nil]
    exact Goes.nil _ _ _
  | cons s ss ih =>
    obtain ⟨L1, st1, h1⟩ := ol_scene (n0 := n0) (C := C) (ch := ch) (hs s (by simp)) hS hc L sc st cm
    obtain ⟨L2, sc2, st2, h2⟩ := ih (fun x hx => hs x (by simp [hx])) (hS.snoc (outlineScene s)) (ch := withScene ch (Str.ofNat (S.length + 1))) L1 (some (Str.ofNat (S.length + 1))) st1
    refine ⟨L2, sc2, st2, ?_⟩
    rw [List.flatMap_cons]
    refine h1.append ?_
    rw [withScenes_cons, List.length_append, List.length_singleton, List.append_assoc] at h2
    exact h2

/-- A chapter of an outline. -/
theorem ol_chapter {c : OutlineChapter} (hc : c.Ok) (hC : Grown C) (hS : Grown S) (L : List Str) (sc chi : Option Str) (st : Option Str) (cm : Str) :
    ∃ L' sc' chi' st', Goes outlineReader (docP st cm) (wip n0 C S L sc chi false) c.events (docP st' cm)
      (wip n0 (C ++ [(Str.ofNat (C.length + 1), newWith (Str.strip c.head.text) (outlineDesc c.pars) c.head.level (idsFrom S.length c.scenes.length))])
        (S ++ outlineScenes S.length c.scenes) L' sc' chi' false) := by
  obtain ⟨r1, r2, g1, g2, g3⟩ := ol_heading (n0 := n0) (S := S) hc.level c.head.text hC L sc chi
  obtain ⟨st1, h1⟩ := Goes.heading hc.after st cm g1 g2 g3
  generalize hv : newWith (Str.strip c.head.text) none c.head.level [] = v at h1
  obtain ⟨L', st2, R', h2, h3⟩ := ol_pars_first (stores_chapter (n0 := n0) (S := S) hC.fresh v)
    (R0 := wip n0 (C ++ [(Str.ofNat (C.length + 1), v)]) S [] none (some (Str.ofNat (C.length + 1))) false) (by
      intro L
      have e : outlineReader (onLines (wip n0 (C ++ [(Str.ofNat (C.length + 1), v)]) S [] none (some (Str.ofNat (C.length + 1))) false) L) (.stop c!"p") =
          Rd.onChapter (wip n0 (C ++ [(Str.ofNat (C.length + 1), v)]) S [Str.strip L.flatten ++ c!"\n"] none (some (Str.ofNat (C.length + 1))) false) (Str.ofNat (C.length + 1))
            (fun s => { s with desc := some (Str.strip L.flatten ++ c!"\n") }) := rfl
      rw [e, onChapter_wip hC.fresh]
      rfl) hc.pars st1 cm
  have e : onLines R' L' = wip n0 (C ++ [(Str.ofNat (C.length + 1), newWith (Str.strip c.head.text) (outlineDesc c.pars) c.head.level [])]) S L' none (some (Str.ofNat (C.length + 1))) false := by
    cases hps : c.pars with
    | nil =>
      rw [hps] at h3
      rw [show R' = _ from h3, ← hv]
      rfl
    | cons q qs =>
      rw [hps] at h3
      rw [show R' = _ from h3, ← hv]
      rfl
  rw [e] at h2
  obtain ⟨L3, sc3, st3, h4⟩ := ol_scenes (n0 := n0) (ch := newWith (Str.strip c.head.text) (outlineDesc c.pars) c.head.level []) hc.scenes hS hC.fresh L' none st2 cm
  refine ⟨L3, sc3, some (Str.ofNat (C.length + 1)), st3, ?_⟩
  exact h1.append (h2.append h4)

/-- The chapters of an outline. -/
theorem ol_chapters {cs : List OutlineChapter} (hc : ∀ c ∈ cs, c.Ok) (hC : Grown C) (hS : Grown S) (L : List Str) (sc chi : Option Str) (st : Option Str) (cm : Str) :
    ∃ L' sc' chi' st', Goes outlineReader (docP st cm) (wip n0 C S L sc chi false) (cs.flatMap OutlineChapter.events) (docP st' cm)
      (wip n0 (C ++ outlineChapters C.length S.length cs) (S ++ outlineScenes S.length (cs.flatMap OutlineChapter.scenes)) L' sc' chi' false) := by
  induction cs generalizing C S L sc chi st with
  | nil =>
    refine ⟨L, sc, chi, st, ?_⟩
    rw [List.flatMap_nil, List.flatMap_nil]
    simp only [outlineChapters, outlineScenes, List.append_nil]
    exact Goes.nil _ _ _
  | cons c cs ih =>
    obtain ⟨L1, sc1, chi1, st1, h1⟩ := ol_chapter (n0 := n0) (hc c (by simp)) hC hS L sc chi st cm
    obtain ⟨L2, sc2, chi2, st2, h2⟩ := ih (fun x hx => hc x (by simp [hx])) (hC.snoc _) (hS.outline c.scenes) L1 sc1 chi1 st1
    refine ⟨L2, sc2, chi2, st2, ?_⟩
    rw [List.flatMap_cons]
    refine h1.append ?_
    rw [List.length_append, List.length_singleton, List.length_append, outlineScenes_length, List.append_assoc, List.append_assoc] at h2
    rw [List.flatMap_cons, outlineScenes_append, outlineChapters]
    exact h2

end Verif
