/-
Importing a work in progress: runs, paragraphs, scenes.
-/
import Verif.Lemmas.Import

namespace Verif
open Spec

variable {n0 : Novel} {C : Dict Chapter} {S : Dict Scene} {cid : Str}

/-- The state of the reader: chapters and scenes read so far, the lines of the current scene, the current scene and chapter. -/
def wip (n0 : Novel) (C : Dict Chapter) (S : Dict Scene) (L : List Str) (sc ch : Option Str) (hd : Bool) : Rd :=
  ⟨{ n0 with chapters := C, scenes := S, srtChapters := C.keys }, L, sc, ch, [], false, none, none, C.length, S.length, hd⟩

/-- The state in the scene `id`. -/
abbrev inSc (n0 : Novel) (C : Dict Chapter) (S : Dict Scene) (cid id : Str) (s : Scene) (L : List Str) : Rd :=
  wip n0 C (S ++ [(id, s)]) L (some id) (some cid) false

theorem im_data {id : Str} {s : Scene} {t : Str} (h : ¬ stars <:+: t) (L : List Str) :
    importReader (inSc n0 C S cid id s L) (.data t) = .ok (inSc n0 C S cid id s (L ++ [t])) := by
  show Except.ok (imData _ _) = _
  unfold imData
  rw [if_neg (fun e => by rw [contains_iff] at e; exact h e.2)]
  rfl

theorem im_em {id : Str} {s : Scene} (L : List Str) :
    importReader (inSc n0 C S cid id s L) (.start c!"em" []) = .ok (inSc n0 C S cid id s (L ++ [c!"[i]"])) := rfl

theorem im_emEnd {id : Str} {s : Scene} (L : List Str) :
    importReader (inSc n0 C S cid id s L) (.stop c!"em") = .ok (inSc n0 C S cid id s (L ++ [c!"[/i]"])) := rfl

theorem im_strong {id : Str} {s : Scene} (L : List Str) :
    importReader (inSc n0 C S cid id s L) (.start c!"strong" []) = .ok (inSc n0 C S cid id s (L ++ [c!"[b]"])) := rfl

theorem im_strongEnd {id : Str} {s : Scene} (L : List Str) :
    importReader (inSc n0 C S cid id s L) (.stop c!"strong") = .ok (inSc n0 C S cid id s (L ++ [c!"[/b]"])) := rfl

theorem im_note {id : Str} {s : Scene} {L : List Str} (h : L ≠ []) (t : Str) :
    importReader (inSc n0 C S cid id s L) (.comment t) = .ok (inSc n0 C S cid id s (L ++ [c!"/*" ++ Str.strip t ++ c!"*/"])) := by
  show Except.ok (imComment _ _) = _
  unfold imComment
  show Except.ok (if L = [] then _ else _) = _
  rw [if_neg h]
  rfl

theorem im_title {id : Str} {s : Scene} (hid : id ∉ S.keys) (t : Str) :
    importReader (inSc n0 C S cid id s []) (.comment t) = .ok (inSc n0 C S cid id { s with title := some (Str.strip t) } []) := by
  show Except.ok (imComment _ _) = _
  unfold imComment
  show Except.ok (if ([] : List Str) = [] then _ else _) = _
  rw [if_pos rfl]
  show Except.ok (Rd.mk { n0 with chapters := C, scenes := Dict.modify (S ++ [(id, s)]) id _, srtChapters := C.keys } _ _ _ _ _ _ _ _ (S ++ [(id, s)]).length _) = _
  rw [modify_snoc hid]
  simp only [wip, List.length_append, List.length_singleton]

/-- A part of a paragraph has no mark of a divider. -/
def RunOk (r : Run) : Prop := ∀ s, (r = .plain s ∨ r = .emph s ∨ r = .strong s) → ¬ stars <:+: s

/-- Text. -/
theorem parRun_text {r : Run} (hr : RunOk r) (hn : r.isNote = false) {id : Str} {s : Scene} (L : List Str) (st : Option Str) (cm : Str) :
    ∃ L', Goes importReader (parP st cm []) (inSc n0 C S cid id s L) r.events (parP st cm []) (inSc n0 C S cid id s L') ∧ L' ≠ [] ∧
      L'.flatten = L.flatten ++ r.text := by
  cases r with
  | plain t => exact ⟨_, Goes.chars t st cm [] (im_data (hr t (by simp)) L), by simp, by simp [Run.text]⟩
  | emph t =>
    exact ⟨_, Goes.emph t st cm (im_em L) (im_data (hr t (by simp)) _) (im_emEnd _), by simp, by simp [Run.text]⟩
  | strong t =>
    exact ⟨_, Goes.strong t st cm (im_strong L) (im_data (hr t (by simp)) _) (im_strongEnd _), by simp, by simp [Run.text]⟩
  | note a t => cases hn

/-- Text and comments. -/
theorem run_any {r : Run} (hr : RunOk r) {id : Str} {s : Scene} {L : List Str} (hL : L ≠ []) (st : Option Str) (cm : Str) :
    ∃ L' cm', Goes importReader (parP st cm []) (inSc n0 C S cid id s L) r.events (parP st cm' []) (inSc n0 C S cid id s L') ∧ L' ≠ [] ∧
      L'.flatten = L.flatten ++ r.text := by
  cases hn : r.isNote with
  | false =>
    obtain ⟨L', h1, h2, h3⟩ := parRun_text hr hn (n0 := n0) (C := C) (S := S) (cid := cid) (id := id) (s := s) L st cm
    exact ⟨L', cm, h1, h2, h3⟩
  | true =>
    cases r with
    | note a t => exact ⟨_, t, Goes.note a t st cm (im_note hL t), by simp, by simp [Run.text]⟩
    | _ => cases hn

theorem runs_any {rs : List Run} (hr : ∀ r ∈ rs, RunOk r) {id : Str} {s : Scene} {L : List Str} (hL : L ≠ []) (st : Option Str) (cm : Str) :
    ∃ L' cm', Goes importReader (parP st cm []) (inSc n0 C S cid id s L) (rs.flatMap Run.events) (parP st cm' []) (inSc n0 C S cid id s L') ∧
      L'.flatten = L.flatten ++ rs.flatMap Run.text := by
  induction rs generalizing L cm with
  | nil => exact ⟨L, cm, Goes.nil _ _ _, by simp⟩
  | cons r rs ih =>
    obtain ⟨L1, cm1, h1, h2, h3⟩ := run_any (hr r (by simp)) (n0 := n0) (C := C) (S := S) (cid := cid) (id := id) (s := s) hL st cm
    obtain ⟨L2, cm2, h4, h5⟩ := ih (fun x hx => hr x (by simp [hx])) h2 cm1
    refine ⟨L2, cm2, ?_, ?_⟩
    · rw [List.flatMap_cons]
      exact h1.append h4
    · rw [h5, h3, List.flatMap_cons, List.append_assoc]

/-- The comments at the beginning. -/
def notesTitle (rs : List Run) : Option Str :=
  ((rs.takeWhile Run.isNote).getLast?).map (fun r => match r with | .note _ s => Str.strip s | _ => [])

theorem notesTitle_cons (a t : Str) (rs : List Run) : notesTitle (.note a t :: rs) = (notesTitle rs).or (some (Str.strip t)) := by
  unfold notesTitle
  rw [List.takeWhile_cons, if_pos (show (Run.note a t).isNote = true from rfl), List.getLast?_cons]
  cases (rs.takeWhile Run.isNote).getLast? <;> rfl

theorem runs_first {rs : List Run} (hr : ∀ r ∈ rs, RunOk r) {id : Str} (hid : id ∉ S.keys) (s : Scene) (st : Option Str) (cm : Str) :
    ∃ L' cm', Goes importReader (parP st cm []) (inSc n0 C S cid id s []) (rs.flatMap Run.events) (parP st cm' [])
        (inSc n0 C S cid id { s with title := (notesTitle rs).or s.title } L') ∧
      L'.flatten = (rs.dropWhile Run.isNote).flatMap Run.text := by
  induction rs generalizing s cm with
  | nil => exact ⟨[], cm, Goes.nil _ _ _, rfl⟩
  | cons r rs ih =>
    cases hn : r.isNote with
    | false =>
      obtain ⟨L1, h1, h2, h3⟩ := parRun_text (hr r (by simp)) hn (n0 := n0) (C := C) (S := S) (cid := cid) (id := id) (s := s) [] st cm
      obtain ⟨L2, cm2, h4, h5⟩ := runs_any (rs := rs) (fun x hx => hr x (by simp [hx])) (n0 := n0) (C := C) (S := S) (cid := cid) (id := id) (s := s) h2 st cm
      have e : notesTitle (r :: rs) = none := by
        unfold notesTitle
        rw [List.takeWhile_cons, if_neg (by rw [hn]; simp)]
        rfl
      refine ⟨L2, cm2, ?_, ?_⟩
      · rw [List.flatMap_cons, e]
        exact h1.append h4
      · rw [h5, h3, List.dropWhile_cons, if_neg (by rw [hn]; simp), List.flatMap_cons]
        rfl
    | true =>
      cases r with
      | note a t =>
        obtain ⟨L2, cm2, h4, h5⟩ := ih (fun x hx => hr x (by simp [hx])) { s with title := some (Str.strip t) } t
        refine ⟨L2, cm2, ?_, ?_⟩
        · rw [List.flatMap_cons, notesTitle_cons]
          have e : ((notesTitle rs).or (some (Str.strip t))).or s.title = (notesTitle rs).or (some (Str.strip t)) := by
            cases notesTitle rs <;> rfl
          rw [e]
          exact (Goes.note a t st cm (im_title hid t)).append h4
        · rw [h5, List.dropWhile_cons, if_pos hn]
      | _ => cases hn

/-! ### Paragraphs -/

/-- The text as it is stored. -/
def cleaned (t : Str) : Str := Rd.cleanupTags [c!"i", c!"b"] t

theorem im_parEnd {id : Str} (hid : id ∉ S.keys) (hl : n0.languages = some []) (s : Scene) (L : List Str) :
    importReader (inSc n0 C S cid id s L) (.stop c!"p") =
      .ok (inSc n0 C S cid id (withText s (cleaned (Str.rstrip (L.flatten ++ c!"\n")))) (L ++ [c!"\n"])) := by
  have e : imStop (inSc n0 C S cid id s L) c!"p" =
      Rd.onScene (inSc n0 C S cid id s (L ++ [c!"\n"])) id (imStore (Rd.cleanupScene (inSc n0 C S cid id s (L ++ [c!"\n"]))
        (Str.rstrip (L ++ [c!"\n"]).flatten))) := rfl
  show imStop (inSc n0 C S cid id s L) c!"p" = _
  rw [e]
  have e2 : Rd.cleanupScene (inSc n0 C S cid id s (L ++ [c!"\n"])) (Str.rstrip (L ++ [c!"\n"]).flatten) = cleaned (Str.rstrip (L.flatten ++ c!"\n")) := by
    unfold Rd.cleanupScene
    show Rd.cleanupTags (c!"i" :: c!"b" :: (n0.languages.getD []).map _) _ = _
    rw [hl, List.flatten_append]
    simp only [List.flatten_cons, List.flatten_nil, List.append_nil]
    rfl
  rw [e2]
  unfold Rd.onScene
  show (if Dict.has (S ++ [(id, s)]) id = true then
    Except.ok (Rd.mk { n0 with chapters := C, scenes := Dict.modify (S ++ [(id, s)]) id _, srtChapters := C.keys } _ _ _ _ _ _ _ _ (S ++ [(id, s)]).length _)
    else _) = _
  rw [if_pos (has_snoc hid s), modify_snoc hid]
  simp only [wip, List.length_append, List.length_singleton]
  rfl

theorem im_par {id : Str} (s : Scene) (L : List Str) :
    importReader (inSc n0 C S cid id s L) (.start c!"p" []) = .ok (inSc n0 C S cid id s L) := rfl

theorem par_ok {p : Par} (hp : p.NoStars) : ∀ r ∈ p.runs, RunOk r := hp

/-- A further paragraph of a scene. -/
theorem par_more {p : Par} (hp : p.Ok) (hs : p.NoStars) (hl : n0.languages = some []) {id : Str} (hid : id ∉ S.keys) (s : Scene) {L : List Str} (hL : L ≠ [])
    (st : Option Str) (cm : Str) :
    ∃ L' st' cm', Goes importReader (docP st cm) (inSc n0 C S cid id s L) p.events (docP st' cm')
        (inSc n0 C S cid id (withText s (cleaned (Str.rstrip L'.flatten))) L') ∧ L' ≠ [] ∧ L'.flatten = L.flatten ++ (p.text ++ c!"\n") := by
  obtain ⟨L1, cm1, h1, h2⟩ := runs_any (par_ok hs) (n0 := n0) (C := C) (S := S) (cid := cid) (id := id) (s := s) hL st cm
  obtain ⟨st', h3⟩ := Goes.inerts (h := importReader) hp.after st cm1
    (inSc n0 C S cid id (withText s (cleaned (Str.rstrip (L1.flatten ++ c!"\n")))) (L1 ++ [c!"\n"]))
  have e : (L1 ++ [c!"\n"]).flatten = L1.flatten ++ c!"\n" := by simp
  refine ⟨L1 ++ [c!"\n"], st', cm1, ?_, by simp, ?_⟩
  · rw [e]
    unfold Par.events
    rw [List.cons_append]
    refine Goes.cons (Goes.one1 (step_par hp.style st cm) (im_par s L)) ?_
    refine h1.append ?_
    exact Goes.cons (Goes.one1 (step_parEnd st cm1) (im_parEnd hid hl s L1)) h3
  · rw [e, h2, List.append_assoc]
    rfl

theorem pars_more {ps : List Par} (hp : ∀ p ∈ ps, p.Ok ∧ p.NoStars) (hl : n0.languages = some []) {id : Str} (hid : id ∉ S.keys) (s : Scene) {L : List Str}
    (hL : L ≠ []) (st : Option Str) (cm : Str) :
    ∃ L' st' cm', Goes importReader (docP st cm) (inSc n0 C S cid id (withText s (cleaned (Str.rstrip L.flatten))) L) (ps.flatMap Par.events) (docP st' cm')
        (inSc n0 C S cid id (withText s (cleaned (Str.rstrip L'.flatten))) L') ∧ L'.flatten = L.flatten ++ ps.flatMap (fun p => p.text ++ c!"\n") := by
  induction ps generalizing L st cm with
  | nil => exact ⟨L, st, cm, Goes.nil _ _ _, by simp⟩
  | cons p ps ih =>
    obtain ⟨L1, st1, cm1, h1, h2, h3⟩ := par_more (n0 := n0) (C := C) (S := S) (cid := cid) (hp p (by simp)).1 (hp p (by simp)).2 hl hid
      (withText s (cleaned (Str.rstrip L.flatten))) hL st cm
    obtain ⟨L2, st2, cm2, h4, h5⟩ := ih (fun x hx => hp x (by simp [hx])) h2 st1 cm1
    refine ⟨L2, st2, cm2, ?_, ?_⟩
    · rw [List.flatMap_cons]
      exact h1.append h4
    · rw [h5, h3, List.flatMap_cons, List.append_assoc]

/-! ### Scenes -/

/-- A chapter with a further scene. -/
def withScene (ch : Chapter) (id : Str) : Chapter := { ch with srtScenes := ch.srtScenes ++ [id] }

/-- A scene without paragraphs. -/
def bareScene (k : Nat) : Scene := { title := some (c!"Scene " ++ Str.ofNat k), scType := some 0, status := some 1 }

variable {ch : Chapter}

theorem im_new (hS : Grown S) (hc : cid ∉ C.keys) (L : List Str) :
    importReader (wip n0 (C ++ [(cid, ch)]) S L none (some cid) false) (.start c!"p" []) =
      .ok (inSc n0 (C ++ [(cid, withScene ch (Str.ofNat (S.length + 1)))]) S cid (Str.ofNat (S.length + 1)) (bareScene (S.length + 1)) []) := by
  show imParagraph (wip n0 (C ++ [(cid, ch)]) S L none (some cid) false) [] = _
  unfold imParagraph
  simp only [wip]
  have e : imNewScene (wip n0 (C ++ [(cid, ch)]) S L none (some cid) false) cid =
      .ok (inSc n0 (C ++ [(cid, withScene ch (Str.ofNat (S.length + 1)))]) S cid (Str.ofNat (S.length + 1)) (bareScene (S.length + 1)) []) := by
    unfold imNewScene
    unfold Rd.onChapter
    show (if Dict.has (C ++ [(cid, ch)]) cid = true then
      Except.ok (Rd.mk { n0 with chapters := Dict.modify (C ++ [(cid, ch)]) cid _, scenes := Dict.set S (Str.ofNat (S.length + 1)) _, srtChapters := Dict.keys (C ++ [(cid, ch)]) } _ _ _ _ _ _ _ (C ++ [(cid, ch)]).length (S.length + 1) _)
      else _) = _
    rw [if_pos (has_snoc hc ch), modify_snoc hc, hS.set]
    simp only [wip, List.length_append, List.length_singleton, keys_snoc]
    rfl
  simp only [wip] at e
  rw [e]
  rfl

/-- The first paragraph of a scene. -/
theorem par_first {p : Par} (hp : p.Ok) (hs : p.NoStars) (hl : n0.languages = some []) (hS : Grown S) (hc : cid ∉ C.keys) (L : List Str)
    (st : Option Str) (cm : Str) :
    ∃ L' st' cm', Goes importReader (docP st cm) (wip n0 (C ++ [(cid, ch)]) S L none (some cid) false) p.events (docP st' cm')
        (inSc n0 (C ++ [(cid, withScene ch (Str.ofNat (S.length + 1)))]) S cid (Str.ofNat (S.length + 1))
          (withText { bareScene (S.length + 1) with title := (notesTitle p.runs).or (bareScene (S.length + 1)).title } (cleaned (Str.rstrip L'.flatten))) L') ∧
      L' ≠ [] ∧ L'.flatten = (p.runs.dropWhile Run.isNote).flatMap Run.text ++ c!"\n" := by
  obtain ⟨L1, cm1, h1, h2⟩ := runs_first (par_ok hs) (n0 := n0) (C := C ++ [(cid, withScene ch (Str.ofNat (S.length + 1)))]) (S := S) (cid := cid)
    hS.fresh (bareScene (S.length + 1)) st cm
  have e : (L1 ++ [c!"\n"]).flatten = L1.flatten ++ c!"\n" := by simp
  obtain ⟨st', h3⟩ := Goes.inerts (h := importReader) hp.after st cm1
    (inSc n0 (C ++ [(cid, withScene ch (Str.ofNat (S.length + 1)))]) S cid (Str.ofNat (S.length + 1))
          (withText { bareScene (S.length + 1) with title := (notesTitle p.runs).or (bareScene (S.length + 1)).title } (cleaned (Str.rstrip (L1.flatten ++ c!"\n")))) (L1 ++ [c!"\n"]))
  refine ⟨L1 ++ [c!"\n"], st', cm1, ?_, by simp, ?_⟩
  · rw [e]
    unfold Par.events
    rw [List.cons_append]
    refine Goes.cons (Goes.one1 (step_par hp.style st cm) (im_new hS hc L)) ?_
    refine h1.append ?_
    exact Goes.cons (Goes.one1 (step_parEnd st cm1) (im_parEnd hS.fresh hl _ L1)) h3
  · rw [e, h2]

theorem cleaned_joined {t : Str} (h : Joined t) : cleaned t = t := by
  have key : ∀ u ∈ [c!"i", c!"b"], ∀ x q : Str, ¬ (c!"[/" ++ u ++ c!"]" ++ x ++ (c!"[" ++ u ++ c!"]")) <:+: t →
      Str.replace t (c!"[/" ++ u ++ c!"]" ++ x ++ (c!"[" ++ u ++ c!"]")) q = t := by
    intro u _ x q hx
    apply Str.replace_of_not_contains
    rw [contains_false_iff]
    exact hx
  unfold cleaned Rd.cleanupTags Rd.cleanupTags Rd.cleanupTags
  simp only
  obtain ⟨i1, i2, i3⟩ := h c!"i" (by simp)
  obtain ⟨b1, b2, b3⟩ := h c!"b" (by simp)
  have k1 := key c!"i" (by simp) [] [] i1
  have k2 := key c!"i" (by simp) c!"\n" c!"\n" i2
  have k3 := key c!"i" (by simp) c!"\n> " c!"\n> " i3
  have k4 := key c!"b" (by simp) [] [] b1
  have k5 := key c!"b" (by simp) c!"\n" c!"\n" b2
  have k6 := key c!"b" (by simp) c!"\n> " c!"\n> " b3
  rw [List.append_nil] at k1 k4
  rw [k1, k2, k3, k4, k5, k6]

theorem join_lines (l : Str) (r : List Str) : Str.join c!"\n" (l :: r) ++ c!"\n" = (l :: r).flatMap (· ++ c!"\n") := by
  induction r generalizing l with
  | nil => simp [Str.join]
  | cons m r ih =>
    rw [List.flatMap_cons, ← ih m]
    simp [Str.join]

/-- The paragraphs of a scene. -/
theorem group_scene {ps : List Par} (hne : ps ≠ []) (hp : ∀ p ∈ ps, p.Ok ∧ p.NoStars) (hj : Joined (wipText ps)) (hl : n0.languages = some []) (hS : Grown S)
    (hc : cid ∉ C.keys) (L : List Str) (st : Option Str) (cm : Str) :
    ∃ L' st' cm', Goes importReader (docP st cm) (wip n0 (C ++ [(cid, ch)]) S L none (some cid) false) (ps.flatMap Par.events) (docP st' cm')
        (inSc n0 (C ++ [(cid, withScene ch (Str.ofNat (S.length + 1)))]) S cid (Str.ofNat (S.length + 1)) (wipScene (S.length + 1) ps) L') := by
  cases ps with
  | nil => exact absurd rfl hne
  | cons p ps =>
    obtain ⟨L1, st1, cm1, h1, h2, h3⟩ := par_first (n0 := n0) (ch := ch) (hp p (by simp)).1 (hp p (by simp)).2 hl hS hc L st cm
    obtain ⟨L2, st2, cm2, h4, h5⟩ := pars_more (ps := ps) (fun x hx => hp x (by simp [hx])) hl hS.fresh (n0 := n0) (C := C ++ [(cid, withScene ch (Str.ofNat (S.length + 1)))]) (cid := cid)
      ({ bareScene (S.length + 1) with title := (notesTitle p.runs).or (bareScene (S.length + 1)).title }) h2 st1 cm1
    refine ⟨L2, st2, cm2, ?_⟩
    rw [List.flatMap_cons]
    have e : withText { bareScene (S.length + 1) with title := (notesTitle p.runs).or (bareScene (S.length + 1)).title } (cleaned (Str.rstrip L2.flatten)) =
        wipScene (S.length + 1) (p :: ps) := by
      have e1 : L2.flatten = Str.join c!"\n" (sceneLines (p :: ps)) ++ c!"\n" := by
        rw [h5, h3]
        unfold sceneLines
        rw [join_lines, List.flatMap_cons, List.flatMap_map]
      have e2 : Str.rstrip L2.flatten = wipText (p :: ps) := by
        rw [e1, rstrip_append_ws _ _ (by decide)]
        rfl
      rw [e2, cleaned_joined hj]
      unfold wipScene
      simp only [List.isEmpty_cons]
      have e3 : sceneTitle (p :: ps) = notesTitle p.runs := rfl
      rw [e3]
      unfold bareScene
      cases notesTitle p.runs <;> rfl
    rw [← e]
    exact h1.append h4

end Verif
