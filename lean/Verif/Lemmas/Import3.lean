/-
Importing a work in progress: dividers, chapters, the whole document.
-/
import Verif.Lemmas.Import2

namespace Verif
open Spec

variable {n0 : Novel} {C : Dict Chapter} {S : Dict Scene} {cid : Str} {ch : Chapter}

/-! ### Dividers -/

theorem im_stars {id : Str} {s : Scene} {t : Str} (h : stars <:+: t) (L : List Str) :
    importReader (inSc n0 C S cid id s L) (.data t) = .ok (wip n0 C (S ++ [(id, s)]) L none (some cid) false) := by
  show Except.ok (imData _ _) = _
  unfold imData
  rw [if_pos ⟨rfl, (contains_iff t c!"* * *").2 h⟩]
  rfl

theorem im_parEnd_none (L : List Str) :
    importReader (wip n0 C S L none (some cid) false) (.stop c!"p") = .ok (wip n0 C S (L ++ [c!"\n"]) none (some cid) false) := rfl

/-- A divider after a scene. -/
theorem divider_after {d : Par} (hd : d.Ok) {t : Str} (ht : d.runs = [.plain t]) (h : stars <:+: t) {id : Str} (s : Scene) (L : List Str) (st : Option Str) (cm : Str) :
    ∃ L' st', Goes importReader (docP st cm) (inSc n0 C S cid id s L) d.events (docP st' cm) (wip n0 C (S ++ [(id, s)]) L' none (some cid) false) := by
  obtain ⟨st', h3⟩ := Goes.inerts (h := importReader) hd.after st cm (wip n0 C (S ++ [(id, s)]) (L ++ [c!"\n"]) none (some cid) false)
  refine ⟨L ++ [c!"\n"], st', ?_⟩
  unfold Par.events
  rw [ht, List.cons_append]
  refine Goes.cons (Goes.one1 (step_par hd.style st cm) (im_par s L)) ?_
  refine Goes.cons (Goes.chars t st cm [] (im_stars h L)) ?_
  exact Goes.cons (Goes.one1 (step_parEnd st cm) (im_parEnd_none L)) h3

/-- A divider without a scene before it. -/
theorem divider_first {d : Par} (hd : d.Ok) {t : Str} (ht : d.runs = [.plain t]) (h : stars <:+: t) (hS : Grown S) (hc : cid ∉ C.keys) (L : List Str)
    (st : Option Str) (cm : Str) :
    ∃ L' st', Goes importReader (docP st cm) (wip n0 (C ++ [(cid, ch)]) S L none (some cid) false) d.events (docP st' cm)
      (wip n0 (C ++ [(cid, withScene ch (Str.ofNat (S.length + 1)))]) (S ++ [(Str.ofNat (S.length + 1), wipScene (S.length + 1) [])]) L' none (some cid) false) := by
  obtain ⟨st', h3⟩ := Goes.inerts (h := importReader) hd.after st cm
    (wip n0 (C ++ [(cid, withScene ch (Str.ofNat (S.length + 1)))]) (S ++ [(Str.ofNat (S.length + 1), wipScene (S.length + 1) [])]) ([] ++ [c!"\n"]) none (some cid) false)
  refine ⟨[] ++ [c!"\n"], st', ?_⟩
  unfold Par.events
  rw [ht, List.cons_append]
  refine Goes.cons (Goes.one1 (step_par hd.style st cm) (im_new hS hc L)) ?_
  refine Goes.cons (Goes.chars t st cm [] (im_stars h [])) ?_
  exact Goes.cons (Goes.one1 (step_parEnd st cm) (im_parEnd_none [])) h3

/-! ### Chapters -/

/-- The scenes of a chapter (see `WipChapter.scenes`). -/
def wipSplit : List Par → List (Par × List Par) → List (List Par)
  | first, [] => if first.isEmpty then [] else [first]
  | first, (_, ps) :: r => first :: wipSplit ps r

theorem wipSplit_eq (c : WipChapter) : c.scenes = wipSplit c.first c.more := by
  unfold WipChapter.scenes
  generalize c.first = first
  generalize c.more = more
  simp only
  induction more generalizing first with
  | nil => cases first <;> rfl
  | cons m r ih =>
    rw [wipSplit, ← ih m.2]
    have e : (first :: List.map Prod.snd (m :: r)).getLast? = (m.2 :: List.map Prod.snd r).getLast? := rfl
    rw [e]
    split <;> rfl

theorem numbered_append (j : Nat) (a b : List (List Par)) : numbered j (a ++ b) = numbered j a ++ numbered (j + a.length) b := by
  induction a generalizing j with
  | nil => rfl
  | cons x a ih =>
    rw [List.cons_append, numbered, numbered, ih, List.cons_append, List.length_cons]
    congr 3
    omega

theorem numbered_length (j : Nat) (l : List (List Par)) : (numbered j l).length = l.length := by
  induction l generalizing j with
  | nil => rfl
  | cons x l ih => rw [numbered, List.length_cons, ih, List.length_cons]

theorem idsFrom_succ (j k : Nat) : idsFrom j (k + 1) = Str.ofNat (j + 1) :: idsFrom (j + 1) k := rfl

theorem numbered_keys (j : Nat) (l : List (List Par)) : Dict.keys (numbered j l) = idsFrom j l.length := by
  induction l generalizing j with
  | nil => rfl
  | cons x l ih =>
    rw [numbered, List.length_cons, idsFrom_succ, ← ih]
    rfl

theorem ids_idsFrom (a k : Nat) : ids a ++ idsFrom a k = ids (a + k) := by
  induction k generalizing a with
  | zero => simp [idsFrom]
  | succ k ih =>
    rw [idsFrom_succ, List.append_cons, ← ids_succ, ih]
    congr 1
    omega

theorem Grown.numbered (hS : Grown S) (l : List (List Par)) : Grown (S ++ Spec.numbered S.length l) := by
  unfold Grown
  rw [List.length_append, numbered_length, ← ids_idsFrom, ← hS, ← numbered_keys]
  simp [Dict.keys]

/-- A chapter with further scenes. -/
def withScenes (ch : Chapter) (l : List Str) : Chapter := { ch with srtScenes := ch.srtScenes ++ l }

theorem withScenes_cons (ch : Chapter) (a : Str) (l : List Str) : withScenes (withScene ch a) l = withScenes ch (a :: l) := by
  simp [withScenes, withScene]

/-- The paragraphs and dividers of a chapter. -/
theorem chapter_body {first : List Par} {more : List (Par × List Par)} (hf : ∀ p ∈ first, p.Ok ∧ p.NoStars)
    (hm : ∀ m ∈ more, (m.1.Ok ∧ ∃ s, m.1.runs = [.plain s] ∧ stars <:+: s) ∧ ∀ p ∈ m.2, p.Ok ∧ p.NoStars)
    (hj : ∀ ps ∈ wipSplit first more, Joined (wipText ps)) (hl : n0.languages = some []) (hS : Grown S) (hc : cid ∉ C.keys) (L : List Str)
    (st : Option Str) (cm : Str) :
    ∃ L' sc st' cm', Goes importReader (docP st cm) (wip n0 (C ++ [(cid, ch)]) S L none (some cid) false)
        (first.flatMap Par.events ++ more.flatMap (fun m => m.1.events ++ m.2.flatMap Par.events)) (docP st' cm')
        (wip n0 (C ++ [(cid, withScenes ch (idsFrom S.length (wipSplit first more).length))]) (S ++ numbered S.length (wipSplit first more)) L' sc (some cid) false) := by
  induction more generalizing first S ch L st cm with
  | nil =>
    rw [List.flatMap_nil, List.append_nil]
    cases first with
    | nil =>
      refine ⟨L, none, st, cm, ?_⟩
      have e : withScenes ch (idsFrom S.length (wipSplit [] []).length) = ch := by simp [withScenes, wipSplit, idsFrom]
      rw [e]
      have e2 : S ++ numbered S.length (wipSplit [] []) = S := by simp [wipSplit, numbered]
      rw [e2]
      exact Goes.nil _ _ _
    | cons p ps =>
      obtain ⟨L', st', cm', h1⟩ := group_scene (n0 := n0) (ch := ch) (by simp) hf (hj _ (by simp [wipSplit])) hl hS hc L st cm
      exact ⟨L', _, st', cm', h1⟩
  | cons m r ih =>
    obtain ⟨d, ps⟩ := m
    obtain ⟨⟨hd, t, ht, hst⟩, hps⟩ := hm _ (List.mem_cons_self ..)
    have key : ∃ L1 st1 cm1, Goes importReader (docP st cm) (wip n0 (C ++ [(cid, ch)]) S L none (some cid) false) (first.flatMap Par.events ++ d.events) (docP st1 cm1)
        (wip n0 (C ++ [(cid, withScene ch (Str.ofNat (S.length + 1)))]) (S ++ [(Str.ofNat (S.length + 1), wipScene (S.length + 1) first)]) L1 none (some cid) false) := by
      cases hfe : first with
      | nil =>
        obtain ⟨L1, st1, h1⟩ := divider_first (n0 := n0) (ch := ch) hd ht hst hS hc L st cm
        exact ⟨L1, st1, cm, h1⟩
      | cons p qs =>
        rw [← hfe]
        obtain ⟨L1, st1, cm1, h1⟩ := group_scene (n0 := n0) (ch := ch) (by rw [hfe]; simp) hf (hj first (by simp [wipSplit])) hl hS hc L st cm
        obtain ⟨L2, st2, h2⟩ := divider_after (n0 := n0) (C := C ++ [(cid, withScene ch (Str.ofNat (S.length + 1)))]) (S := S) (cid := cid)
          (id := Str.ofNat (S.length + 1)) hd ht hst (wipScene (S.length + 1) first) L1 st1 cm1
        exact ⟨L2, st2, cm1, h1.append h2⟩
    obtain ⟨L1, st1, cm1, h1⟩ := key
    obtain ⟨L2, sc, st2, cm2, h2⟩ := ih (first := ps) (S := S ++ [(Str.ofNat (S.length + 1), wipScene (S.length + 1) first)])
      (ch := withScene ch (Str.ofNat (S.length + 1))) hps (fun m hm' => hm m (by simp [hm'])) (fun q hq => hj q (by simp [wipSplit, hq])) (hS.snoc _) L1 st1 cm1
    refine ⟨L2, sc, st2, cm2, ?_⟩
    have e1 : first.flatMap Par.events ++ ((d, ps) :: r).flatMap (fun m => m.1.events ++ m.2.flatMap Par.events) =
        (first.flatMap Par.events ++ d.events) ++ (ps.flatMap Par.events ++ r.flatMap (fun m => m.1.events ++ m.2.flatMap Par.events)) := by
      rw [List.flatMap_cons]
      simp only [List.append_assoc]
    rw [e1]
    have e2 : wipSplit first ((d, ps) :: r) = first :: wipSplit ps r := rfl
    rw [e2, List.length_cons, idsFrom_succ, ← withScenes_cons, numbered, List.append_cons (as := S)]
    rw [List.length_append, List.length_singleton] at h2
    exact h1.append h2

theorem onChapter_wip {id : Str} (h : id ∉ C.keys) (ch : Chapter) (L : List Str) (sc chi : Option Str) (hd : Bool) (f : Chapter → Chapter) :
    Rd.onChapter (wip n0 (C ++ [(id, ch)]) S L sc chi hd) id f = .ok (wip n0 (C ++ [(id, f ch)]) S L sc chi hd) := by
  unfold Rd.onChapter
  show (if Dict.has (C ++ [(id, ch)]) id = true then
    Except.ok (Rd.mk { n0 with chapters := Dict.modify (C ++ [(id, ch)]) id f, scenes := S, srtChapters := Dict.keys (C ++ [(id, ch)]) } _ _ _ _ _ _ _ (C ++ [(id, ch)]).length _ _)
    else _) = _
  rw [if_pos (has_snoc h ch), modify_snoc h]
  simp only [wip, List.length_append, List.length_singleton, keys_snoc]

theorem im_heading {l : Nat} (hl : l = 1 ∨ l = 2) (t : Str) (hC : Grown C) (L : List Str) (sc chi : Option Str) :
    ∃ r1 r2, importReader (wip n0 C S L sc chi false) (.start ('h' :: Str.ofNat l) []) = .ok r1 ∧ importReader r1 (.data t) = .ok r2 ∧
      importReader r2 (.stop ('h' :: Str.ofNat l)) =
        .ok (wip n0 (C ++ [(Str.ofNat (C.length + 1), newWith t none l [])]) S [] none (some (Str.ofNat (C.length + 1))) false) := by
  have key : ∀ lv, Rd.mk { n0 with chapters := Dict.set C (Str.ofNat (C.length + 1)) { chType := some 0, chLevel := some lv }, scenes := S, srtChapters := C.keys ++ [Str.ofNat (C.length + 1)] } [t] none (some (Str.ofNat (C.length + 1))) [] false none none (C.length + 1) S.length true =
      wip n0 (C ++ [(Str.ofNat (C.length + 1), { chType := some 0, chLevel := some lv })]) S [t] none (some (Str.ofNat (C.length + 1))) true := by
    intro lv
    rw [hC.set]
    simp only [wip, List.length_append, List.length_singleton, keys_snoc]
  have stop : ∀ lv x, x = c!"h1" ∨ x = c!"h2" →
      importReader (wip n0 (C ++ [(Str.ofNat (C.length + 1), { chType := some 0, chLevel := some lv })]) S [t] none (some (Str.ofNat (C.length + 1))) true) (.stop x) =
        .ok (wip n0 (C ++ [(Str.ofNat (C.length + 1), { title := some t, chType := some 0, chLevel := some lv })]) S [] none (some (Str.ofNat (C.length + 1))) false) := by
    intro lv x hx
    have e : importReader (wip n0 (C ++ [(Str.ofNat (C.length + 1), { chType := some 0, chLevel := some lv })]) S [t] none (some (Str.ofNat (C.length + 1))) true) (.stop x) =
      (do
        let r ← Rd.onChapter (wip n0 (C ++ [(Str.ofNat (C.length + 1), { chType := some 0, chLevel := some lv })]) S [t] none (some (Str.ofNat (C.length + 1))) true)
          (Str.ofNat (C.length + 1)) (fun ch => { ch with title := some ([t].flatten) })
        .ok { r with lines := [], heading := false }) := by
      rcases hx with rfl | rfl <;> rfl
    rw [e, onChapter_wip hC.fresh]
    simp only [List.flatten_cons, List.flatten_nil, List.append_nil]
    rfl
  rcases hl with rfl | rfl
  · refine ⟨_, _, rfl, rfl, ?_⟩
    refine Eq.trans (congrArg (fun r => importReader r (.stop c!"h1")) (key 1)) ?_
    rw [stop 1 c!"h1" (.inl rfl)]
    rfl
  · refine ⟨_, _, rfl, rfl, ?_⟩
    refine Eq.trans (congrArg (fun r => importReader r (.stop c!"h2")) (key 0)) ?_
    rw [stop 0 c!"h2" (.inr rfl)]
    rfl

/-- A chapter. -/
theorem chapter_goes {c : WipChapter} (hc : c.Ok) (hj : ∀ ps ∈ c.scenes, Joined (wipText ps)) (hl : n0.languages = some []) (hC : Grown C) (hS : Grown S) (L : List Str)
    (sc chi : Option Str) (st : Option Str) (cm : Str) :
    ∃ L' sc' chi' st' cm', Goes importReader (docP st cm) (wip n0 C S L sc chi false) c.events (docP st' cm')
      (wip n0 (C ++ [(Str.ofNat (C.length + 1), newWith c.head.text none c.head.level (idsFrom S.length c.scenes.length))])
        (S ++ numbered S.length c.scenes) L' sc' chi' false) := by
  obtain ⟨r1, r2, g1, g2, g3⟩ := im_heading (n0 := n0) (S := S) hc.level c.head.text hC L sc chi
  obtain ⟨st1, h1⟩ := Goes.heading hc.after st cm g1 g2 g3
  rw [wipSplit_eq] at hj ⊢
  obtain ⟨L', sc', st2, cm2, h2⟩ := chapter_body (n0 := n0) (ch := newWith c.head.text none c.head.level []) hc.first hc.more hj hl hS hC.fresh [] st1 cm
  exact ⟨L', sc', _, st2, cm2, h1.append h2⟩

/-- All chapters. -/
theorem chapters_go {cs : List WipChapter} (hc : ∀ c ∈ cs, c.Ok) (hj : ∀ c ∈ cs, ∀ ps ∈ c.scenes, Joined (wipText ps)) (hl : n0.languages = some []) (hC : Grown C)
    (hS : Grown S) (L : List Str) (sc chi : Option Str) (st : Option Str) (cm : Str) :
    ∃ L' sc' chi' st' cm', Goes importReader (docP st cm) (wip n0 C S L sc chi false) (cs.flatMap WipChapter.events) (docP st' cm')
      (wip n0 (C ++ wipChapters C.length S.length cs) (S ++ numbered S.length (cs.flatMap WipChapter.scenes)) L' sc' chi' false) := by
  induction cs generalizing C S L sc chi st cm with
  | nil =>
    refine ⟨L, sc, chi, st, cm, ?_⟩
    rw [List.flatMap_nil, List.flatMap_nil]
    simp only [wipChapters, numbered, List.append_nil]
    exact Goes.nil _ _ _
  | cons c cs ih =>
    obtain ⟨L1, sc1, chi1, st1, cm1, h1⟩ := chapter_goes (n0 := n0) (hc c (by simp)) (hj c (by simp)) hl hC hS L sc chi st cm
    obtain ⟨L2, sc2, chi2, st2, cm2, h2⟩ := ih (fun x hx => hc x (by simp [hx])) (fun x hx => hj x (by simp [hx])) (hC.snoc _) (hS.numbered c.scenes) L1 sc1 chi1 st1 cm1
    refine ⟨L2, sc2, chi2, st2, cm2, ?_⟩
    rw [List.flatMap_cons, List.flatMap_cons, wipChapters, numbered_append, List.append_cons, ← List.append_assoc]
    rw [List.length_append, List.length_append, List.length_singleton, numbered_length] at h2
    exact h1.append h2

/-! ### Document properties -/

theorem metaField_some (name : Str) (m : XNode) (root : XNode) (h : XNode.find c!"office:meta" root.kids = some m) : metaField name m = infoField name (some root) := by
  unfold metaField infoField
  simp only [h, Option.bind_some]
  cases XNode.find name m.kids with
  | none => rfl
  | some e =>
    cases e with
    | text s => rfl
    | elem t a ks =>
      cases ks with
      | nil => rfl
      | cons k ks =>
        cases k with
        | elem t a b => rfl
        | text s => cases s <;> rfl

/-- What importing readers have in common. -/
structure Imports (h : Reader) (f : Str → Str) : Prop where
  body : ∀ r as, h r (.start c!"body" as) = .ok (r.startBody as)
  info : ∀ r as, h r (.start c!"meta" as) = .ok (startMeta r as)
  title : ∀ r, h r (.start c!"title" []) = .ok { r with lines := [] }
  titleEnd : ∀ r : Rd, h r (.stop c!"title") = .ok { r with novel := { r.novel with title := some (f r.text) } }
  data : ∀ (r : Rd) s, r.scId = none → h r (.data s) = .ok (r.push s)

theorem import_imports : Imports importReader id where
  body _ _ := rfl
  info _ _ := rfl
  title _ := rfl
  titleEnd _ := rfl
  data r s h := by
    show Except.ok (imData r s) = _
    unfold imData
    rw [h, if_neg (by simp)]

theorem outline_imports : Imports outlineReader Str.strip where
  body _ _ := rfl
  info _ _ := rfl
  title _ := rfl
  titleEnd _ := rfl
  data _ _ _ := rfl

theorem startBody_wip (L : List Str) (a b : Option Str) :
    ∃ lc cc, Rd.startBody (wip n0 C S L none none false) [(c!"language", a), (c!"country", b)] =
      wip { n0 with languageCode := lc, countryCode := cc } C S L none none false := by
  rcases a with _ | _ | ⟨x, a⟩ <;> rcases b with _ | _ | ⟨y, b⟩
  · exact ⟨n0.languageCode, n0.countryCode, rfl⟩
  · exact ⟨n0.languageCode, n0.countryCode, rfl⟩
  · exact ⟨n0.languageCode, some (y :: b), rfl⟩
  · exact ⟨n0.languageCode, n0.countryCode, rfl⟩
  · exact ⟨n0.languageCode, n0.countryCode, rfl⟩
  · exact ⟨n0.languageCode, some (y :: b), rfl⟩
  · exact ⟨some (x :: a), n0.countryCode, rfl⟩
  · exact ⟨some (x :: a), n0.countryCode, rfl⟩
  · exact ⟨some (x :: a), some (y :: b), rfl⟩

theorem styles_wip {h : Reader} {f : Str → Str} (hh : Imports h f) {x : XNode} {cs : List Call} (hx : stylesCalls x = .ok cs) (L : List Str) :
    ∃ lc cc, h.run (wip n0 C S L none none false) cs = .ok (wip { n0 with languageCode := lc, countryCode := cc } C S L none none false) := by
  unfold stylesCalls at hx
  split at hx
  · cases hx
  · rename_i s _
    generalize XNode.sel c!"style:default-style" s.kids = l at hx
    induction l with
    | nil =>
      cases hx
      exact ⟨n0.languageCode, n0.countryCode, rfl⟩
    | cons x l ih =>
      unfold styleCalls at hx
      split at hx
      · split at hx
        · cases hx
        · rename_i t _
          cases hx
          obtain ⟨lc, cc, e⟩ := startBody_wip (n0 := n0) (C := C) (S := S) L (t.attr c!"fo:language") (t.attr c!"fo:country")
          refine ⟨lc, cc, ?_⟩
          unfold Reader.run
          rw [hh.body, e]
          rfl
      · exact ih hx

theorem info_wip {h : Reader} {f : Str → Str} (hh : Imports h f) {i : Option XNode} {cs : List Call} (hx : infoCalls i = .ok cs) (L : List Str) :
    ∃ L', h.run (wip n0 C S L none none false) cs =
      .ok (wip { n0 with title := ((infoField c!"dc:title" i).map f).or n0.title, authorName := (infoField c!"meta:initial-creator" i).or n0.authorName, desc := (infoField c!"dc:description" i).or n0.desc } C S L' none none false) := by
  cases i with
  | none =>
    cases hx
    exact ⟨L, rfl⟩
  | some x =>
    replace hx : metaCalls x = .ok cs := hx
    unfold metaCalls at hx
    split at hx
    · cases hx
    · rename_i m hm
      injection hx with hx
      subst hx
      rw [metaField_some _ m x hm, metaField_some _ m x hm, metaField_some _ m x hm]
      have h1 : ∃ L', h.run (wip n0 C S L none none false) (match infoField c!"dc:title" (some x) with | some t => [.start c!"title" [], .data t, .stop c!"title"] | none => []) =
          .ok (wip { n0 with title := ((infoField c!"dc:title" (some x)).map f).or n0.title } C S L' none none false) := by
        cases infoField c!"dc:title" (some x) with
        | none => exact ⟨L, rfl⟩
        | some t =>
          refine ⟨[t], ?_⟩
          have e1 : h (wip n0 C S L none none false) (.start c!"title" []) = .ok (wip n0 C S [] none none false) := hh.title _
          have e2 : h (wip n0 C S [] none none false) (.data t) = .ok (wip n0 C S [t] none none false) := hh.data _ _ rfl
          have e3 : h (wip n0 C S [t] none none false) (.stop c!"title") = .ok (wip { n0 with title := some (f t) } C S [t] none none false) := by
            rw [hh.titleEnd]
            show Except.ok (wip { n0 with title := some (f [t].flatten) } C S [t] none none false) = _
            simp
          simp only [Reader.run, e1, bind, Except.bind, e2, e3]
          rfl
      obtain ⟨L', h1⟩ := h1
      refine ⟨L', ?_⟩
      refine reader_run_append (reader_run_append h1 (r2 := wip { n0 with title := ((infoField c!"dc:title" (some x)).map f).or n0.title, authorName := (infoField c!"meta:initial-creator" (some x)).or n0.authorName } C S L' none none false) ?_) ?_
      · cases infoField c!"meta:initial-creator" (some x) with
        | none => rfl
        | some t =>
          simp only [Reader.run, hh.info]
          rfl
      · cases infoField c!"dc:description" (some x) with
        | none => rfl
        | some t =>
          simp only [Reader.run, hh.info]
          rfl

/-- Reading a document: first the properties, then the contents. -/
theorem read_document {h : Reader} {f : Str → Str} (hh : Imports h f) {x : XNode} {i : Option XNode} {a b : List Call} (ha : stylesCalls x = .ok a)
    (hb : infoCalls i = .ok b) (n : Novel) (h1 : n.chapters = []) (h2 : n.scenes = []) (h3 : n.srtChapters = []) :
    ∃ L lc cc, ∀ evs p' r',
      Goes h (docP none []) (wip { n with languageCode := lc, countryCode := cc, title := ((infoField c!"dc:title" i).map f).or n.title, authorName := (infoField c!"meta:initial-creator" i).or n.authorName, desc := (infoField c!"dc:description" i).or n.desc } [] [] L none none false) evs p' r' →
      readOdt h ⟨x, i, evs⟩ n = .ok r'.novel := by
  obtain ⟨lc, cc, e1⟩ := styles_wip (n0 := n) (C := []) (S := []) hh ha []
  obtain ⟨L, e2⟩ := info_wip (n0 := { n with languageCode := lc, countryCode := cc }) (C := []) (S := []) hh hb []
  refine ⟨L, lc, cc, ?_⟩
  intro evs p' r' hg
  obtain ⟨calls, g1, g2⟩ := hg
  have e0 : ({ novel := n } : Rd) = wip n [] [] [] none none false := by
    unfold wip
    obtain ⟨⟩ := n
    cases h1
    cases h2
    cases h3
    rfl
  unfold readOdt feedFile
  simp only [ha, hb, bind, Except.bind]
  have g1' : OdtP.run {} evs = .ok (p', calls) := g1
  rw [g1']
  simp only
  have e3 := reader_run_append (reader_run_append e1 e2) g2
  rw [e0, e3]

end Verif
