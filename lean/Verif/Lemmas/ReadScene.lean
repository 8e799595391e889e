/-
Reading the scenes, chapters and headings of an exported manuscript.
-/
import Verif.Lemmas.ReadPara
import Verif.Lemmas.Flow3
import Verif.Lemmas.Title

namespace Verif
open Spec Re

variable {ls : List Str} {author : Option Str} {type : Nat} {r0 : Rd}

/-! ### The text of a scene -/

theorem joinLines (ls' : List Str) (h : ls' ≠ []) : ls'.flatMap (fun l => l ++ c!"\n") = Str.join c!"\n" ls' ++ c!"\n" := by
  induction ls' with
  | nil => exact absurd rfl h
  | cons l r ih =>
    cases r with
    | nil => simp [Str.join]
    | cons m r =>
      rw [List.flatMap_cons, ih (by simp)]
      simp [Str.join]

theorem ReadsP.flat {α : Type} {f g : α → Str} {K : α → Str → Prop} {l : List α} (h : ∀ x ∈ l, ReadsP type r0 ls (f x) (g x) (K x)) :
    ReadsP type r0 ls (l.flatMap f) (l.flatMap g) (fun y => ∃ x ∈ l, K x y) := by
  induction l with
  | nil =>
    have e : (fun y => ∃ x ∈ ([] : List α), K x y) = NoLang := by funext y; simp [NoLang]
    rw [e]
    exact ReadsP.nil
  | cons x l ih =>
    rw [List.flatMap_cons, List.flatMap_cons]
    refine (h x (by simp)).append (ih (fun y hy => h y (by simp [hy]))) ?_
    rintro y ⟨z, hz, hy⟩
    rcases List.mem_cons.1 hz with rfl | hz
    · exact .inl hy
    · exact .inr ⟨z, hz, hy⟩

theorem Quot.flat {α : Type} {f g : α → Str} {l : List α} (h : ∀ x ∈ l, Quot (f x) (g x)) : Quot (l.flatMap f) (l.flatMap g) := by
  induction l with
  | nil => exact Quot.nil
  | cons x l ih =>
    rw [List.flatMap_cons, List.flatMap_cons]
    exact (h x (by simp)).append (ih (fun y hy => h y (by simp [hy])))

/-- The conversion of a text. -/
theorem formattedConvert_flow (hl : ∀ l ∈ ls, LangCode l) (hd : (formats ls).Nodup) (ha : AuthorOk author) {ps : List Piece} (h : Flowing ls ps) :
    formattedConvert (spanReplacements ++ commentReplacements author) ls (some (rawText ps)) false = (finalStage author ls).flat (pairs (spreadText ps)) := by
  obtain ⟨hN, ht, _⟩ := spread_nested h
  have := convert_layout hl ha hN.ok hN.neighbours
  by_cases e : rawText ps = []
  · rw [e, rawText_eq_nil e, show spreadText [] = [] from rfl]
    rfl
  · unfold formattedConvert
    split
    · rename_i e; cases e
    · rename_i e'; exact absurd (Option.some.inj e') e
    · rename_i t _ e'
      have e' := Option.some.inj e'
      subst e'
      simp only [Bool.false_eq_true, if_false]
      rw [balanceText_flow hl hd h, ht]
      exact this

/-- Writing and reading the paragraphs of a text. -/
theorem scene_paragraphs (h0 : InScene r0) (hL : ∀ l ∈ ls, LangCode l) (hd : (formats ls).Nodup) (hA : AuthorOk author) {ps0 : List Piece} (hF : Flowing ls ps0) {st : Str}
    (hs : st = indStyle ∨ st = bodyStyle) :
    ∃ s', Quot (pOpen st ++ formattedConvert (spanReplacements ++ commentReplacements author) ls (some (rawText ps0)) false ++ pEnd) s' ∧
      ReadsP type r0 ls s' (rawText (spreadText ps0) ++ c!"\n") (begun ps0) := by
  obtain ⟨hN, _, hlines⟩ := spread_nested hF
  have hbeg : ∀ x, begun ps0 x → begun (spreadText ps0) x := fun x h => spread_mem hF h
  obtain ⟨ps, hps⟩ : ∃ ps, ps = spreadText ps0 := ⟨_, rfl⟩
  have hruns : ∀ l ∈ pieceLines ps, ∀ s ∈ textRuns [] (unquoted l), s = [] ∨ ∃ c ∈ s, Str.isWs c = false := by
    rw [hps, hlines]
    exact hF.runs
  have hL' : NoBlankLang ls := by
    intro l hl e
    obtain ⟨a, b, e2, _⟩ := hL l hl
    rw [e] at e2
    simp at e2
  rw [formattedConvert_flow hL hd hA hF]
  rw [← hps] at hN hbeg ⊢
  obtain ⟨l, qs, h1, h2⟩ := paras_text author ls st (pairs ps)
  have hst := paras_styles hs (pairs ps)
  have key : ∀ q ∈ paras st (pairs ps), q.line ∈ pieceLines ps := by
    intro q hq
    rw [← paras_lines st ps]
    exact List.mem_map_of_mem hq
  have hok : ∀ q ∈ paras st (pairs ps), ∀ x ∈ q.line, x.Ok ls := fun q hq x hx => hN.ok x ((pieceLines_infix (key q hq)).subset hx)
  have hnl : ∀ q ∈ paras st (pairs ps), Piece.nl ∉ q.line := fun q hq => pieceLines_no_nl (key q hq)
  have hq1 : ∀ q ∈ paras st (pairs ps), Quot (paraText author ls q) (quotedText author ls q) := fun q hq =>
    Quot.para hA (hst q hq).1 (hst q hq).2 (hok q hq) (hnl q hq) (Neighbours.infix hN.neighbours (pieceLines_infix (key q hq)))
  have hq2 : ∀ q ∈ paras st (pairs ps), ReadsP type r0 ls (quotedText author ls q) (rawText q.line ++ c!"\n") (begun q.line) := fun q hq =>
    ReadsP.para h0 hL' hA (hst q hq).1 (hst q hq).2 (hok q hq) (hnl q hq) (hN.lines _ (key q hq)) (hruns _ (key q hq))
  have e1 : pOpen st ++ (finalStage author ls).flat (pairs ps) ++ pEnd = paraText author ls ⟨st, false, l⟩ ++ qs.flatMap (fun q => '\n' :: paraText author ls q) := by
    rw [List.append_assoc, h2]
    show _ = (pOpen st ++ lineOut author ls l ++ pEnd) ++ _
    simp only [List.append_assoc]
  have e2 : rawText ps ++ c!"\n" = (rawText l ++ c!"\n") ++ qs.flatMap (fun q => rawText q.line ++ c!"\n") := by
    have h3 := paras_lines st ps
    rw [h1] at h3
    rw [rawText_lines, ← joinLines _ (by simp [pieceLines_ne]), ← h3]
    simp only [List.map_cons, List.map_map, List.flatMap_cons, List.flatMap_map, Function.comp_apply]
  rw [h1] at hq1 hq2
  rw [e1, e2]
  refine ⟨quotedText author ls ⟨st, false, l⟩ ++ qs.flatMap (fun q => '\n' :: quotedText author ls q), ?_, ?_⟩
  · refine (hq1 _ (by simp)).append (Quot.flat (fun q hq => ?_))
    exact Quot.append (a := ['\n']) (a' := ['\n']) (Quot.lit (by decide)) (hq1 q (by simp [hq]))
  · refine (hq2 ⟨st, false, l⟩ (by simp)).append (ReadsP.flat (K := fun q => begun q.line) (fun q hq => ?_)) ?_
    · exact ReadsP.append (s1 := ['\n']) (o1 := []) (ReadsP.blank (by decide)) (hq2 q (by simp [hq])) (fun x h => .inr h)
    · intro x hx
      have hx := hbeg x hx
      obtain ⟨m, hm, hxm⟩ : ∃ m ∈ pieceLines ps, Piece.op (c!"lang=" ++ x) ∈ m := pieceLines_cover hx (by simp)
      rw [← paras_lines st ps, h1] at hm
      simp only [List.map_cons, List.mem_cons, List.mem_map] at hm
      rcases hm with rfl | ⟨q, hq, rfl⟩
      · exact .inl hxm
      · exact .inr ⟨q, hq, hxm⟩

/-! ### What is stored -/

/-- The text that is stored at the end of a scene. -/
theorem stored_text (hL : ∀ l ∈ ls, LangCode l) {ps : List Piece} (hF : Flowing ls ps) {r : Rd} {langs : List Str} (hr : r.novel.languages = some langs)
    (hl : ∀ l ∈ langs, l ∈ ls) (hb : ∀ l, begun ps l → l ∈ langs) :
    Str.rstrip (r.cleanupScene (rawText (spreadText ps) ++ c!"\n")) = rawText ps := by
  unfold Rd.cleanupScene
  rw [hr]
  show Str.rstrip (Rd.cleanupTags (c!"i" :: c!"b" :: langs.map (fun l => c!"lang=" ++ l)) _) = _
  rw [cleanup_spread hL hF hl hb]
  have : Str.rstrip (rawText ps ++ c!"\n") = Str.rstrip (rawText ps) := by
    generalize rawText ps = t
    induction t with
    | nil => rfl
    | cons c t ih =>
      unfold Str.rstrip at ih ⊢
      rw [List.cons_append]
      unfold Str.rstripBy
      rw [ih]
  rw [this, hF.tidy]

/-! ### Parts of the document -/

/-- The (finished) text takes the reader, outside of scenes, from one state to another; apart from the languages found. -/
def Steps (type : Nat) (ls : List Str) (s : Str) (r r' : Rd) : Prop :=
  ∀ cm acc langs, (∀ l ∈ langs, l ∈ ls) → ∃ cm' acc' langs', (∀ l ∈ langs', l ∈ ls) ∧
    Fed (manuscriptReader type) s acc (idleP ls cm) (rdAt r [] [] langs) acc' (idleP ls cm') (rdAt r' [] [] langs')

theorem Steps.nil (r : Rd) : Steps type ls [] r r := fun cm acc langs hl => ⟨cm, acc, langs, hl, Fed.nil _ _ _ _⟩

theorem Steps.append {s1 s2 : Str} {r r1 r2 : Rd} (h1 : Steps type ls s1 r r1) (h2 : Steps type ls s2 r1 r2) : Steps type ls (s1 ++ s2) r r2 := by
  intro cm acc langs hl
  obtain ⟨cm1, a1, langs1, hl1, f1⟩ := h1 cm acc langs hl
  obtain ⟨cm2, a2, langs2, hl2, f2⟩ := h2 cm1 a1 langs1 hl1
  exact ⟨cm2, a2, langs2, hl2, f1.append f2⟩

/-- The same for the text before the quotations are marked. -/
def Part (type : Nat) (ls : List Str) (s : Str) (r r' : Rd) : Prop := ∃ s', Quot s s' ∧ Steps type ls s' r r'

theorem Part.nil (r : Rd) : Part type ls [] r r := ⟨[], Quot.nil, Steps.nil r⟩

theorem Part.append {s1 s2 : Str} {r r1 r2 : Rd} (h1 : Part type ls s1 r r1) (h2 : Part type ls s2 r1 r2) : Part type ls (s1 ++ s2) r r2 := by
  obtain ⟨a, qa, ha⟩ := h1
  obtain ⟨b, qb, hb⟩ := h2
  exact ⟨a ++ b, qa.append qb, ha.append hb⟩

/-- Character data between paragraphs. -/
theorem Part.blank {s : Str} (hq : quotLit s = true) (hs : s.all plainChar = true) (r : Rd) : Part type ls s r r :=
  ⟨s, Quot.lit hq, fun cm acc langs hl => ⟨cm, _, langs, hl, Fed.plain hs acc _ _⟩⟩

/-- Outside of scenes, in a chapter that has a title or in no chapter. -/
structure Outside (r : Rd) : Prop where
  scene : r.scId = none
  skip : r.skipData = false
  titled : ∀ id, r.chId = some id → ∃ ch, r.novel.chapters.get? id = some ch ∧ ch.title.isSome = true

theorem outside_start {r : Rd} (h : r.scId = none) {t : Str} (ht : t ≠ c!"div" ∧ t ≠ c!"s" ∧ t ≠ c!"body") : manuscriptReader type r (.start t []) = .ok r := by
  show msStart type r t [] = _
  have e : Rd.baseStart type r t [] = .ok r := by
    unfold Rd.baseStart
    rw [if_neg ht.1, if_neg ht.2.1]
  unfold msStart
  rw [e]
  show (if r.scId.isSome = true then _ else if t = c!"body" then _ else if t = c!"s" then _ else _) = _
  rw [h, if_neg (by simp), if_neg ht.2.2, if_neg ht.2.1]

theorem outside_stop {r : Rd} (h : r.scId = none) {t : Str} (ht : t ≠ c!"div") : manuscriptReader type r (.stop t) = .ok r := by
  show msStop r t = _
  unfold msStop
  rw [h]
  simp only
  rw [if_neg (fun h => ht h.2)]

theorem outside_data {r : Rd} (h : Outside r) (L : List Str) (lang : Str) (langs : List Str) (s : Str) :
    manuscriptReader type (rdAt r L lang langs) (.data s) = .ok (rdAt r L lang langs) := by
  show msData _ s = _
  unfold msData
  have e1 : (rdAt r L lang langs).skipData = false := h.skip
  have e2 : (rdAt r L lang langs).scId.isSome = false := by show r.scId.isSome = false; rw [h.scene]; rfl
  rw [e1, e2]
  simp only [Bool.false_eq_true, if_false]
  show (match r.chId with | none => _ | some id => _) = _
  cases hc : r.chId with
  | none => rfl
  | some id =>
    obtain ⟨ch, h1, h2⟩ := h.titled id hc
    show (match r.novel.chapters.get? id with | none => _ | some ch => _) = _
    rw [h1]
    simp only
    rw [if_neg (by rw [Option.isNone_iff_eq_none]; intro e; rw [e] at h2; cases h2)]

/-- A heading or a paragraph outside of scenes: nothing happens. -/
theorem Part.heading {r : Rd} (hr : Outside r) {op e tag en : Str} {as : Dict Str} {p1 : Str → OdtP} {t : Str} (ht : Carriable t)
    (htag : tag ≠ c!"div" ∧ tag ≠ c!"s" ∧ tag ≠ c!"body") (hq1 : quotLit ('<' :: op) = true) (hq2 : quotLit ('<' :: en) = true)
    (x1 : saxRun .lt op = (.text [], [.start e as])) (x2 : ∃ acc, saxRun .lt en = (.text acc, [.stop e]))
    (s1 : ∀ cm, (idleP ls cm).step (.start e as) = .ok (p1 cm, [.start tag []]))
    (s2 : ∀ cm s, (p1 cm).step (.chars s) = .ok (p1 cm, [.data s]))
    (s3 : ∀ cm, (p1 cm).step (.stop e) = .ok (idleP ls cm, [.stop tag])) :
    Part type ls ('<' :: op ++ (t.flatMap escChar ++ '<' :: en)) r r := by
  refine ⟨'<' :: op ++ (t.flatMap escChar ++ '<' :: en), ?_, ?_⟩
  · exact (Quot.lit hq1).append ((Quot.text (escs_no_quote t) (escs_no_lt t) (escs_cr (fun hm => (ht _ hm).2 rfl))).append (Quot.lit hq2))
  · intro cm acc langs hl
    obtain ⟨a2, x2⟩ := x2
    refine ⟨cm, a2, langs, hl, ?_⟩
    have f1 : Fed (manuscriptReader type) ('<' :: op) acc (idleP ls cm) (rdAt r [] [] langs) [] (p1 cm) (rdAt r [] [] langs) :=
      Fed.tag x1 (idle_pend cm acc _) (Goes.one1 (s1 cm) (outside_start (r := rdAt r [] [] langs) hr.scene htag))
    have f2 : Fed (manuscriptReader type) (t.flatMap escChar) [] (p1 cm) (rdAt r [] [] langs) (t.reverse ++ []) (p1 cm) (rdAt r [] [] langs) :=
      Fed.esc ht [] _ _
    have g3 : Goes (manuscriptReader type) (p1 cm) (rdAt r [] [] langs) (saxPend (t.reverse ++ [])) (p1 cm) (rdAt r [] [] langs) := by
      unfold saxPend
      split
      · exact Goes.nil _ _ _
      · exact Goes.one1 (s2 cm _) (outside_data hr [] [] langs _)
    have f3 : Fed (manuscriptReader type) ('<' :: en) (t.reverse ++ []) (p1 cm) (rdAt r [] [] langs) a2 (idleP ls cm) (rdAt r [] [] langs) := by
      refine ⟨saxPend (t.reverse ++ []) ++ [.stop e], ?_, g3.append (Goes.one1 (s3 cm) (outside_stop (r := rdAt r [] [] langs) hr.scene htag.1))⟩
      rw [saxRun_lt, x2]
    exact f1.append (f2.append f3)

/-! ### Sections -/

theorem isDig_digit {c : Char} (h : Digit c) : Str.isDig c = true := by
  unfold Str.isDig
  simp only [Bool.and_eq_true, decide_eq_true_eq]
  exact h

theorem firstNumber_id {a id : Str} (ha : a.all (fun c => !Str.isDig c) = true) (h : NumId id) : Rd.firstNumber (a ++ id) = .ok id := by
  induction a with
  | nil =>
    cases id with
    | nil => exact absurd rfl h.1
    | cons c r =>
      show (if Str.isDig c then Except.ok _ else _) = _
      rw [if_pos (isDig_digit (h.2 c (by simp)))]
      have : (c :: r).takeWhile Str.isDig = c :: r := by
        have h2 : (c :: r).all Str.isDig = true := by
          rw [List.all_eq_true]
          exact fun x hx => isDig_digit (h.2 x hx)
        clear h
        generalize c :: r = l at h2
        induction l with
        | nil => rfl
        | cons x l ih =>
          rw [List.all_cons, Bool.and_eq_true] at h2
          rw [List.takeWhile_cons_of_pos h2.1, ih h2.2]
      rw [this]
  | cons c a ih =>
    rw [List.all_cons, Bool.and_eq_true] at ha
    show (if Str.isDig c then Except.ok _ else _) = _
    have : Str.isDig c = false := by simpa using ha.1
    rw [this]
    exact ih ha.2

/-- The text of the beginning of a section. -/
def secOpen (name : Str) : Str := c!"<text:section text:style-name=\"Sect1\" text:name=\"" ++ name ++ c!"\">\n"

theorem secOpen_sax {name : Str} (h : name.all plainAttr = true) : ∃ t, secOpen name = '<' :: t ∧
    saxRun .lt t = (.text c!"\n", [.start c!"text:section" [(c!"text:style-name", c!"Sect1"), (c!"text:name", name)]]) := by
  refine ⟨c!"text:section text:style-name=\"Sect1\" text:name=\"" ++ (name ++ c!"\">\n"), ?_, ?_⟩
  · unfold secOpen
    simp only [List.append_assoc, List.cons_append, List.nil_append]
  · have h1 : saxRun .lt c!"text:section text:style-name=\"Sect1\" text:name=\"" =
        (.val c!"text:section".reverse [(c!"text:style-name", c!"Sect1")] c!"text:name".reverse '"' [], []) := by decide +kernel
    have h3 : ∀ v : Str, saxRun (.val c!"text:section".reverse [(c!"text:style-name", c!"Sect1")] c!"text:name".reverse '"' (v.reverse ++ [])) c!"\">\n" =
        (.text c!"\n", [.start c!"text:section" [(c!"text:style-name", c!"Sect1"), (c!"text:name", v)]]) := by
      intro v
      rw [List.append_nil]
      have e : (List.reverse v).reverse = v := List.reverse_reverse v
      show (Sx.text c!"\n", [Ev.start _ [(_, _), (_, v.reverse.reverse)]]) = _
      rw [e]
      rfl
    rw [saxRun_comp h1 (saxRun_comp (saxRun_valPlain h _ _ _ _) (h3 _))]
    rfl

theorem secOpen_quot {pre id : Str} (hp : pre = c!"ScID:" ∨ pre = c!"ChID:") (h : NumId id) : Quot (secOpen (pre ++ id)) (secOpen (pre ++ id)) := by
  have e : secOpen (pre ++ id) = (c!"<text:section text:style-name=\"Sect1\" text:name=\"" ++ pre) ++ (id ++ c!"\">\n") := by
    unfold secOpen
    simp only [List.append_assoc]
  have h2 : ∀ d : Char, ¬ Digit d → d ∉ id := fun d hd hm => hd (h.2 d hm)
  have h1 : Quot id id := Quot.text (h2 _ (by unfold Digit; decide)) (h2 _ (by unfold Digit; decide)) (h2 _ (by unfold Digit; decide))
  rw [e]
  rcases hp with rfl | rfl
  · exact Quot.append (Quot.lit (by decide)) (h1.append (Quot.lit (by decide)))
  · exact Quot.append (Quot.lit (by decide)) (h1.append (Quot.lit (by decide)))

theorem secName_plain {pre id : Str} (hp : pre = c!"ScID:" ∨ pre = c!"ChID:") (h : NumId id) : (pre ++ id).all plainAttr = true := by
  rw [List.all_append, Bool.and_eq_true]
  refine ⟨?_, (digits_plain h.2).1⟩
  rcases hp with rfl | rfl <;> decide

/-- The end of a section. -/
def secEnd : Str := c!"</text:section>\n"

/-- What importing a scene does. -/
def sceneBack (type : Nat) (id t : Str) (n : Novel) : Novel :=
  { n with scenes := (n.scenes.modify id (fun s => { s with scType := some type })).modify id (fun s => s.setContent t) }

/-- What importing the beginning of a chapter does. -/
def chapterBack (type : Nat) (id : Str) (n : Novel) : Novel := { n with chapters := n.chapters.modify id (fun ch => { ch with chType := some type }) }

/-- The reader with another novel. -/
def atNovel (r : Rd) (n : Novel) : Rd := ⟨n, r.lines, r.scId, r.chId, r.language, r.skipData, r.elId, r.sect, r.chCount, r.scCount, r.heading⟩

/-- The reader with another scene. -/
def atScene (r : Rd) (id : Option Str) : Rd := ⟨r.novel, r.lines, id, r.chId, r.language, r.skipData, r.elId, r.sect, r.chCount, r.scCount, r.heading⟩

/-- The reader with another chapter. -/
def atChapter (r : Rd) (id : Option Str) : Rd := ⟨r.novel, r.lines, r.scId, id, r.language, r.skipData, r.elId, r.sect, r.chCount, r.scCount, r.heading⟩

theorem has_of {α : Type} {d : Dict α} {k : Str} {x : α} (h : d.get? k = some x) : d.has k = true := by
  unfold Dict.has
  rw [h]
  rfl

theorem start_scene {r : Rd} {id : Str} (hid : NumId id) {s0 : Scene} (hs : r.novel.scenes.get? id = some s0) (L : List Str) (lang : Str) (langs : List Str) :
    manuscriptReader type (rdAt r L lang langs) (.start c!"div" [(c!"id", some (c!"ScID:" ++ id))]) =
      .ok (rdAt (atScene (atNovel r { r.novel with scenes := r.novel.scenes.modify id (fun s => { s with scType := some type }) }) (some id)) L lang langs) := by
  show msStart type _ _ _ = _
  have h1 : Rd.firstNumber (c!"ScID:" ++ id) = .ok id := firstNumber_id (by decide) hid
  have h2 : r.novel.scenes.has id = true := has_of hs
  have h3 : Rd.startScene type (rdAt r L lang langs) (c!"ScID:" ++ id) =
      .ok (rdAt (atScene (atNovel r { r.novel with scenes := r.novel.scenes.modify id (fun s => { s with scType := some type }) }) (some id)) L lang langs) := by
    unfold Rd.startScene
    rw [h1]
    have h4 : (atScene (rdAt r L lang langs) (some id)).novel.scenes.has id = true := h2
    have h6 : Rd.ensureScene (atScene (rdAt r L lang langs) (some id)) id = .ok (atScene (rdAt r L lang langs) (some id)) := by
      unfold Rd.ensureScene
      rw [if_pos h4]
    show (do let r' ← Rd.ensureScene (atScene (rdAt r L lang langs) (some id)) id; r'.onScene id _) = _
    rw [h6]
    show Rd.onScene (atScene (rdAt r L lang langs) (some id)) _ _ = _
    unfold Rd.onScene
    rw [if_pos h4]
    rfl
  have h5 : Rd.baseStart type (rdAt r L lang langs) c!"div" [(c!"id", some (c!"ScID:" ++ id))] = Rd.startScene type (rdAt r L lang langs) (c!"ScID:" ++ id) := rfl
  unfold msStart
  rw [h5, h3]
  rfl

theorem start_chapter {r : Rd} (hr : r.scId = none) {id : Str} (hid : NumId id) {c0 : Chapter} (hs : r.novel.chapters.get? id = some c0) (L : List Str) (lang : Str) (langs : List Str) :
    manuscriptReader type (rdAt r L lang langs) (.start c!"div" [(c!"id", some (c!"ChID:" ++ id))]) =
      .ok (rdAt (atChapter (atNovel r (chapterBack type id r.novel)) (some id)) L lang langs) := by
  show msStart type _ _ _ = _
  have h1 : Rd.firstNumber (c!"ChID:" ++ id) = .ok id := firstNumber_id (by decide) hid
  have h2 : r.novel.chapters.has id = true := has_of hs
  have h3 : Rd.startChapter type (rdAt r L lang langs) (c!"ChID:" ++ id) =
      .ok (rdAt (atChapter (atNovel r (chapterBack type id r.novel)) (some id)) L lang langs) := by
    unfold Rd.startChapter
    rw [h1]
    show Rd.onChapter (Rd.ensureChapter _ id) id _ = _
    have h4 : (atChapter (rdAt r L lang langs) (some id)).novel.chapters.has id = true := h2
    have h6 : Rd.ensureChapter (atChapter (rdAt r L lang langs) (some id)) id = atChapter (rdAt r L lang langs) (some id) := by
      unfold Rd.ensureChapter
      rw [if_pos h4]
    show Rd.onChapter (Rd.ensureChapter (atChapter (rdAt r L lang langs) (some id)) id) id _ = _
    rw [h6]
    unfold Rd.onChapter
    rw [if_pos h4]
    rfl
  have h5 : Rd.baseStart type (rdAt r L lang langs) c!"div" [(c!"id", some (c!"ChID:" ++ id))] = Rd.startChapter type (rdAt r L lang langs) (c!"ChID:" ++ id) := rfl
  unfold msStart
  rw [h5, h3]
  show (if r.scId.isSome = true then _ else _) = _
  rw [hr]
  rfl

/-- The end of a scene. -/
theorem stop_scene {r : Rd} {id : Str} (hid : r.scId = some id) {s0 : Scene} (hs : r.novel.scenes.get? id = some s0) (hC : ∀ l ∈ ls, LangCode l)
    {ps : List Piece} (hF : Flowing ls ps) {L : List Str} (hL : L.flatten = rawText (spreadText ps) ++ c!"\n") {lang : Str} {langs : List Str}
    (hl : ∀ l ∈ langs, l ∈ ls) (hb : ∀ l, begun ps l → l ∈ langs) :
    manuscriptReader type (rdAt r L lang langs) (.stop c!"div") =
      .ok (rdAt (atScene (atNovel r { r.novel with scenes := r.novel.scenes.modify id (fun s => s.setContent (rawText ps)) }) none) [] lang langs) := by
  show msStop _ _ = _
  have e1 : (rdAt r L lang langs).scId = some id := hid
  have e2 : Str.rstrip ((rdAt r L lang langs).cleanupScene (rdAt r L lang langs).text) = rawText ps := by
    have : (rdAt r L lang langs).text = rawText (spreadText ps) ++ c!"\n" := hL
    rw [this]
    exact stored_text hC hF rfl hl hb
  have e3 : r.novel.scenes.has id = true := has_of hs
  have e4 : (rdAt r L lang langs).onScene id (fun s => s.setContent (rawText ps)) =
      .ok (rdAt (atNovel r { r.novel with scenes := r.novel.scenes.modify id (fun s => s.setContent (rawText ps)) }) L lang langs) := by
    unfold Rd.onScene
    have : (rdAt r L lang langs).novel.scenes.has id = true := e3
    rw [if_pos this]
    rfl
  unfold msStop
  rw [e1]
  simp only
  rw [if_neg (by decide), if_neg (by decide), if_neg (by decide), if_neg (by decide), if_pos trivial, e2, e4]
  rfl

theorem stop_chapter {r : Rd} (hs : r.scId = none) {id : Str} (hid : r.chId = some id) (L : List Str) (lang : Str) (langs : List Str) :
    manuscriptReader type (rdAt r L lang langs) (.stop c!"div") = .ok (rdAt (atChapter r none) L lang langs) := by
  show msStop _ _ = _
  have e1 : (rdAt r L lang langs).scId = none := hs
  have e2 : (rdAt r L lang langs).chId = some id := hid
  unfold msStop
  rw [e1]
  simp only
  rw [e2, if_pos ⟨rfl, trivial⟩]
  unfold rdAt atChapter
  simp only [hs]

/-- The section of a scene. -/
theorem Part.scene {r : Rd} (hr : Outside r) {id : Str} (hid : NumId id) {s0 : Scene} (hs : r.novel.scenes.get? id = some s0) (hL : ∀ l ∈ ls, LangCode l)
    (hd : (formats ls).Nodup) (hA : AuthorOk author) {ps : List Piece} (hF : Flowing ls ps) {st : Str} (hst : st = indStyle ∨ st = bodyStyle) :
    Part type ls (secOpen (c!"ScID:" ++ id) ++
      ((pOpen st ++ formattedConvert (spanReplacements ++ commentReplacements author) ls (some (rawText ps)) false ++ pEnd) ++ (c!"\n" ++ secEnd)))
      r (atNovel r (sceneBack type id (rawText ps) r.novel)) := by
  obtain ⟨r1, hr1⟩ : ∃ r1, r1 = atScene (atNovel r { r.novel with scenes := r.novel.scenes.modify id (fun s => { s with scType := some type }) }) (some id) := ⟨_, rfl⟩
  have hi : InScene r1 := by
    rw [hr1]
    exact ⟨rfl, hr.skip⟩
  obtain ⟨t, q1, h1⟩ := scene_paragraphs (type := type) hi hL hd hA hF hst
  refine ⟨secOpen (c!"ScID:" ++ id) ++ (t ++ (c!"\n" ++ secEnd)), (secOpen_quot (.inl rfl) hid).append (q1.append (Quot.append (Quot.lit (by decide)) (Quot.lit (by decide)))), ?_⟩
  intro cm acc langs hl
  obtain ⟨o, e1, x1⟩ := secOpen_sax (secName_plain (.inl rfl) hid)
  have f1 : Fed (manuscriptReader type) (secOpen (c!"ScID:" ++ id)) acc (idleP ls cm) (rdAt r [] [] langs) c!"\n" (idleP ls cm) (rdAt r1 [] [] langs) := by
    rw [e1]
    refine ⟨saxPend acc ++ [.start c!"text:section" [(c!"text:style-name", c!"Sect1"), (c!"text:name", c!"ScID:" ++ id)]], ?_, ?_⟩
    · rw [saxRun_lt, x1]
    · refine (idle_pend cm acc _).append (Goes.one1 rfl ?_)
      rw [hr1]
      exact start_scene hid hs [] [] langs
  obtain ⟨cm2, a2, L2, langs2, hl2, f2, e2⟩ := h1 cm c!"\n" [] langs hl
  have f3 : Fed (manuscriptReader type) c!"\n" a2 (idleP ls cm2) (rdAt r1 L2 [] langs2) (c!"\n".reverse ++ a2) (idleP ls cm2) (rdAt r1 L2 [] langs2) :=
    Fed.plain (by decide) a2 _ _
  have e5 : r1.novel.scenes.get? id = some { s0 with scType := some type } := by
    rw [hr1]
    show (r.novel.scenes.modify id _).get? id = _
    rw [Dict.get?_modify_self, hs]
    rfl
  have f4 : Fed (manuscriptReader type) secEnd (c!"\n".reverse ++ a2) (idleP ls cm2) (rdAt r1 L2 [] langs2) c!"\n" (idleP ls cm2)
      (rdAt (atNovel r (sceneBack type id (rawText ps) r.novel)) [] [] langs2) := by
    refine ⟨saxPend (c!"\n".reverse ++ a2) ++ [.stop c!"text:section"], ?_, (idle_pend cm2 _ _).append (Goes.one1 rfl ?_)⟩
    · show saxRun _ ('<' :: c!"/text:section>\n") = _
      rw [saxRun_lt]
      rfl
    · rw [stop_scene (by rw [hr1]; rfl) e5 hL hF (by rw [e2]; simp) hl2.1 (fun l h => hl2.2 l (.inr h)), hr1]
      show _ = Except.ok (rdAt (atNovel r _) [] [] langs2)
      have e : atScene r none = r := by
        unfold atScene
        rw [← hr.scene]
      unfold rdAt atNovel atScene sceneBack
      simp only [hr.scene]
  exact ⟨cm2, _, langs2, hl2.1, f1.append (f2.append (f3.append f4))⟩

end Verif
