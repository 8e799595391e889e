/-
What the lines of the exported document show (C56).
-/
import Verif.Lemmas.Book6
import Verif.Lemmas.XrefDoc2

namespace Verif.Book
open Spec Re

variable {ls : List Str} {author : Option Str}

/-- Characters with styles. -/
def chs (S : List Str) (t : Str) : List Shown := t.map (Shown.ch · S)

theorem shownAll_append (S : List Str) (a b : List XNode) : shownAll S (a ++ b) = shownAll S a ++ shownAll S b := by
  induction a with
  | nil => rfl
  | cons k a ih => simp only [List.cons_append, shownAll, ih, List.append_assoc]

theorem shownAll_textNode (S : List Str) (acc : Str) : shownAll S (textNode acc) = chs S acc.reverse := by
  unfold textNode
  split
  · rename_i h; subst h; rfl
  · simp [shownAll, shownIn, chs]

theorem chs_append (S : List Str) (a b : Str) : chs S (a ++ b) = chs S a ++ chs S b := List.map_append

/-- The styles of open formattings. -/
def stk (ls : List Str) (st : List Str) : List Str := st.reverse.map (formatStyle ls)

theorem stk_cons (t : Str) (st : List Str) : stk ls (t :: st) = stk ls st ++ [formatStyle ls t] := by
  unfold stk
  rw [List.reverse_cons, List.map_append]
  rfl

/-- A piece of the content of a paragraph: it shows `sh`, which depends on the formattings around it. -/
def Show (ls : List Str) (s : Str) (sh : List Str → List Shown) : Prop :=
  '\r' ∉ s ∧ ∀ acc, ∃ ns acc', Renders s acc ns acc' ∧ ∀ st, shownAll (stk ls st) ns ++ chs (stk ls st) acc'.reverse = chs (stk ls st) acc.reverse ++ sh st

theorem Show.congr {s : Str} {f g : List Str → List Shown} (h : Show ls s f) (e : ∀ st, f st = g st) : Show ls s g := by
  have : f = g := funext e
  rw [← this]
  exact h

theorem Show.nil : Show ls [] (fun _ => []) := ⟨by simp, fun acc => ⟨[], acc, Renders.nil acc, fun st => by simp [shownAll]⟩⟩

theorem Show.append {s1 s2 : Str} {f1 f2 : List Str → List Shown} (h1 : Show ls s1 f1) (h2 : Show ls s2 f2) : Show ls (s1 ++ s2) (fun st => f1 st ++ f2 st) := by
  refine ⟨by rw [List.mem_append]; exact fun h => h.elim h1.1 h2.1, ?_⟩
  intro acc
  obtain ⟨n1, a1, r1, e1⟩ := h1.2 acc
  obtain ⟨n2, a2, r2, e2⟩ := h2.2 a1
  refine ⟨n1 ++ n2, a2, r1.append r2, ?_⟩
  intro st
  rw [shownAll_append, List.append_assoc, e2, ← List.append_assoc, e1, List.append_assoc]

theorem Show.esc {t : Str} (h : Carriable t) : Show ls (t.flatMap escChar) (fun st => chs (stk ls st) t) := by
  refine ⟨esc_cr h, fun acc => ⟨[], t.reverse ++ acc, saxRun_esc h acc, ?_⟩⟩
  intro st
  show [] ++ _ = _
  rw [List.nil_append, List.reverse_append, List.reverse_reverse, chs_append]

/-- An element inside a paragraph. -/
theorem Show.elem {start stop t body a2 : Str} {as : Dict Str} {sh : List Str → List Shown} (hc : '\r' ∉ start ++ (body ++ stop))
    (x1 : saxRun .lt start = (.text [], [.start t as])) {ks : List XNode} {a1 : Str} (hb : Renders body [] ks a1) (x3 : saxRun .lt stop = (.text a2, [.stop t])) (ha : a2 = [])
    (hs : ∀ st, shownIn (stk ls st) (.elem t as (ks ++ textNode a1)) = sh st) : Show ls ('<' :: start ++ (body ++ '<' :: stop)) sh := by
  subst ha
  refine ⟨?_, ?_⟩
  · simp only [List.mem_append, List.mem_cons, not_or] at hc ⊢
    exact ⟨⟨by decide, hc.1⟩, hc.2.1, by decide, hc.2.2⟩
  · intro acc
    refine ⟨_, [], Renders.elem (a0 := acc) x1 hb x3, ?_⟩
    intro st
    rw [shownAll_append, shownAll_textNode]
    show _ ++ (shownIn _ (.elem t as (ks ++ textNode a1)) ++ []) ++ chs _ [] = _
    rw [hs st]
    simp [chs]

/-! ### Spans -/

theorem langOp_at (i : Nat) {rs : List Str} {l : Str} (h : l ∈ rs) : langOp i rs (c!"lang=" ++ l) = langSpan (i + rs.idxOf l) := by
  induction rs generalizing i with
  | nil => cases h
  | cons r rs ih =>
    unfold langOp
    by_cases hr : r = l
    · subst hr
      rw [if_pos rfl, List.idxOf_cons_self]
      rfl
    · have hm : l ∈ rs := by
        rcases List.mem_cons.1 h with h | h
        · exact absurd h.symm hr
        · exact h
      rw [if_neg (fun e => hr (List.append_cancel_left e).symm), ih (i + 1) hm]
      have e : (r :: rs).idxOf l = rs.idxOf l + 1 := by rw [List.idxOf_cons, (by simpa using hr : (r == l) = false)]; rfl
      rw [e]
      congr 1
      omega

theorem op_style {t : Str} (ht : t ∈ formats ls) : opText ls t = c!"<text:span text:style-name=\"" ++ formatStyle ls t ++ c!"\">" := by
  unfold formatStyle opText
  split
  · rfl
  rename_i hi
  split
  · rfl
  rename_i hb
  unfold formats at ht
  rcases List.mem_cons.1 ht with rfl | ht
  · exact absurd rfl hi
  rcases List.mem_cons.1 ht with rfl | ht
  · exact absurd rfl hb
  obtain ⟨l, hl, rfl⟩ := List.mem_map.1 ht
  rw [langOp_at 1 hl]
  have e : (c!"lang=" ++ l).drop 5 = l := rfl
  rw [e]
  unfold languageStyleName position langSpan
  rw [show 1 + ls.idxOf l = ls.idxOf l + 1 by omega]
  simp only [List.append_assoc]
  rfl

theorem formatStyle_plain {t : Str} : (formatStyle ls t).all plainAttr = true := by
  unfold formatStyle
  split
  · decide
  split
  · decide
  · unfold languageStyleName
    rw [List.all_append, (digits_plain (digits_ofNat _)).1]
    decide

theorem attr_start {σ : Sx} {pre raw v n a : Str} {as : Dict Str} (hv : Val raw v) (h : saxRun σ pre = (.val n as a '"' [], [])) {r : Str} {res : Sx × List Ev}
    (h2 : saxRun (.val n as a '"' v.reverse) r = res) : saxRun σ (pre ++ (raw ++ r)) = res := by
  obtain ⟨r1, r2⟩ := res
  have y2 := hv.2 n as a []
  rw [List.append_nil] at y2
  have := saxRun_comp h (saxRun_comp y2 h2)
  rw [this]
  simp

theorem span_start {f : Str} (hv : Val f f) : saxRun .lt (c!"text:span text:style-name=\"" ++ (f ++ c!"\">")) = (.text [], [.start c!"text:span" [(c!"text:style-name", f)]]) := by
  have y1 : saxRun .lt c!"text:span text:style-name=\"" = (.val c!"text:span".reverse [] c!"text:style-name".reverse '"' [], []) := by decide +kernel
  have y3 : saxRun (.val c!"text:span".reverse [] c!"text:style-name".reverse '"' f.reverse) c!"\">" = (.text [], [.start c!"text:span" [(c!"text:style-name", f.reverse.reverse)]]) := rfl
  rw [List.reverse_reverse] at y3
  exact attr_start hv y1 y3

theorem Show.span {t : Str} (ht : t ∈ formats ls) {body : Str} {sh : List Str → List Shown} (h : Show ls body sh) :
    Show ls (opText ls t ++ (body ++ spanEnd)) (fun st => sh (t :: st)) := by
  have hv : Val (formatStyle ls t) (formatStyle ls t) := Val.lit formatStyle_plain
  obtain ⟨ks, a1, hr, hs⟩ := h.2 []
  have e : opText ls t ++ (body ++ spanEnd) = '<' :: (c!"text:span text:style-name=\"" ++ (formatStyle ls t ++ c!"\">")) ++ (body ++ '<' :: c!"/text:span>") := by
    rw [op_style ht]
    generalize formatStyle ls t = f
    unfold spanEnd
    simp only [List.append_assoc, List.cons_append, List.nil_append]
  rw [e]
  refine Show.elem ?_ (span_start hv) hr (a2 := []) (by decide +kernel) rfl ?_
  · simp only [List.mem_append, not_or]
    exact ⟨⟨by decide, hv.1, by decide⟩, h.1, by decide⟩
  · intro st
    unfold shownIn
    rw [if_pos rfl]
    have e2 : (Dict.get? [(c!"text:style-name", formatStyle ls t)] c!"text:style-name").getD [] = formatStyle ls t := by simp [Dict.get?]
    have e3 := hs (t :: st)
    rw [stk_cons] at e3
    rw [e2, shownAll_append, shownAll_textNode, e3]
    rfl

/-! ### Comments, footnotes, endnotes -/

theorem author_plain (ha : AuthorOk author) : (pyStr author).all plainChar = true := by
  rw [List.all_eq_true]
  intro c hc
  obtain ⟨h1, h2⟩ := ha c hc
  unfold plainChar
  simp only [List.mem_cons, not_or] at h2
  simp [h1, h2]

theorem Show.comment (ha : AuthorOk author) {s : Str} (hs : Carriable s) :
    Show ls (noteStart author ++ s.flatMap escChar ++ noteEnd) (fun _ => [.comment (pyStr author) s]) := by
  have hA := author_plain ha
  have r1 : Renders (pyStr author) [] [] ((pyStr author).reverse ++ []) := Renders.plain hA []
  have r2 : Renders (s.flatMap escChar) [] [] (s.reverse ++ []) := saxRun_esc hs []
  have k1 := Renders.elem (a0 := []) (start := c!"dc:creator>") (stop := c!"/dc:creator>") (t := c!"dc:creator") (as := []) (a2 := []) (by decide +kernel) r1 (by decide +kernel)
  have k2 := Renders.elem (a0 := []) (start := c!"text:p>") (stop := c!"/text:p>") (t := c!"text:p") (as := []) (a2 := []) (by decide +kernel) r2 (by decide +kernel)
  have k := k1.append k2
  have e : noteStart author ++ s.flatMap escChar ++ noteEnd = '<' :: c!"office:annotation>" ++ (('<' :: c!"dc:creator>" ++ (pyStr author ++ '<' :: c!"/dc:creator>") ++
      ('<' :: c!"text:p>" ++ (s.flatMap escChar ++ '<' :: c!"/text:p>"))) ++ '<' :: c!"/office:annotation>") := by
    unfold noteStart noteEnd
    simp only [List.append_assoc, List.cons_append, List.nil_append]
  rw [e]
  refine Show.elem ?_ (t := c!"office:annotation") (as := []) (by decide +kernel) k (a2 := []) (by decide +kernel) rfl ?_
  · have h1 : '\r' ∉ pyStr author := fun hm => absurd (List.all_eq_true.1 hA _ hm) (by decide)
    have h2 : '\r' ∉ s.flatMap escChar := esc_cr hs
    simp only [List.mem_append, List.mem_cons, not_or]
    exact ⟨by decide, ⟨⟨⟨by decide, by decide⟩, h1, by decide, by decide⟩, ⟨by decide, by decide⟩, h2, by decide, by decide⟩, by decide⟩
  · intro st
    unfold shownIn
    rw [if_neg (by decide), if_pos rfl]
    have tn : ∀ x : Str, textsIn (textNode (x.reverse ++ [])) = x := by
      intro x
      rw [(textsIn_textNode _).1, List.append_nil, List.reverse_reverse]
    have e1 : textsIn (inside c!"dc:creator" (textNode [] ++ [.elem c!"dc:creator" [] ([] ++ textNode ((pyStr author).reverse ++ []))] ++
        (textNode [] ++ [.elem c!"text:p" [] ([] ++ textNode (s.reverse ++ []))]) ++ textNode [])) = pyStr author := by
      show textsIn ((if c!"dc:creator" = c!"dc:creator" then _ else _) ++ ((if c!"text:p" = c!"dc:creator" then _ else []) ++ [])) = _
      rw [if_pos rfl, if_neg (by decide)]
      simp only [List.nil_append, List.append_nil]
      have := tn (pyStr author)
      rwa [List.append_nil] at this
    have e2 : textsIn (inside c!"text:p" (textNode [] ++ [.elem c!"dc:creator" [] ([] ++ textNode ((pyStr author).reverse ++ []))] ++
        (textNode [] ++ [.elem c!"text:p" [] ([] ++ textNode (s.reverse ++ []))]) ++ textNode [])) = s := by
      show textsIn ((if c!"dc:creator" = c!"text:p" then _ else []) ++ ((if c!"text:p" = c!"text:p" then _ else []) ++ [])) = _
      rw [if_pos rfl, if_neg (by decide)]
      simp only [List.nil_append, List.append_nil]
      have := tn s
      rwa [List.append_nil] at this
    rw [e1, e2]

/-- The class of a note. -/
def noteClass (s : Str) : Str := if c!"@fn " <+: s then c!"footnote" else c!"endnote"
/-- The paragraph style of a note. -/
def noteStyle (s : Str) : Str := if c!"@fn " <+: s then c!"Footnote" else c!"Endnote"

theorem Show.foot (k : Nat) {s : Str} (hs : Carriable s) :
    Show ls (noteText k s) (fun _ => [.note (c!"ftn" ++ Str.ofNat (k + 1)) (noteClass s) (Str.ofNat (k + 1)) (s.drop 4)]) := by
  have hd : Carriable (s.drop 4) := fun c hc => hs c (List.mem_of_mem_drop hc)
  have hN : Val (Str.ofNat (k + 1)) (Str.ofNat (k + 1)) := Val.lit (digits_plain (digits_ofNat _)).1
  have hI : Val (c!"ftn" ++ Str.ofNat (k + 1)) (c!"ftn" ++ Str.ofNat (k + 1)) := Val.append (Val.lit (by decide)) hN
  have hC : Val (noteClass s) (noteClass s) := by
    unfold noteClass
    split
    · exact Val.lit (by decide)
    · exact Val.lit (by decide)
  have hS : Val (noteStyle s) (noteStyle s) := by
    unfold noteStyle
    split
    · exact Val.lit (by decide)
    · exact Val.lit (by decide)
  have x1 : saxRun .lt (c!"text:note text:id=\"" ++ ((c!"ftn" ++ Str.ofNat (k + 1)) ++ (c!"\" text:note-class=\"" ++ (noteClass s ++ c!"\">")))) =
      (.text [], [.start c!"text:note" [(c!"text:id", c!"ftn" ++ Str.ofNat (k + 1)), (c!"text:note-class", noteClass s)]]) := by
    generalize c!"ftn" ++ Str.ofNat (k + 1) = id at hI
    generalize noteClass s = cl at hC
    have y1 : saxRun .lt c!"text:note text:id=\"" = (.val c!"text:note".reverse [] c!"text:id".reverse '"' [], []) := by decide +kernel
    refine attr_start hI y1 ?_
    have y2 : saxRun (.val c!"text:note".reverse [] c!"text:id".reverse '"' id.reverse) c!"\" text:note-class=\"" =
        (.val c!"text:note".reverse [(c!"text:id", id.reverse.reverse)] c!"text:note-class".reverse '"' [], []) := rfl
    rw [List.reverse_reverse] at y2
    refine attr_start hC y2 ?_
    have y3 : saxRun (.val c!"text:note".reverse [(c!"text:id", id)] c!"text:note-class".reverse '"' cl.reverse) c!"\">" =
      (.text [], [.start c!"text:note" [(c!"text:id", id), (c!"text:note-class", cl.reverse.reverse)]]) := rfl
    rw [List.reverse_reverse] at y3
    exact y3
  have x2 : saxRun .lt (c!"text:note-citation text:label=\"" ++ (Str.ofNat (k + 1) ++ c!"\">")) = (.text [], [.start c!"text:note-citation" [(c!"text:label", Str.ofNat (k + 1))]]) := by
    generalize Str.ofNat (k + 1) = id at hN
    have y1 : saxRun .lt c!"text:note-citation text:label=\"" = (.val c!"text:note-citation".reverse [] c!"text:label".reverse '"' [], []) := by decide +kernel
    refine attr_start hN y1 ?_
    have y3 : saxRun (.val c!"text:note-citation".reverse [] c!"text:label".reverse '"' id.reverse) c!"\">" =
      (.text [], [.start c!"text:note-citation" [(c!"text:label", id.reverse.reverse)]]) := rfl
    rw [List.reverse_reverse] at y3
    exact y3
  have x3 : saxRun .lt (c!"text:p text:style-name=\"" ++ (noteStyle s ++ c!"\">")) = (.text [], [.start c!"text:p" [(c!"text:style-name", noteStyle s)]]) := by
    generalize noteStyle s = f at hS
    have y1 : saxRun .lt c!"text:p text:style-name=\"" = (.val c!"text:p".reverse [] c!"text:style-name".reverse '"' [], []) := by decide +kernel
    refine attr_start hS y1 ?_
    have y3 : saxRun (.val c!"text:p".reverse [] c!"text:style-name".reverse '"' f.reverse) c!"\">" = (.text [], [.start c!"text:p" [(c!"text:style-name", f.reverse.reverse)]]) := rfl
    rw [List.reverse_reverse] at y3
    exact y3
  have r1 : Renders c!"*" [] [] (c!"*".reverse ++ []) := Renders.plain (by decide) []
  have r2 : Renders ((s.drop 4).flatMap escChar) [] [] ((s.drop 4).reverse ++ []) := saxRun_esc hd []
  have k1 := Renders.elem (a0 := []) (stop := c!"/text:note-citation>") (a2 := []) x2 r1 (by decide +kernel)
  have k2 := Renders.elem (a0 := []) (stop := c!"/text:p>") (a2 := []) x3 r2 (by decide +kernel)
  have k3 := Renders.elem (a0 := []) (start := c!"text:note-body>") (stop := c!"/text:note-body>") (t := c!"text:note-body") (as := []) (a2 := []) (by decide +kernel) k2 (by decide +kernel)
  have k' := k1.append k3
  have e : noteText k s = '<' :: (c!"text:note text:id=\"" ++ ((c!"ftn" ++ Str.ofNat (k + 1)) ++ (c!"\" text:note-class=\"" ++ (noteClass s ++ c!"\">")))) ++
      (('<' :: (c!"text:note-citation text:label=\"" ++ (Str.ofNat (k + 1) ++ c!"\">")) ++ (c!"*" ++ '<' :: c!"/text:note-citation>") ++
        ('<' :: c!"text:note-body>" ++ (('<' :: (c!"text:p text:style-name=\"" ++ (noteStyle s ++ c!"\">")) ++ ((s.drop 4).flatMap escChar ++ '<' :: c!"/text:p>")) ++ '<' :: c!"/text:note-body>"))) ++
        '<' :: c!"/text:note>") := by
    unfold Book.noteText noteClass noteStyle
    simp only
    generalize (if c!"@fn " <+: s then c!"footnote" else c!"endnote") = a
    generalize (if c!"@fn " <+: s then c!"Footnote" else c!"Endnote") = b
    generalize (s.drop 4).flatMap escChar = d
    simp only [List.append_assoc, List.cons_append, List.nil_append]
  rw [e]
  refine Show.elem ?_ x1 k' (a2 := []) (by decide +kernel) rfl ?_
  · have h2 : '\r' ∉ (s.drop 4).flatMap escChar := esc_cr hd
    simp only [List.mem_append, List.mem_cons, not_or]
    have hI' := hI.1
    simp only [List.mem_append, List.mem_cons, not_or] at hI'
    refine ⟨⟨by decide, hI', by decide, hC.1, by decide⟩, ⟨⟨⟨by decide, by decide, hN.1, by decide⟩, by decide, by decide⟩, ⟨by decide, by decide⟩,
      ⟨⟨by decide, by decide, hS.1, by decide⟩, h2, by decide, by decide⟩, by decide, by decide⟩, by decide⟩
  · intro st
    unfold shownIn
    rw [if_neg (by decide), if_neg (by decide), if_pos rfl]
    generalize Str.ofNat (k + 1) = N
    generalize noteClass s = cl
    generalize noteStyle s = sy
    refine congrArg (fun x => [x]) ?_
    have g1 : (Dict.get? [(c!"text:id", c!"ftn" ++ N), (c!"text:note-class", cl)] c!"text:id").getD [] = c!"ftn" ++ N := by simp [Dict.get?]
    have g2 : (Dict.get? [(c!"text:id", c!"ftn" ++ N), (c!"text:note-class", cl)] c!"text:note-class").getD [] = cl := by simp [Dict.get?]
    rw [g1, g2]
    have tn : textsIn (textNode ((s.drop 4).reverse ++ [])) = s.drop 4 := by
      rw [(textsIn_textNode _).1, List.append_nil, List.reverse_reverse]
    have cong : ∀ {x x' y y' : Str}, x = x' → y = y' → Shown.note (c!"ftn" ++ N) cl x y = Shown.note (c!"ftn" ++ N) cl x' y' := by rintro _ _ _ _ rfl rfl; rfl
    refine cong ?_ ?_
    · show (if c!"text:note-citation" = c!"text:note-citation" then (Dict.get? [(c!"text:label", N)] c!"text:label").getD [] else _) = N
      rw [if_pos rfl]
      simp [Dict.get?]
    · show textsIn ((if c!"text:note-citation" = c!"text:note-body" then _ else []) ++ ((if c!"text:note-body" = c!"text:note-body" then _ else []) ++ [])) = _
      rw [if_neg (by decide), if_pos rfl]
      show textsIn ([] ++ (([] ++ [XNode.elem c!"text:p" [(c!"text:style-name", sy)] ([] ++ textNode ((s.drop 4).reverse ++ []))] ++ textNode []) ++ [])) = _
      simp only [List.nil_append, List.append_nil]
      have : textsIn ([XNode.elem c!"text:p" [(c!"text:style-name", sy)] (textNode (s.drop 4).reverse)] ++ textNode []) = s.drop 4 := by
        rw [List.append_nil] at tn
        rw [textsIn_append, (textsIn_textNode _).1]
        show (textsIn (textNode _) ++ []) ++ [] = _
        rw [tn]
        simp
      exact this

end Verif.Book
