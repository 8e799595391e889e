/-
Lemmas about `meta.xml` and `styles.xml`.
-/
import Verif.Model.OdfMeta
import Verif.Spec.OdfMeta
import Verif.Lemmas.Sax
import Verif.Lemmas.Template
import Verif.Lemmas.ReadAll

namespace Verif
open Spec Template

/-! ### Documents from nodes -/

/-- An element, with white space before its start tag. -/
theorem Renders.element {S inner E a0 b a1 a2 t : Str} {as : Dict Str} {ks : List XNode}
    (h1 : saxRun (.text a0) S = (.text [], saxPend b ++ [.start t as])) (h2 : Renders inner [] ks a1)
    (h3 : saxRun (.text a1) E = (.text a2, saxPend a1 ++ [.stop t])) :
    Renders (S ++ (inner ++ E)) a0 (textNode b ++ [.elem t as (ks ++ textNode a1)]) a2 := by
  unfold Renders at h2 ⊢
  rw [saxRun_comp h1 (saxRun_comp h2 h3), nodesEvs_append, nodesEvs_single, nodesEvs_textNode, nodeEvs, nodesEvs_append, nodesEvs_textNode]
  simp

/-- A document: white space, the root element, and white space. -/
theorem parseDoc_of {s w t acc : Str} {as : Dict Str} {ks : List XNode} (h : Renders s [] (textNode w ++ [.elem t as ks]) acc)
    (hw : w.all xmlBlank = true) (ha : acc.all xmlBlank = true) (hr : '\r' ∉ s) : parseDoc s = some (.elem t as ks) := by
  have hn : normEol s = s := normEol_id hr
  have hev : saxEvents s = some ((saxPend w ++ (.start t as :: nodesEvs ks ++ [.stop t])) ++ saxPend acc) := by
    unfold saxEvents
    rw [hn, h, nodesEvs_append, nodesEvs_single, nodesEvs_textNode, nodeEvs]
  have hblank : ∀ (x : Str) (b : XBld), b.frames = [] → x.all xmlBlank = true → b.run (saxPend x) = some b := by
    intro x b hb hx
    unfold saxPend
    split
    · rfl
    · have hx' : x.reverse.all xmlBlank = true := by simpa using hx
      simp only [XBld.run, XBld.step, hb, hx', if_true, Option.bind_some]
  unfold parseDoc
  rw [hev]
  simp only [Option.bind_some]
  rw [List.append_assoc, XBld_run_append, hblank w {} rfl hw, Option.bind_some]
  simp only [List.cons_append, List.append_assoc, XBld.run, XBld.step, Option.bind_some]
  rw [run_nodes ks ⟨t, as, []⟩ [] none]
  simp only [List.nil_append, List.cons_append, XBld.run, XBld.step, if_true, Option.bind_some, List.append_nil, List.reverse_reverse]
  rw [hblank acc _ rfl ha]

/-- The nodes of a text after the character data `a`. -/
def fragNodes (a s : Str) : List XNode :=
  match XBld.run ⟨[⟨[], [], []⟩], none⟩ (saxRun (.text a) s).2 with
  | some ⟨[f], none⟩ => f.kids.reverse
  | _ => []

/-- The character data that are left. -/
def fragRest (a s : Str) : Str :=
  match (saxRun (.text a) s).1 with
  | .text x => x
  | _ => []

/-- The attributes of the start tag at the end of a text. -/
def fragAttrs (a s : Str) : Dict Str :=
  match (saxRun (.text a) s).2.getLast? with
  | some (.start _ as) => as
  | _ => []

/-! ### Attributes -/

/-- The characters of an attribute value that stand for themselves. -/
def valueChar (c : Char) : Bool := xmlLegal c && c != '<' && c != '&' && c != '"' && c != '\r' && (!xmlBlank c || c == ' ')

theorem saxRun_value {s : Str} (h : s.all valueChar = true) (n : Str) (as : Dict Str) (a acc : Str) :
    saxRun (.val n as a '"' acc) s = (.val n as a '"' (s.reverse ++ acc), []) := by
  induction s generalizing acc with
  | nil => rfl
  | cons c s ih =>
    rw [List.all_cons, Bool.and_eq_true] at h
    have hc := h.1
    unfold valueChar at hc
    simp only [Bool.and_eq_true, bne_iff_ne, ne_eq, Bool.or_eq_true, Bool.not_eq_true', beq_iff_eq] at hc
    obtain ⟨⟨⟨⟨⟨h1, h2⟩, h3⟩, h4⟩, h5⟩, h6⟩ := hc
    have hb : (if xmlBlank c = true then ' ' else c) = c := by
      rcases h6 with h6 | h6
      · rw [h6]; rfl
      · rw [h6]; rfl
    by_cases hbl : xmlBlank c = true
    · have hc : c = ' ' := by rw [if_pos hbl] at hb; exact hb.symm
      simp only [saxRun, saxStep, h4, h3, h2, hbl, if_true, if_false, List.nil_append, ih h.2]
      simp [hc]
    · simp only [saxRun, saxStep, h4, h3, h2, hbl, h1, if_true, if_false, List.nil_append, ih h.2, Bool.false_eq_true]
      simp

theorem saxRun_attrName {s : Str} (h : s.all qnameChar = true) (n : Str) (as : Dict Str) (a : Str) :
    saxRun (.attr n as a) s = (.attr n as (s.reverse ++ a), []) := by
  induction s generalizing a with
  | nil => rfl
  | cons c s ih =>
    rw [List.all_cons, Bool.and_eq_true] at h
    have hne : c ≠ '=' := by
      rintro rfl
      exact absurd h.1 (by decide)
    simp only [saxRun, saxStep, h.1, hne, if_true, if_false, List.nil_append, ih h.2]
    simp

theorem Dict.get?_append_none {α : Type} {a b : Dict α} {k : Str} (h : a.get? k = none) : Dict.get? (a ++ b) k = Dict.get? b k := by
  induction a with
  | nil => rfl
  | cons p a ih =>
    obtain ⟨k', v⟩ := p
    by_cases hk : k' = k
    · simp [Dict.get?, hk] at h
    · simp only [Dict.get?, hk, if_false] at h
      simp only [List.cons_append, Dict.get?, hk, if_false]
      exact ih h

/-- The text of attributes. -/
def attrText (l : List (Str × Str)) : Str := l.flatMap fun p => ' ' :: p.1 ++ c!"=\"" ++ p.2 ++ c!"\""

theorem saxRun_attrs (n : Str) (l : List (Str × Str)) (hk : ∀ k ∈ l.map (·.1), k ≠ [] ∧ k.all qnameChar = true) (hv : ∀ p ∈ l, p.2.all valueChar = true) :
    ∀ as : Dict Str, (∀ k ∈ l.map (·.1), as.get? k = none) → (l.map (·.1)).Nodup → saxRun (.valEnd n as) (attrText l) = (.valEnd n (as ++ l), []) := by
  induction l with
  | nil => intro as _ _; rw [List.append_nil]; rfl
  | cons p l ih =>
    intro as hf hd
    obtain ⟨k, v⟩ := p
    obtain ⟨hk0, hka⟩ := hk k (by simp)
    have hv0 := hv (k, v) (by simp)
    have hf0 := hf k (by simp)
    cases k with
    | nil => exact absurd rfl hk0
    | cons c k =>
      rw [List.all_cons, Bool.and_eq_true] at hka
      have e1 : saxRun (.valEnd n as) [' '] = (.inTag n as, []) := rfl
      have e2 : saxRun (.inTag n as) [c] = (.attr n as [c], []) := by
        simp only [saxRun, saxStep, hka.1, if_true, List.append_nil]
      have e3 := saxRun_attrName hka.2 n as [c]
      have e4 : saxRun (.attr n as (k.reverse ++ [c])) c!"=\"" = (.val n as (k.reverse ++ [c]) '"' [], []) := rfl
      have e5 := saxRun_value hv0 n as (k.reverse ++ [c]) []
      have e6 : saxRun (.val n as (k.reverse ++ [c]) '"' (v.reverse ++ [])) c!"\"" = (.valEnd n (as ++ [(c :: k, v)]), []) := by
        have hg : as.get? (k.reverse ++ [c]).reverse = none := by
          simpa using hf0
        simp only [saxRun, saxStep, if_true, hg]
        simp
      have e7 := ih (fun x hx => hk x (List.mem_cons_of_mem _ hx)) (fun x hx => hv x (List.mem_cons_of_mem _ hx)) (as ++ [(c :: k, v)]) (by
        intro x hx
        have h1 := hf x (List.mem_cons_of_mem _ hx)
        have h2 : x ≠ c :: k := by
          rintro rfl
          exact (List.nodup_cons.mp hd).1 hx
        rw [Dict.get?_append_none h1]
        simp [Dict.get?, h2.symm]) (List.nodup_cons.mp hd).2
      have := saxRun_comp e1 (saxRun_comp e2 (saxRun_comp e3 (saxRun_comp e4 (saxRun_comp e5 (saxRun_comp e6 e7)))))
      have et : attrText ((c :: k, v) :: l) = [' '] ++ ([c] ++ (k ++ (c!"=\"" ++ (v ++ (c!"\"" ++ attrText l))))) := by
        unfold attrText
        simp
      rw [et, this]
      simp


/-! ### CDATA sections -/

/-- No markup of a CDATA section begins here. -/
def noBang : Str → Bool
  | [] => true
  | ['<'] => false
  | '<' :: '!' :: _ => false
  | _ :: cs => noBang cs

theorem expandCdata_plain {a : Str} (h : noBang a = true) (r : Str) : expandCdata false 0 (a ++ r) = a ++ expandCdata false 0 r := by
  induction a with
  | nil => rfl
  | cons c a ih =>
    have h2 : noBang a = true := by
      unfold noBang at h
      split at h
      · rename_i e; cases e
      · cases h
      · cases h
      · rename_i e; injection e with _ e; subst e; exact h
    have h1 : c!"<![CDATA[".isPrefixOf (c :: (a ++ r)) = false := by
      by_cases hc : c = '<'
      · subst hc
        cases a with
        | nil => simp [noBang] at h
        | cons d a =>
          have hd : d ≠ '!' := by
            rintro rfl
            simp [noBang] at h
          simp [List.isPrefixOf, hd.symm]
      · simp [List.isPrefixOf, Ne.symm hc]
    simp only [List.cons_append, expandCdata, h1, Bool.false_eq_true, if_false, ih h2]

theorem expandCdata_skip (i : Bool) (a r : Str) : expandCdata i a.length (a ++ r) = expandCdata i 0 r := by
  induction a with
  | nil => rfl
  | cons c a ih => simp only [List.length_cons, List.cons_append, expandCdata, ih]

theorem expandCdata_section {d : Str} (h : ¬ c!"]]>" <:+: d) (r : Str) :
    expandCdata true 0 (d ++ (c!"]]>" ++ r)) = d.flatMap markupFree ++ expandCdata false 0 r := by
  induction d with
  | nil => exact expandCdata_skip false c!"]>" r
  | cons c d ih =>
    have h2 : ¬ c!"]]>" <:+: d := fun x => h (x.trans (List.suffix_cons c d).isInfix)
    have h1 : c!"]]>".isPrefixOf (c :: (d ++ (c!"]]>" ++ r))) = false := by
      rw [Bool.eq_false_iff, ne_eq, List.isPrefixOf_iff_prefix]
      intro hp
      apply h
      match d with
      | [] => simp at hp
      | [x] => simp at hp
      | x :: y :: d =>
        simp only [List.cons_append, List.cons_prefix_cons] at hp
        obtain ⟨rfl, rfl, rfl, _⟩ := hp
        exact ⟨[], d, rfl⟩
    rw [List.cons_append, expandCdata, h1, if_neg (by decide), ih h2, List.flatMap_cons, List.append_assoc]

theorem saxRun_markupFree {t : Str} (h : ∀ c ∈ t, xmlLegal c = true) (acc : Str) : saxRun (.text acc) (t.flatMap markupFree) = (.text (t.reverse ++ acc), []) := by
  induction t generalizing acc with
  | nil => rfl
  | cons c t ih =>
    have h1 : saxRun (.text acc) (markupFree c) = (.text (c :: acc), []) := by
      unfold markupFree
      by_cases c1 : c = '<'
      · subst c1; simp [saxRun, saxStep, entities, List.lookup]
      · by_cases c2 : c = '>'
        · subst c2; simp [saxRun, saxStep, entities, List.lookup]
        · by_cases c3 : c = '&'
          · subst c3; simp [saxRun, saxStep, entities, List.lookup]
          · simp [saxRun, saxStep, c1, c2, c3, h c (by simp)]
    rw [List.flatMap_cons, saxRun_comp h1 (ih (fun x hx => h x (List.mem_cons_of_mem _ hx)) _)]
    simp

theorem insertable_plain {s : Str} (h : Insertable s) : s.all plainChar = true := by
  rw [List.all_eq_true]
  intro c hc
  obtain ⟨h1, h2, h3, h4, h5⟩ := h c hc
  simp [plainChar, h1, h2, h3, h4, h5]

theorem insertable_noBang {s : Str} (h : '<' ∉ s) : noBang s = true := by
  induction s with
  | nil => rfl
  | cons c s ih =>
    have hc : c ≠ '<' := fun e => h (by simp [e])
    unfold noBang
    split
    · rfl
    · rename_i e; injection e with e; exact absurd e hc
    · rename_i e; injection e with e; exact absurd e hc
    · rename_i e; injection e with _ e; subst e; exact ih (fun x => h (List.mem_cons_of_mem _ x))

/-! ### The metadata -/

theorem metaXml_subst (t d a now : Str) :
    Template.subst metaXml [(c!"Author", a), (c!"Title", t), (c!"Summary", d), (c!"Datetime", now)] =
      metaHead ++ (t ++ (metaDesc ++ (d ++ (metaAuthor ++ (a ++ (metaDate ++ (now ++ metaEnd))))))) := by
  have e : segs metaXml = metaHead.map Seg.lit ++ (Seg.var c!"Title" c!"$Title" :: (metaDesc.map Seg.lit ++ (Seg.var c!"Summary" c!"$Summary" ::
      (metaAuthor.map Seg.lit ++ (Seg.var c!"Author" c!"$Author" :: (metaDate.map Seg.lit ++ (Seg.var c!"Datetime" c!"${Datetime}" :: metaEnd.map Seg.lit))))))) := by
    decide +kernel
  unfold subst
  rw [e]
  have g1 : Dict.get? [(c!"Author", a), (c!"Title", t), (c!"Summary", d), (c!"Datetime", now)] c!"Title" = some t := rfl
  have g2 : Dict.get? [(c!"Author", a), (c!"Title", t), (c!"Summary", d), (c!"Datetime", now)] c!"Summary" = some d := rfl
  have g3 : Dict.get? [(c!"Author", a), (c!"Title", t), (c!"Summary", d), (c!"Datetime", now)] c!"Author" = some a := rfl
  have g4 : Dict.get? [(c!"Author", a), (c!"Title", t), (c!"Summary", d), (c!"Datetime", now)] c!"Datetime" = some now := rfl
  simp only [List.flatMap_append, List.flatMap_cons, render_lits, render, g1, g2, g3, g4, Option.getD_some]

/-- The start of the document. -/
def metaRoot : Str := metaHead.take (metaHead.length - c!"\n  <office:meta>\n    <meta:generator>PyWriter</meta:generator>\n    <dc:title>".length)

theorem metaHead_eq : metaHead = metaRoot ++ (c!"\n  <office:meta>" ++ (c!"\n    <meta:generator>" ++ (c!"PyWriter" ++ (c!"</meta:generator>" ++ c!"\n    <dc:title>")))) := by decide +kernel
theorem metaDesc_eq : metaDesc = c!"</dc:title>" ++ c!"\n    <dc:description>" := by decide +kernel
theorem metaAuthor_eq : metaAuthor = c!"</dc:description>" ++ (c!"\n    <dc:subject></dc:subject>\n    <meta:keyword></meta:keyword>" ++ c!"\n    <meta:initial-creator>") := by decide +kernel
theorem metaDate_eq : metaDate = c!"</meta:initial-creator>" ++ (c!"\n    <dc:creator></dc:creator>" ++ c!"\n    <meta:creation-date>") := by decide +kernel
theorem metaEnd_eq : metaEnd = ['Z'] ++ (c!"</meta:creation-date>" ++ (c!"\n    <dc:date></dc:date>" ++ (c!"\n  " ++ (c!"</office:meta>" ++ (['\n'] ++ c!"</office:document-meta>\n"))))) := by decide +kernel

/-- An element of the metadata. -/
def metaElem (t s : Str) : List XNode := [.text c!"\n    ", .elem t [] (textNode s.reverse)]

/-- The tree of `meta.xml`. -/
def metaTree (t d a now : Str) : XNode :=
  .elem c!"office:document-meta" (fragAttrs [] metaRoot)
    ([.text c!"\n  ", .elem c!"office:meta" [] (metaElem c!"meta:generator" c!"PyWriter" ++ metaElem c!"dc:title" t ++ metaElem c!"dc:description" d ++ metaElem c!"dc:subject" [] ++
      metaElem c!"meta:keyword" [] ++ metaElem c!"meta:initial-creator" a ++ metaElem c!"dc:creator" [] ++ metaElem c!"meta:creation-date" (now ++ ['Z']) ++ metaElem c!"dc:date" [] ++
      [.text c!"\n  "]), .text ['\n']])

/-- One element with a text. -/
theorem metaElem_renders {S s s' E t w a1 : Str} (hS : saxRun (.text []) S = (.text [], saxPend w ++ [.start t []])) (hw : textNode w = [.text c!"\n    "])
    (hs : saxRun (.text []) s' = (.text a1, [])) (ha : a1 = s.reverse)
    (hE : ∀ a, saxRun (.text a) E = (.text [], saxPend a ++ [.stop t])) : Renders (S ++ (s' ++ E)) [] (metaElem t s) [] := by
  have := Renders.element (a1 := a1) (ks := []) hS (show Renders s' [] [] _ from hs) (hE _)
  rw [hw] at this
  subst ha
  exact this

theorem metaText_parses {t d a now : Str} (ht : Insertable t) (hd : SectionText d) (ha : Insertable a) (hn : Insertable now) :
    parseWithCdata (metaHead ++ (t ++ (metaDesc ++ ((c!"<![CDATA[" ++ d ++ c!"]]>") ++ (metaAuthor ++ (a ++ (metaDate ++ (now ++ metaEnd)))))))) = some (metaTree t d a now) := by
  have hnl : '\r' ∉ metaHead ++ (t ++ (metaDesc ++ ((c!"<![CDATA[" ++ d ++ c!"]]>") ++ (metaAuthor ++ (a ++ (metaDate ++ (now ++ metaEnd))))))) := by
    have k : ∀ {s : Str}, Insertable s → '\r' ∉ s := fun h x => (h _ x).2.2.2.2 rfl
    have k2 : '\r' ∉ d := fun x => (hd.1 _ x).2 rfl
    have k3 : '\r' ∉ metaHead ∧ '\r' ∉ metaDesc ∧ '\r' ∉ metaAuthor ∧ '\r' ∉ metaDate ∧ '\r' ∉ metaEnd := by decide +kernel
    simp only [List.mem_append, not_or]
    exact ⟨k3.1, k ht, k3.2.1, ⟨⟨by decide, k2⟩, by decide⟩, k3.2.2.1, k ha, k3.2.2.2.1, k hn, k3.2.2.2.2⟩
  unfold parseWithCdata
  rw [normEol_id hnl]
  have nb : noBang metaHead = true ∧ noBang metaDesc = true ∧ noBang metaAuthor = true ∧ noBang metaDate = true ∧ noBang metaEnd = true := by decide +kernel
  have ni : ∀ {s : Str}, Insertable s → noBang s = true := fun h => insertable_noBang (fun x => (h _ x).2.1 rfl)
  have ex : expandCdata false 0 (metaHead ++ (t ++ (metaDesc ++ ((c!"<![CDATA[" ++ d ++ c!"]]>") ++ (metaAuthor ++ (a ++ (metaDate ++ (now ++ metaEnd)))))))) =
      metaHead ++ (t ++ (metaDesc ++ (d.flatMap markupFree ++ (metaAuthor ++ (a ++ (metaDate ++ (now ++ metaEnd))))))) := by
    rw [expandCdata_plain nb.1, expandCdata_plain (ni ht), expandCdata_plain nb.2.1]
    have : ∀ r : Str, expandCdata false 0 ((c!"<![CDATA[" ++ d ++ c!"]]>") ++ r) = d.flatMap markupFree ++ expandCdata false 0 r := by
      intro r
      rw [List.append_assoc, List.append_assoc]
      rw [← expandCdata_section hd.2]
      exact expandCdata_skip true c!"![CDATA[" _
    rw [this, expandCdata_plain nb.2.2.1, expandCdata_plain (ni ha), expandCdata_plain nb.2.2.2.1, expandCdata_plain (ni hn)]
    have := expandCdata_plain nb.2.2.2.2 []
    rw [List.append_nil] at this
    rw [this]
    simp [expandCdata]
  rw [ex]
  have stop : ∀ (t : Str) (E : Str), saxRun .lt E = (.text [], [.stop t]) → ∀ a, saxRun (.text a) ('<' :: E) = (.text [], saxPend a ++ [.stop t]) := by
    intro t E h a
    rw [saxRun_lt, h]
  have q1 := metaElem_renders (S := c!"\n    <meta:generator>") (w := c!"    \n") (t := c!"meta:generator") (s := c!"PyWriter") (s' := c!"PyWriter") (by decide) (by rfl) (by rfl) (by rfl)
    (stop c!"meta:generator" c!"/meta:generator>" (by decide))
  have plain : ∀ {s : Str}, Insertable s → saxRun (.text []) s = (.text s.reverse, []) := by
    intro s h
    rw [saxRun_plain (insertable_plain h), List.append_nil]
  have q2 := metaElem_renders (S := c!"\n    <dc:title>") (w := c!"    \n") (t := c!"dc:title") (s := t) (by decide) (by rfl) (plain ht) rfl (stop c!"dc:title" c!"/dc:title>" (by decide))
  have q3 := metaElem_renders (S := c!"\n    <dc:description>") (w := c!"    \n") (t := c!"dc:description") (s := d) (by decide) (by rfl)
    (saxRun_markupFree (fun c hc => (hd.1 c hc).1) []) (by simp) (stop c!"dc:description" c!"/dc:description>" (by decide))
  have q4 : Renders c!"\n    <dc:subject></dc:subject>\n    <meta:keyword></meta:keyword>" [] (metaElem c!"dc:subject" [] ++ metaElem c!"meta:keyword" []) [] := by
    unfold Renders; decide
  have q5 := metaElem_renders (S := c!"\n    <meta:initial-creator>") (w := c!"    \n") (t := c!"meta:initial-creator") (s := a) (by decide) (by rfl) (plain ha) rfl
    (stop c!"meta:initial-creator" c!"/meta:initial-creator>" (by decide))
  have q6 : Renders c!"\n    <dc:creator></dc:creator>" [] (metaElem c!"dc:creator" []) [] := by unfold Renders; decide
  have hz : Insertable (now ++ ['Z']) := by
    intro c hc
    rw [List.mem_append, List.mem_singleton] at hc
    rcases hc with hc | rfl
    · exact hn c hc
    · decide
  have q7 := metaElem_renders (S := c!"\n    <meta:creation-date>") (w := c!"    \n") (t := c!"meta:creation-date") (s := now ++ ['Z']) (by decide) (by rfl) (plain hz) rfl
    (stop c!"meta:creation-date" c!"/meta:creation-date>" (by decide))
  have q8 : Renders c!"\n    <dc:date></dc:date>" [] (metaElem c!"dc:date" []) [] := by unfold Renders; decide
  have inner := q1.append (q2.append (q3.append (q4.append (q5.append (q6.append (q7.append q8))))))
  have w1 : Renders c!"\n  " [] [] c!"  \n" := by unfold Renders; decide
  have body := Renders.element (S := c!"\n  <office:meta>") (b := c!"  \n") (t := c!"office:meta") (as := []) (a2 := []) (E := c!"</office:meta>") (a0 := []) (by decide) (inner.append w1)
    (by decide)
  have w2 : Renders ['\n'] [] [] ['\n'] := by unfold Renders; decide
  have root := Renders.element (S := metaRoot) (b := ['\n']) (t := c!"office:document-meta") (as := fragAttrs [] metaRoot) (a2 := ['\n']) (E := c!"</office:document-meta>\n") (a0 := [])
    (by decide +kernel) (body.append w2) (by decide)
  have fin := parseDoc_of (s := metaHead ++ (t ++ (metaDesc ++ (d.flatMap markupFree ++ (metaAuthor ++ (a ++ (metaDate ++ (now ++ metaEnd))))))))
    (w := ['\n']) (t := c!"office:document-meta") (acc := ['\n']) (as := fragAttrs [] metaRoot) (ks := (metaTree t d a now).kids) (by
      have e1 : metaHead ++ (t ++ (metaDesc ++ (d.flatMap markupFree ++ (metaAuthor ++ (a ++ (metaDate ++ (now ++ metaEnd))))))) =
          metaRoot ++ (c!"\n  <office:meta>" ++ (c!"\n    <meta:generator>" ++ (c!"PyWriter" ++ c!"</meta:generator>") ++ (c!"\n    <dc:title>" ++ (t ++ c!"</dc:title>") ++
            (c!"\n    <dc:description>" ++ (List.flatMap markupFree d ++ c!"</dc:description>") ++
              (c!"\n    <dc:subject></dc:subject>\n    <meta:keyword></meta:keyword>" ++ (c!"\n    <meta:initial-creator>" ++ (a ++ c!"</meta:initial-creator>") ++
                (c!"\n    <dc:creator></dc:creator>" ++ (c!"\n    <meta:creation-date>" ++ (now ++ ['Z'] ++ c!"</meta:creation-date>") ++ c!"\n    <dc:date></dc:date>")))))) ++
                  c!"\n  " ++ c!"</office:meta>") ++ ['\n'] ++ c!"</office:document-meta>\n") := by
        rw [metaHead_eq, metaDesc_eq, metaAuthor_eq, metaDate_eq, metaEnd_eq]
        simp only [List.append_assoc]
      rw [e1]
      exact root) (by decide) (by decide) (by
      have k : ∀ {s : Str}, Insertable s → '\r' ∉ s := fun h x => (h _ x).2.2.2.2 rfl
      have k2 : '\r' ∉ d.flatMap markupFree := by
        intro x
        obtain ⟨c, hc, hx⟩ := List.mem_flatMap.mp x
        have := (hd.1 c hc).2
        unfold markupFree at hx
        split at hx
        · exact absurd hx (by decide)
        · split at hx
          · exact absurd hx (by decide)
          · split at hx
            · exact absurd hx (by decide)
            · rw [List.mem_singleton] at hx; exact this hx.symm
      have k3 : '\r' ∉ metaHead ∧ '\r' ∉ metaDesc ∧ '\r' ∉ metaAuthor ∧ '\r' ∉ metaDate ∧ '\r' ∉ metaEnd := by decide +kernel
      simp only [List.mem_append, not_or]
      exact ⟨k3.1, k ht, k3.2.1, k2, k3.2.2.1, k ha, k3.2.2.2.1, k hn, k3.2.2.2.2⟩)
  rw [fin]
  rfl

end Verif
