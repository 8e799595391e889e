/-
Plain texts in ODT documents: what `odtConvert` produces, and what a reader collects from it.
-/
import Verif.Model.OdtSheets
import Verif.Lemmas.ReadAll

namespace Verif
open Spec Re Template

/-! ### The text of a description -/

/-- The finished text between the beginning of the first and the end of the last paragraph. -/
def plainOut : Str → Str
  | [] => []
  | '\n' :: '\n' :: r => nl2Out ++ plainOut r
  | '\n' :: r => nlOut ++ plainOut r
  | c :: r => escChar c ++ plainOut r

/-- The line break replacements, applied one after the other. -/
def plainMid : Str → Str
  | [] => []
  | '\n' :: '\n' :: r => c!"</text:p>\r<text:p text:style-name=\"First_20_line_20_indent\" />\r<text:p text:style-name=\"Text_20_body\">" ++ plainMid r
  | '\n' :: r => '\n' :: plainMid r
  | c :: r => escChar c ++ plainMid r

theorem escChar_no_nl {c : Char} (h : c ≠ '\n') : '\n' ∉ escChar c := by
  unfold escChar
  repeat (split; · decide)
  simpa using fun e => h e.symm

theorem escChar_nl : escChar '\n' = ['\n'] := by decide

theorem escChar_no_cr {c : Char} (h : c ≠ '\r') : '\r' ∉ escChar c := by
  unfold escChar
  repeat (split; · decide)
  simpa using fun e => h e.symm

theorem not_prefix_esc {c : Char} (h : c ≠ '\n') (s : Str) : ¬ c!"\n\n" <+: '\n' :: (escChar c ++ s) := by
  rintro ⟨a, e⟩
  have e2 : '\n' :: a = escChar c ++ s := by injection e
  have : escChar c ≠ [] := by
    unfold escChar
    repeat (split; · decide)
    simp
  cases hc : escChar c with
  | nil => exact this hc
  | cons d x =>
    rw [hc] at e2
    injection e2 with e3 e4
    exact escChar_no_nl h (by rw [hc, ← e3]; simp)

theorem plainMid_eq (t : Str) : ∃ k, Rep c!"\n\n" c!"</text:p>\r<text:p text:style-name=\"First_20_line_20_indent\" />\r<text:p text:style-name=\"Text_20_body\">"
    (t.flatMap escChar) (plainMid t) k := by
  fun_induction plainMid t with
  | case1 => exact ⟨0, .nil⟩
  | case2 r ih =>
    obtain ⟨k, hk⟩ := ih
    exact ⟨k + 1, hk.hit⟩
  | case3 r hne ih =>
    obtain ⟨k, hk⟩ := ih
    refine ⟨k, ?_⟩
    rw [List.flatMap_cons, escChar_nl]
    refine .miss ?_ hk
    cases r with
    | nil => rintro ⟨a, e⟩; cases e
    | cons d r =>
      rw [List.flatMap_cons]
      refine not_prefix_esc ?_ _
      rintro rfl
      exact hne r rfl
  | case4 c r hne1 hne ih =>
    obtain ⟨k, hk⟩ := ih
    refine ⟨k, ?_⟩
    rw [List.flatMap_cons]
    have hc : c ≠ '\n' := hne
    exact Rep.skip (escChar_no_nl hc) hk

/-- The last two replacements, character by character. -/
def lastTwo (c : Char) : Str := (if c = '\n' then c!"</text:p>\r<text:p text:style-name=\"First_20_line_20_indent\">" else [c]).flatMap (fun x => if x = '\r' then c!"\n" else [x])

theorem lastTwo_other {s : Str} (h1 : '\n' ∉ s) (h2 : '\r' ∉ s) : s.flatMap lastTwo = s := by
  induction s with
  | nil => rfl
  | cons c s ih =>
    simp only [List.mem_cons, not_or] at h1 h2
    rw [List.flatMap_cons, ih h1.2 h2.2]
    unfold lastTwo
    rw [if_neg (fun e => h1.1 e.symm)]
    have e : ¬ c = '\r' := fun e => h2.1 e.symm
    simp [e]

theorem plainMid_out {t : Str} (h : '\r' ∉ t) : (plainMid t).flatMap lastTwo = plainOut t := by
  fun_induction plainMid t with
  | case1 => rfl
  | case2 r ih =>
    rw [List.flatMap_append, ih (fun e => h (by simp [e]))]
    rfl
  | case3 r hne ih =>
    rw [List.flatMap_cons, ih (fun e => h (by simp [e])), plainOut]
    · rfl
    · exact hne
  | case4 c r hne1 hne ih =>
    rw [List.flatMap_append, ih (fun e => h (by simp [e])), lastTwo_other (escChar_no_nl hne) (escChar_no_cr (fun e => h (by simp [e]))), plainOut]
    · exact hne1
    · exact hne

/-- The text of a description in a document. -/
theorem odtConvert_plain {t : Str} (h : '\r' ∉ t) : odtConvert (some t) false = plainOut t := by
  cases t with
  | nil => rfl
  | cons c t =>
    show replaceAll (xmlReplacements ++ odtLineBreaks) (c :: t) = _
    rw [replaceAll_append, replaceAll_xml]
    obtain ⟨k, hk⟩ := plainMid_eq (c :: t)
    have e1 := hk.replace (by decide)
    show Str.replace (Str.replace (Str.replace ((c :: t).flatMap escChar) _ _) c!"\n" _) c!"\r" _ = _
    rw [e1, replace_single, replace_single, List.flatMap_assoc]
    exact plainMid_out h

/-! ### Collecting paragraphs -/

/-- The reader with other collected lines. -/
def atLines (r : Rd) (L : List Str) : Rd := ⟨r.novel, L, r.scId, r.chId, r.language, r.skipData, r.elId, r.sect, r.chCount, r.scCount, r.heading⟩

/-- The reader collects the text of paragraphs; `f` is what it does with character data. -/
structure Collects (h : Reader) (r : Rd) (f : Str → Str) : Prop where
  start : ∀ L, h (atLines r L) (.start c!"p" []) = .ok (atLines r L)
  stop : ∀ L, h (atLines r L) (.stop c!"p") = .ok (atLines r (L ++ [c!"\n"]))
  data : ∀ L s, h (atLines r L) (.data s) = .ok (atLines r (L ++ [f s]))
  blank : f [] = []

variable {h : Reader} {r : Rd} {f : Str → Str} {ls : List Str}

/-- What is collected from the lines of a text with something before it. -/
def collected (f : Str → Str) (acc t : Str) : Str :=
  match Spec.linesOf t with
  | l :: ls => ((acc ++ l) :: ls).flatMap (fun l => f l ++ c!"\n")
  | [] => []

theorem collected_nil (f : Str → Str) (acc : Str) : collected f acc [] = f acc ++ c!"\n" := by
  show ([acc ++ []]).flatMap _ = _
  simp

theorem collected_lines (f : Str → Str) (t : Str) : collected f [] t = (Spec.linesOf t).flatMap (fun l => f l ++ c!"\n") := by
  unfold collected
  cases h : Spec.linesOf t with
  | nil => rfl
  | cons l ls => rfl

theorem collected_nl (f : Str → Str) (acc t : Str) : collected f acc ('\n' :: t) = f acc ++ c!"\n" ++ collected f [] t := by
  rw [collected_lines]
  unfold collected
  have e : Spec.linesOf ('\n' :: t) = [] :: Spec.linesOf t := by
    show Str.split _ _ = _
    rw [split_char_cons, if_pos rfl]
    rfl
  rw [e]
  simp

theorem collected_char (f : Str → Str) (acc t : Str) {c : Char} (hc : c ≠ '\n') : collected f acc (c :: t) = collected f (acc ++ [c]) t := by
  unfold collected
  have e : Spec.linesOf (c :: t) = Str.consHead c (Spec.linesOf t) := by
    show Str.split _ _ = _
    rw [split_char_cons, if_neg hc]
    rfl
  rw [e]
  cases hl : Spec.linesOf t with
  | nil => exact absurd hl (Str.split_ne_nil _ _)
  | cons l ls => simp [Str.consHead]

theorem Fed.openP (hc : Collects h r f) {st : Str} (hs : st = indStyle ∨ st = bodyStyle) (cm acc : Str) (L : List Str) :
    Fed h (pOpen st) acc (idleP ls cm) (atLines r L) [] (lineP ls cm false []) (atLines r L) := by
  obtain ⟨t, e1, x1⟩ := pOpen_sax (st := st) (by rcases hs with rfl | rfl <;> decide)
  rw [e1]
  exact Fed.tag x1 (idle_pend cm acc _) (Goes.one1 (step_p hs cm) (hc.start L))

theorem Fed.emptyP (hc : Collects h r f) (cm acc : Str) (L : List Str) :
    Fed h c!"<text:p text:style-name=\"First_20_line_20_indent\" />" acc (idleP ls cm) (atLines r L) [] (idleP ls cm) (atLines r (L ++ [c!"\n"])) := by
  refine Fed.tag (evs := [.start c!"text:p" [(c!"text:style-name", indStyle)], .stop c!"text:p"]) (by decide +kernel) (idle_pend cm acc _) ?_
  exact Goes.append (a := [_]) (Goes.one1 (step_p (.inl rfl) cm) (hc.start L)) (Goes.one1 (c := .stop c!"p") rfl (hc.stop L))

theorem Fed.endP (hc : Collects h r f) (cm acc : Str) (L : List Str) :
    ∃ L', Fed h pEnd acc (lineP ls cm false []) (atLines r L) [] (idleP ls cm) (atLines r L') ∧ L'.flatten = L.flatten ++ (f acc.reverse ++ c!"\n") := by
  have g : ∃ L', Goes h (lineP ls cm false []) (atLines r L) (saxPend acc) (lineP ls cm false []) (atLines r L') ∧ L'.flatten = L.flatten ++ f acc.reverse := by
    unfold saxPend
    by_cases he : acc = []
    · subst he
      exact ⟨L, by rw [if_pos rfl]; exact Goes.nil _ _ _, by rw [List.reverse_nil, hc.blank]; simp⟩
    · rw [if_neg he]
      exact ⟨L ++ [f acc.reverse], Goes.one1 rfl (hc.data L acc.reverse), by simp⟩
  obtain ⟨L1, g1, e1⟩ := g
  refine ⟨L1 ++ [c!"\n"], ?_, by rw [List.flatten_append, e1]; simp⟩
  exact Fed.tag (t := c!"/text:p>") (evs := [.stop c!"text:p"]) (by decide +kernel) g1 (Goes.one1 (c := .stop c!"p") rfl (hc.stop L1))

theorem Fed.newline (h : Reader) (acc : Str) (p : OdtP) (r : Rd) : Fed h c!"\n" acc p r ('\n' :: acc) p r := Fed.plain (t := c!"\n") (by decide) acc p r

theorem nlOut_parts : nlOut = pEnd ++ (c!"\n" ++ pOpen indStyle) := rfl
theorem nl2Out_parts : nl2Out = pEnd ++ (c!"\n" ++ (c!"<text:p text:style-name=\"First_20_line_20_indent\" />" ++ (c!"\n" ++ pOpen bodyStyle))) := rfl

/-- The rest of a description, from the inside of a paragraph on. -/
theorem Fed.rest (hc : Collects h r f) (cm : Str) (t : Str) (ht : Carriable t) : ∀ (acc : Str) (L : List Str),
    ∃ L', Fed h (plainOut t ++ pEnd) acc (lineP ls cm false []) (atLines r L) [] (idleP ls cm) (atLines r L') ∧ L'.flatten = L.flatten ++ collected f acc.reverse t := by
  fun_induction plainOut t with
  | case1 =>
    intro acc L
    rw [collected_nil]
    exact Fed.endP hc cm acc L
  | case2 t ih =>
    intro acc L
    obtain ⟨L1, f1, e1⟩ := Fed.endP (ls := ls) hc cm acc L
    obtain ⟨L2, f2, e2⟩ := ih (fun c hm => ht c (by simp [hm])) [] (L1 ++ [c!"\n"])
    refine ⟨L2, ?_, ?_⟩
    · rw [List.append_assoc, nl2Out_parts, List.append_assoc, List.append_assoc, List.append_assoc, List.append_assoc]
      exact f1.append ((Fed.newline _ _ _ _).append ((Fed.emptyP hc cm _ L1).append ((Fed.newline _ _ _ _).append ((Fed.openP hc (.inr rfl) cm _ _).append f2))))
    · rw [e2, List.flatten_append, e1, collected_nl, collected_nl, hc.blank]
      simp
  | case3 t hne ih =>
    intro acc L
    obtain ⟨L1, f1, e1⟩ := Fed.endP (ls := ls) hc cm acc L
    obtain ⟨L2, f2, e2⟩ := ih (fun c hm => ht c (by simp [hm])) [] L1
    refine ⟨L2, ?_, ?_⟩
    · rw [List.append_assoc, nlOut_parts, List.append_assoc, List.append_assoc]
      exact f1.append ((Fed.newline _ _ _ _).append ((Fed.openP hc (.inl rfl) cm _ _).append f2))
    · rw [e2, e1, collected_nl]
      simp
  | case4 c t hne1 hne ih =>
    intro acc L
    obtain ⟨L2, f2, e2⟩ := ih (fun c hm => ht c (by simp [hm])) (c :: acc) L
    refine ⟨L2, ?_, ?_⟩
    · rw [List.append_assoc]
      have f1 := Fed.esc (h := h) (t := [c]) (fun d hd => ht d (by simp at hd; simp [hd])) acc (lineP ls cm false []) (atLines r L)
      rw [List.flatMap_cons, List.flatMap_nil, List.append_nil] at f1
      exact f1.append f2
    · rw [e2, collected_char f _ _ hne, List.reverse_cons]

/-- The paragraphs of a description. -/
theorem Fed.paragraphs (hc : Collects h r f) (cm acc : Str) {t : Option Str} (ht : CarriableO t) {st : Str} (hs : st = indStyle ∨ st = bodyStyle) (L : List Str) :
    ∃ L', Fed h (pOpen st ++ (odtConvert t false ++ pEnd)) acc (idleP ls cm) (atLines r L) [] (idleP ls cm) (atLines r L') ∧
      L'.flatten = L.flatten ++ (Spec.linesOf (t.getD [])).flatMap (fun l => f l ++ c!"\n") := by
  have e : odtConvert t false = plainOut (t.getD []) := by
    cases t with
    | none => rfl
    | some t => exact odtConvert_plain (fun hm => (ht _ hm).2 rfl)
  have ht' : Carriable (t.getD []) := by
    cases t with
    | none => intro c hm; cases hm
    | some t => exact ht
  rw [e, ← collected_lines]
  obtain ⟨L2, f2, e2⟩ := Fed.rest (ls := ls) hc cm (t.getD []) ht' [] L
  exact ⟨L2, (Fed.openP hc hs cm acc L).append f2, e2⟩

end Verif
