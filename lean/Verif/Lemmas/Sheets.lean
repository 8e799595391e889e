/-
Reading location, item and character sheets.
-/
import Verif.Lemmas.Plain
import Verif.Spec.Sheets

namespace Verif
open Spec Re Template

variable {h : Reader} {ls : List Str}

/-! ### Sections and headings for any reader -/

theorem Fed.section {r r' : Rd} {name : Str} (hn : name.all plainAttr = true) (hr : h r (.start c!"div" [(c!"id", some name)]) = .ok r') (cm acc : Str) :
    Fed h (secOpen name) acc (idleP ls cm) r c!"\n" (idleP ls cm) r' := by
  obtain ⟨o, e1, x1⟩ := secOpen_sax hn
  rw [e1]
  refine ⟨saxPend acc ++ [.start c!"text:section" [(c!"text:style-name", c!"Sect1"), (c!"text:name", name)]], ?_, ?_⟩
  · rw [saxRun_lt, x1]
  · exact (idle_pend cm acc _).append (Goes.one1 rfl hr)

theorem Fed.sectionEnd {r r' : Rd} (hr : h r (.stop c!"div") = .ok r') (cm acc : Str) : Fed h secEnd acc (idleP ls cm) r c!"\n" (idleP ls cm) r' := by
  refine ⟨saxPend acc ++ [.stop c!"text:section"], ?_, (idle_pend cm acc _).append (Goes.one1 rfl hr)⟩
  show saxRun _ ('<' :: c!"/text:section>\n") = _
  rw [saxRun_lt]
  rfl

/-- A heading or a paragraph, for any reader; `x` is its text in reverse order. -/
theorem Fed.heading {r r1 r2 r3 : Rd} {op e tag en body x a2 : Str} {as : Dict Str} {p1 : Str → OdtP} (x1 : saxRun .lt op = (.text [], [.start e as]))
    (xb : ∀ p r, Fed h body [] p r x p r) (x2 : saxRun .lt en = (.text a2, [.stop e]))
    (s1 : ∀ cm, (idleP ls cm).step (.start e as) = .ok (p1 cm, [.start tag []]))
    (s2 : ∀ cm s, (p1 cm).step (.chars s) = .ok (p1 cm, [.data s]))
    (s3 : ∀ cm, (p1 cm).step (.stop e) = .ok (idleP ls cm, [.stop tag]))
    (h1 : h r (.start tag []) = .ok r1) (h2 : if x = [] then r2 = r1 else h r1 (.data x.reverse) = .ok r2) (h3 : h r2 (.stop tag) = .ok r3) (cm acc : Str) :
    Fed h ('<' :: op ++ (body ++ '<' :: en)) acc (idleP ls cm) r a2 (idleP ls cm) r3 := by
  have f1 : Fed h ('<' :: op) acc (idleP ls cm) r [] (p1 cm) r1 := Fed.tag x1 (idle_pend cm acc _) (Goes.one1 (s1 cm) h1)
  have g3 : Goes h (p1 cm) r1 (saxPend x) (p1 cm) r2 := by
    unfold saxPend
    split
    · rename_i e
      rw [if_pos e] at h2
      subst h2
      exact Goes.nil _ _ _
    · rename_i e
      rw [if_neg e] at h2
      exact Goes.one1 (s2 cm _) h2
  have f3 : Fed h ('<' :: en) x (p1 cm) r1 a2 (idleP ls cm) r3 := by
    refine ⟨saxPend x ++ [.stop e], ?_, g3.append (Goes.one1 (s3 cm) h3)⟩
    rw [saxRun_lt, x2]
  exact f1.append ((xb _ _).append f3)

/-- A reader that ignores headings of a kind. -/
structure Ignores (h : Reader) (r : Rd) (tag : Str) : Prop where
  start : h r (.start tag []) = .ok r
  data : ∀ s, h r (.data s) = .ok r
  stop : h r (.stop tag) = .ok r

theorem Fed.ignored {r : Rd} {tag : Str} (hi : Ignores h r tag) {op e en body x a2 : Str} {as : Dict Str} {p1 : Str → OdtP} (x1 : saxRun .lt op = (.text [], [.start e as]))
    (xb : ∀ p r, Fed h body [] p r x p r) (x2 : saxRun .lt en = (.text a2, [.stop e]))
    (s1 : ∀ cm, (idleP ls cm).step (.start e as) = .ok (p1 cm, [.start tag []]))
    (s2 : ∀ cm s, (p1 cm).step (.chars s) = .ok (p1 cm, [.data s]))
    (s3 : ∀ cm, (p1 cm).step (.stop e) = .ok (idleP ls cm, [.stop tag])) (cm acc : Str) :
    Fed h ('<' :: op ++ (body ++ '<' :: en)) acc (idleP ls cm) r a2 (idleP ls cm) r :=
  Fed.heading x1 xb x2 s1 s2 s3 hi.start (by split; rfl; exact hi.data _) hi.stop cm acc

/-- Text in which nothing happens. -/
def Mute (h : Reader) (body x : Str) : Prop := ∀ a p r, Fed h body a p r (x.reverse ++ a) p r

theorem Mute.esc {t : Str} (ht : Carriable t) : Mute h (t.flatMap escChar) t := fun a p r => Fed.esc ht a p r
theorem Mute.plain {t : Str} (ht : t.all plainChar = true) : Mute h t t := fun a p r => Fed.plain ht a p r
theorem Mute.append {a b x y : Str} (h1 : Mute h a x) (h2 : Mute h b y) : Mute h (a ++ b) (x ++ y) := by
  intro acc p r
  have := (h1 acc p r).append (h2 (x.reverse ++ acc) p r)
  rw [List.reverse_append, List.append_assoc]
  exact this

theorem Fed.h2 {r : Rd} (hi : Ignores h r c!"h2") {body x : Str} (hb : Mute h body x) (cm acc : Str) :
    Fed h (h2Open ++ (body ++ hEnd)) acc (idleP ls cm) r c!"\n" (idleP ls cm) r :=
  Fed.ignored (op := c!"text:h text:style-name=\"Heading_20_2\" text:outline-level=\"2\">") (en := c!"/text:h>\n") (e := c!"text:h")
    (as := [(c!"text:style-name", c!"Heading_20_2"), (c!"text:outline-level", c!"2")]) (p1 := fun cm => headP ls cm c!"h2") hi (by decide +kernel)
    (x := x.reverse ++ []) (fun p r => hb [] p r) (by decide +kernel) (fun _ => rfl) (fun _ _ => rfl) (fun _ => rfl) cm acc

/-- The beginning of a heading of the third level. -/
def h3Plain : Str := c!"<text:h text:style-name=\"Heading_20_3\" text:outline-level=\"3\">"

theorem Fed.h3 {r : Rd} (hi : Ignores h r c!"h3") {body x : Str} (hb : Mute h body x) (cm acc : Str) :
    Fed h (h3Plain ++ (body ++ hEnd)) acc (idleP ls cm) r c!"\n" (idleP ls cm) r :=
  Fed.ignored (op := c!"text:h text:style-name=\"Heading_20_3\" text:outline-level=\"3\">") (en := c!"/text:h>\n") (e := c!"text:h")
    (as := [(c!"text:style-name", c!"Heading_20_3"), (c!"text:outline-level", c!"3")]) (p1 := fun cm => headP ls cm c!"h3") hi (by decide +kernel)
    (x := x.reverse ++ []) (fun p r => hb [] p r) (by decide +kernel) (fun _ => rfl) (fun _ _ => rfl) (fun _ => rfl) cm acc

theorem Fed.titleP {r : Rd} (hi : Ignores h r c!"p") {body x : Str} (hb : Mute h body x) (cm acc : Str) :
    Fed h (c!"<text:p text:style-name=\"Title\">" ++ (body ++ c!"</text:p>\n")) acc (idleP ls cm) r c!"\n" (idleP ls cm) r :=
  Fed.ignored (op := c!"text:p text:style-name=\"Title\">") (en := c!"/text:p>\n") (e := c!"text:p")
    (as := [(c!"text:style-name", c!"Title")]) (p1 := fun cm => lineP ls cm false []) hi (by decide +kernel)
    (x := x.reverse ++ []) (fun p r => hb [] p r) (by decide +kernel) (step_other (.inl rfl)) (fun _ _ => rfl) (fun _ => rfl) cm acc

theorem Fed.subtitleP {r : Rd} (hi : Ignores h r c!"p") {body x : Str} (hb : Mute h body x) (cm acc : Str) :
    Fed h (c!"<text:p text:style-name=\"Subtitle\">" ++ (body ++ c!"</text:p>\n")) acc (idleP ls cm) r c!"\n" (idleP ls cm) r :=
  Fed.ignored (op := c!"text:p text:style-name=\"Subtitle\">") (en := c!"/text:p>\n") (e := c!"text:p")
    (as := [(c!"text:style-name", c!"Subtitle")]) (p1 := fun cm => lineP ls cm false []) hi (by decide +kernel)
    (x := x.reverse ++ []) (fun p r => hb [] p r) (by decide +kernel) (step_other (.inr rfl)) (fun _ _ => rfl) (fun _ => rfl) cm acc

theorem Fed.footer (r : Rd) (cm acc : Str) : Fed h contentFooter acc (idleP ls cm) r c!"\n" (idleP ls cm) r := by
  have e : contentFooter = c!"  " ++ '<' :: c!"/office:text>\n </office:body>\n</office:document-content>\n" := rfl
  rw [e]
  refine (Fed.plain (by decide) acc _ _).append ?_
  refine ⟨saxPend (c!"  ".reverse ++ acc) ++ (saxRun .lt c!"/office:text>\n </office:body>\n</office:document-content>\n").2, ?_, (idle_pend cm _ _).append ?_⟩
  · rw [saxRun_lt]
    rfl
  · exact ⟨[], rfl, rfl⟩

/-! ### What comes back of a description -/

theorem rstrip_nl (s : Str) : Str.rstrip (s ++ c!"\n") = Str.rstrip s := rstrip_append_ws s _ (by intro c hc; simp at hc; subst hc; decide)

theorem rstrip_lines (t : Str) : Str.rstrip ((Spec.linesOf t).flatMap (fun l => Str.strip l ++ c!"\n")) = tidy t := by
  have e : (Spec.linesOf t).flatMap (fun l => Str.strip l ++ c!"\n") = ((Spec.linesOf t).map Str.strip).flatMap (fun l => l ++ c!"\n") := by
    rw [List.flatMap_map]
  rw [e, joinLines _ (by intro h; exact Str.split_ne_nil _ _ (List.map_eq_nil_iff.1 h)), rstrip_nl]
  rfl

/-! ### Locations and items -/

/-- The text of a sheet. -/
def sheetText (mark id head desc : Str) : Str :=
  (h2Open ++ (head ++ hEnd)) ++ (secOpen (mark ++ c!":" ++ id) ++ ((pOpen bodyStyle ++ (desc ++ pEnd)) ++ (c!"\n" ++ secEnd)))

theorem subst_sheet {mark : Str} (hm : mark = c!"LcID" ∨ mark = c!"ItID") {m : Mapping} {t a id d : Str} (h1 : m.get? c!"Title" = some t) (h2 : m.get? c!"AKA" = some a)
    (h3 : m.get? c!"ID" = some id) (h4 : m.get? c!"Desc" = some d) : subst (elementSheet mark) m = sheetText mark id (t ++ a) d := by
  have e : segs (elementSheet mark) = h2Open.map Seg.lit ++ (Seg.var c!"Title" c!"$Title" :: Seg.var c!"AKA" c!"$AKA" :: (hEnd.map Seg.lit ++
      (c!"<text:section text:style-name=\"Sect1\" text:name=\"".map Seg.lit ++ (mark.map Seg.lit ++ (c!":".map Seg.lit ++ (Seg.var c!"ID" c!"$ID" :: (c!"\">\n".map Seg.lit ++
      ((pOpen bodyStyle).map Seg.lit ++ (Seg.var c!"Desc" c!"$Desc" :: (pEnd.map Seg.lit ++ (c!"\n".map Seg.lit ++ secEnd.map Seg.lit))))))))))) := by
    rcases hm with rfl | rfl <;> decide +kernel
  unfold subst
  rw [e]
  simp only [List.flatMap_append, List.flatMap_cons, render_lits, render, h1, h2, h3, h4, Option.getD_some]
  unfold sheetText secOpen
  simp only [List.append_assoc]

/-- The reader of locations or items. -/
def wr (m : Novel) (L : List Str) (id : Option Str) : Rd := { novel := m, lines := L, elId := id }

/-- The element that is read, created if it does not exist. -/
def knownElement (w : WorldKind) (id : Str) (m : Novel) : Novel := if (w.get m).has id then m else w.put (w.add m id) ((w.get m).set id {})

/-- What reading a sheet does. -/
def descBack (w : WorldKind) (id t : Str) (m : Novel) : Novel :=
  w.put (knownElement w id m) ((w.get (knownElement w id m)).modify id (fun e => { e with desc := some t }))

variable {w : WorldKind}

theorem wr_collects (m : Novel) (id : Str) : Collects (worldReader w) (wr m [] (some id)) Str.strip := ⟨fun _ => rfl, fun _ => rfl, fun _ _ => rfl, rfl⟩

theorem wr_ignores (m : Novel) {tag : Str} (ht : tag ≠ c!"div" ∧ tag ≠ c!"s") : Ignores (worldReader w) (wr m [] none) tag := by
  refine ⟨?_, fun _ => rfl, rfl⟩
  show weStart w (wr m [] none) tag [] = _
  unfold weStart
  rw [if_neg ht.1, if_neg ht.2]

theorem wr_start (hw : w = locationKind ∨ w = itemKind) (m : Novel) {id : Str} (hid : NumId id) :
    worldReader w (wr m [] none) (.start c!"div" [(c!"id", some (w.mark ++ c!":" ++ id))]) = .ok (wr (knownElement w id m) [] (some id)) := by
  have h1 : Rd.firstNumber (w.mark ++ c!":" ++ id) = .ok id := by
    apply firstNumber_id _ hid
    rcases hw with rfl | rfl <;> decide
  have h2 : Str.startsWith (w.mark ++ c!":" ++ id) w.mark = true := by
    unfold Str.startsWith
    rw [List.isPrefixOf_iff_prefix, List.append_assoc]
    exact List.prefix_append _ _
  show weStart w (wr m [] none) c!"div" [(c!"id", some (w.mark ++ c!":" ++ id))] = _
  unfold weStart
  rw [if_pos rfl]
  simp only [Option.getD_some]
  rw [if_pos ⟨trivial, h2⟩, h1]
  rfl

theorem known_has (hw : w = locationKind ∨ w = itemKind) (m : Novel) (id : Str) : (w.get (knownElement w id m)).has id = true := by
  unfold knownElement
  split
  · assumption
  · unfold Dict.has
    rcases hw with rfl | rfl
    · show (Dict.get? (Dict.set m.locations id {}) id).isSome = true
      rw [Dict.get?_set_self]
      rfl
    · show (Dict.get? (Dict.set m.items id {}) id).isSome = true
      rw [Dict.get?_set_self]
      rfl

theorem wr_stop (hw : w = locationKind ∨ w = itemKind) (m : Novel) (id : Str) (L : List Str) :
    worldReader w (wr (knownElement w id m) L (some id)) (.stop c!"div") = .ok (wr (descBack w id (Str.rstrip L.flatten) m) [] none) := by
  show weStop w (wr (knownElement w id m) L (some id)) c!"div" = _
  unfold weStop
  show (if (w.get (knownElement w id m)).has id = true then _ else _) = _
  rw [if_pos (known_has hw m id)]
  rfl

theorem Fed.sheet (hw : w = locationKind ∨ w = itemKind) (m : Novel) {id head x : Str} (hid : NumId id) (hx : Mute (worldReader w) head x) {desc : Option Str} (hd : CarriableO desc)
    (cm acc : Str) : Fed (worldReader w) (sheetText w.mark id head (odtConvert desc false)) acc (idleP ls cm) (wr m [] none) c!"\n" (idleP ls cm)
      (wr (descBack w id (tidy (desc.getD [])) m) [] none) := by
  unfold sheetText
  obtain ⟨L, f1, e1⟩ := Fed.paragraphs (h := worldReader w) (ls := ls) (wr_collects (knownElement w id m) id) cm c!"\n" hd (st := bodyStyle) (.inr rfl) []
  have hn : (w.mark ++ c!":" ++ id).all plainAttr = true := by
    rw [List.all_append, Bool.and_eq_true]
    refine ⟨?_, (digits_plain hid.2).1⟩
    rcases hw with rfl | rfl <;> decide
  refine (Fed.h2 (wr_ignores m (by decide)) hx cm acc).append ((Fed.section hn (wr_start hw m hid) cm _).append (f1.append ((Fed.newline _ _ _ _).append (Fed.sectionEnd ?_ cm _))))
  have := wr_stop hw m id L
  rw [e1] at this
  have e2 := rstrip_lines (desc.getD [])
  rw [List.flatten_nil, List.nil_append, e2] at this
  exact this

end Verif
