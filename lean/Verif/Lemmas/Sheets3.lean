/-
Character sheets.
-/
import Verif.Lemmas.Sheets2

namespace Verif
open Spec Re Template

variable {ls : List Str}

/-- The text of a section of a character sheet. -/
def personSection (heading mark id d : Str) : Str :=
  (h3Plain ++ (heading ++ hEnd)) ++ (secOpen (c!"CrID_" ++ mark ++ c!":" ++ id) ++ ((pOpen bodyStyle ++ (d ++ pEnd)) ++ (c!"\n" ++ secEnd)))

/-- The text of a character sheet. -/
def personText (id head d b g k : Str) : Str :=
  (h2Open ++ (head ++ hEnd)) ++ (secOpen (c!"CrID:" ++ id) ++ (personSection c!"Description" c!"desc" id d ++ (personSection c!"Bio" c!"bio" id b ++
    (personSection c!"Goals" c!"goals" id g ++ (personSection c!"Notes" c!"notes" id k ++ secEnd)))))

/-- The parts of the template of a section. -/
def sectionSegs (heading mark field : Str) : List Seg :=
  h3Plain.map Seg.lit ++ (heading.map Seg.lit ++ (hEnd.map Seg.lit ++ (c!"<text:section text:style-name=\"Sect1\" text:name=\"".map Seg.lit ++ (c!"CrID_".map Seg.lit ++
    (mark.map Seg.lit ++ (c!":".map Seg.lit ++ (Seg.var c!"ID" c!"$ID" :: (c!"\">\n".map Seg.lit ++ ((pOpen bodyStyle).map Seg.lit ++ (Seg.var field ('$' :: field) ::
    (pEnd.map Seg.lit ++ (c!"\n".map Seg.lit ++ secEnd.map Seg.lit))))))))))))

theorem section_render {m : Mapping} {heading mark field id d : Str} (h1 : m.get? c!"ID" = some id) (h2 : m.get? field = some d) :
    (sectionSegs heading mark field).flatMap (render m) = personSection heading mark id d := by
  unfold sectionSegs
  simp only [List.flatMap_append, List.flatMap_cons, render_lits, render, h1, h2, Option.getD_some]
  unfold personSection secOpen
  simp only [List.append_assoc]

theorem subst_person {m : Mapping} {t f a id d b g k : Str} (h1 : m.get? c!"Title" = some t) (h2 : m.get? c!"FullName" = some f) (h3 : m.get? c!"AKA" = some a)
    (h4 : m.get? c!"ID" = some id) (h5 : m.get? c!"Desc" = some d) (h6 : m.get? c!"Bio" = some b) (h7 : m.get? c!"Goals" = some g) (h8 : m.get? c!"Notes" = some k) :
    subst personSheet m = personText id (t ++ (f ++ a)) d b g k := by
  have e : segs personSheet = h2Open.map Seg.lit ++ (Seg.var c!"Title" c!"$Title" :: Seg.var c!"FullName" c!"$FullName" :: Seg.var c!"AKA" c!"$AKA" :: (hEnd.map Seg.lit ++
      (c!"<text:section text:style-name=\"Sect1\" text:name=\"".map Seg.lit ++ (c!"CrID:".map Seg.lit ++ (Seg.var c!"ID" c!"$ID" :: (c!"\">\n".map Seg.lit ++
      (sectionSegs c!"Description" c!"desc" c!"Desc" ++ (sectionSegs c!"Bio" c!"bio" c!"Bio" ++ (sectionSegs c!"Goals" c!"goals" c!"Goals" ++
      (sectionSegs c!"Notes" c!"notes" c!"Notes" ++ secEnd.map Seg.lit)))))))))) := by decide +kernel
  unfold subst
  rw [e]
  simp only [List.flatMap_append, List.flatMap_cons, render_lits, section_render h4 h5, section_render h4 h6, section_render h4 h7, section_render h4 h8]
  simp only [render, h1, h2, h3, h4, Option.getD_some]
  unfold personText secOpen
  simp only [List.append_assoc]

/-! ### The reader -/

/-- The reader of characters. -/
def cr (m : Novel) (L : List Str) (s id : Option Str) : Rd := { novel := m, lines := L, sect := s, elId := id }

theorem cr_collects (m : Novel) (s id : Str) : Collects charactersReader (cr m [] (some s) (some id)) Str.strip := ⟨fun _ => rfl, fun _ => rfl, fun _ _ => rfl, rfl⟩

theorem cr_ignores (m : Novel) (id : Option Str) {tag : Str} (ht : tag = c!"h2" ∨ tag = c!"h3") : Ignores charactersReader (cr m [] none id) tag := by
  rcases ht with rfl | rfl <;> exact ⟨rfl, fun _ => rfl, by cases id <;> rfl⟩

theorem cr_deaf (m : Novel) : Deaf charactersReader { novel := m } := by
  refine ⟨?_, fun _ => rfl, fun _ _ => rfl⟩
  intro t as h1 h2
  show crStart { novel := m } t as = _
  unfold crStart
  rw [if_neg h1, if_neg h2]

/-- The character that is read, created if it does not exist. -/
def knownPerson (id : Str) (m : Novel) : Novel :=
  if m.characters.has id then m else { m with srtCharacters := m.srtCharacters ++ [id], characters := m.characters.set id {} }

/-- Storing a text of a character. -/
def partBack (id s t : Str) (m : Novel) : Novel := { m with characters := m.characters.modify id (setSection s t) }

theorem cr_outer (m : Novel) (id0 : Option Str) {id : Str} : charactersReader (cr m [] none id0) (.start c!"div" [(c!"id", some (c!"CrID:" ++ id))]) = .ok (cr m [] none id0) := rfl

theorem cr_desc (m : Novel) (id0 : Option Str) {id : Str} (hid : NumId id) :
    charactersReader (cr m [] none id0) (.start c!"div" [(c!"id", some (c!"CrID_" ++ c!"desc" ++ c!":" ++ id))]) = .ok (cr (knownPerson id m) [] (some c!"desc") (some id)) := by
  have h1 : Rd.firstNumber (c!"CrID_" ++ c!"desc" ++ c!":" ++ id) = .ok id := firstNumber_id (by decide) hid
  have h2 : Str.startsWith (c!"CrID_" ++ c!"desc" ++ c!":" ++ id) c!"CrID_desc" = true := rfl
  show crStart (cr m [] none id0) c!"div" [(c!"id", some (c!"CrID_" ++ c!"desc" ++ c!":" ++ id))] = _
  unfold crStart
  rw [if_pos rfl]
  simp only [Option.getD_some]
  rw [if_pos trivial, if_pos h2, h1]
  rfl

theorem cr_other (m : Novel) (id : Str) {s : Str} (hs : s = c!"bio" ∨ s = c!"goals" ∨ s = c!"notes") (id' : Str) :
    charactersReader (cr m [] none (some id)) (.start c!"div" [(c!"id", some (c!"CrID_" ++ s ++ c!":" ++ id'))]) = .ok (cr m [] (some s) (some id)) := by
  rcases hs with rfl | rfl | rfl <;> rfl

theorem cr_stop {m : Novel} {id : Str} (hm : m.characters.has id = true) (s : Str) (L : List Str) :
    charactersReader (cr m L (some s) (some id)) (.stop c!"div") = .ok (cr (partBack id s (Str.rstrip L.flatten) m) [] none (some id)) := by
  show crStop (cr m L (some s) (some id)) c!"div" = _
  unfold crStop
  show (if m.characters.has id = true then _ else _) = _
  rw [if_pos hm]
  rfl

theorem partBack_has {m : Novel} {id : Str} (hm : m.characters.has id = true) (s t : Str) : (partBack id s t m).characters.has id = true := by
  unfold Dict.has at hm ⊢
  show ((m.characters.modify id _).get? id).isSome = true
  rw [Dict.get?_modify_self, Option.isSome_map]
  exact hm

theorem known_person (m : Novel) (id : Str) : (knownPerson id m).characters.has id = true := by
  unfold knownPerson
  split
  · assumption
  · unfold Dict.has
    show ((m.characters.set id {}).get? id).isSome = true
    rw [Dict.get?_set_self]
    rfl

theorem personName_plain {s id : Str} (hs : s = c!"desc" ∨ s = c!"bio" ∨ s = c!"goals" ∨ s = c!"notes") (hid : NumId id) : (c!"CrID_" ++ s ++ c!":" ++ id).all plainAttr = true := by
  rw [List.all_append, Bool.and_eq_true]
  refine ⟨?_, (digits_plain hid.2).1⟩
  rcases hs with rfl | rfl | rfl | rfl <;> decide

theorem Fed.part {m m1 : Novel} {id0 : Option Str} {id s heading : Str} (hs : s = c!"desc" ∨ s = c!"bio" ∨ s = c!"goals" ∨ s = c!"notes") (hid : NumId id)
    (hh : heading.all plainChar = true)
    (hst : charactersReader (cr m [] none id0) (.start c!"div" [(c!"id", some (c!"CrID_" ++ s ++ c!":" ++ id))]) = .ok (cr m1 [] (some s) (some id)))
    (hm : m1.characters.has id = true) {d : Option Str} (hd : CarriableO d) (cm acc : Str) :
    Fed charactersReader (personSection heading s id (odtConvert d false)) acc (idleP ls cm) (cr m [] none id0) c!"\n" (idleP ls cm)
      (cr (partBack id s (tidy (d.getD [])) m1) [] none (some id)) := by
  unfold personSection
  obtain ⟨L, f1, e1⟩ := Fed.paragraphs (ls := ls) (cr_collects m1 s id) cm c!"\n" hd (st := bodyStyle) (.inr rfl) []
  refine (Fed.h3 (cr_ignores m id0 (.inr rfl)) (Mute.plain hh) cm acc).append ((Fed.section (personName_plain hs hid) hst cm _).append
    (f1.append ((Fed.newline _ _ _ _).append (Fed.sectionEnd ?_ cm _))))
  have := cr_stop hm s L
  rw [e1] at this
  have e2 := rstrip_lines (d.getD [])
  rw [List.flatten_nil, List.nil_append, e2] at this
  exact this

/-- What reading a sheet does. -/
def personBack (id d b g k : Str) (m : Novel) : Novel :=
  partBack id c!"notes" k (partBack id c!"goals" g (partBack id c!"bio" b (partBack id c!"desc" d (knownPerson id m))))

theorem Fed.personText (m : Novel) (id0 : Option Str) {id head x : Str} (hid : NumId id) (hx : Mute charactersReader head x) {d b g k : Option Str} (h1 : CarriableO d)
    (h2 : CarriableO b) (h3 : CarriableO g) (h4 : CarriableO k) (cm acc : Str) :
    Fed charactersReader (personText id head (odtConvert d false) (odtConvert b false) (odtConvert g false) (odtConvert k false)) acc (idleP ls cm) (cr m [] none id0) c!"\n"
      (idleP ls cm) (cr (personBack id (tidy (d.getD [])) (tidy (b.getD [])) (tidy (g.getD [])) (tidy (k.getD [])) m) [] none (some id)) := by
  have hn : (c!"CrID:" ++ id).all plainAttr = true := by
    rw [List.all_append, Bool.and_eq_true]
    exact ⟨by decide, (digits_plain hid.2).1⟩
  have m0 := known_person m id
  have m1 := partBack_has m0 c!"desc" (tidy (d.getD []))
  have m2 := partBack_has m1 c!"bio" (tidy (b.getD []))
  have m3 := partBack_has m2 c!"goals" (tidy (g.getD []))
  refine (Fed.h2 (cr_ignores m id0 (.inl rfl)) hx cm acc).append ((Fed.section hn (cr_outer m id0) cm _).append ?_)
  refine (Fed.part (.inl rfl) hid (by decide) (cr_desc m id0 hid) m0 h1 cm _).append ?_
  refine (Fed.part (.inr (.inl rfl)) hid (by decide) (cr_other _ id (.inl rfl) id) m1 h2 cm _).append ?_
  refine (Fed.part (.inr (.inr (.inl rfl))) hid (by decide) (cr_other _ id (.inr (.inl rfl)) id) m2 h3 cm _).append ?_
  refine (Fed.part (.inr (.inr (.inr rfl))) hid (by decide) (cr_other _ id (.inr (.inr rfl)) id) m3 h4 cm _).append ?_
  exact Fed.sectionEnd rfl cm _

/-! ### All sheets -/

/-- The part of the heading for the full name. -/
def fullPart (name : Option Str) : Str := if name.getD [] = [] then [] else c!"/" ++ name.getD []

theorem full_value {name : Option Str} {m : Mapping} (h : m.get? c!"FullName" = some (odtConvert name true)) :
    (withFullName name m).get? c!"FullName" = some (fullPart name) := by
  unfold withFullName fullPart
  split
  · rename_i e
    rw [h]
    cases name with
    | none => rfl
    | some t =>
      rw [Option.getD_some] at e
      subst e
      rfl
  · rw [Dict.get?_set_self]

theorem full_other {name : Option Str} {m : Mapping} {k : Str} (hk : k ≠ c!"FullName") : (withFullName name m).get? k = m.get? k := by
  unfold withFullName
  split
  · rfl
  · rw [get?_set_other hk.symm]

theorem fullPart_plain {name : Option Str} (h : ∀ t, name = some t → Plain t) : (fullPart name).all plainChar = true ∧ '\r' ∉ fullPart name := by
  have hp : Plain (name.getD []) := by
    cases name with
    | none => intro c hc; cases hc
    | some t => exact h t rfl
  unfold fullPart
  split
  · exact ⟨rfl, by simp⟩
  · refine ⟨?_, ?_⟩
    · rw [List.all_append, plain_all hp]
      decide
    · simp only [List.mem_append, not_or]
      exact ⟨by decide, fun hm => (hp _ hm).2.2.2.2 rfl⟩

/-- The sheet of a character. -/
def personLine (id : Str) (c : Character) : Str :=
  personText id ((c.title.getD []).flatMap escChar ++ (fullPart c.fullName ++ akaPart c.aka)) (odtConvert c.desc false) (odtConvert c.bio false) (odtConvert c.goals false)
    (odtConvert c.notes false)

theorem person_line (e : DocEnv) (n : Novel) {id : Str} {c : Character} (hc : n.characters.get? id = some c) (hx : PersonFits id c) {m : Mapping}
    (hm : e.plainBase.character n id = .ok m) : subst personSheet (withFullName c.fullName (withAka c.aka m)) = personLine id c := by
  unfold Base.character at hm
  rw [Dict.get!_of hc] at hm
  injection hm with hm
  subst hm
  have other : ∀ k, k ≠ c!"FullName" → k ≠ c!"AKA" → ∀ m : Mapping, (withFullName c.fullName (withAka c.aka m)).get? k = m.get? k := by
    intro k h1 h2 m
    rw [full_other h1, aka_other h2]
  refine subst_person ?_ ?_ ?_ ?_ ?_ ?_ ?_ ?_
  · rw [other _ (by decide) (by decide), ← (odtConvert_title hx.title).1]
    rfl
  · refine full_value ?_
    rw [aka_other (by decide)]
    rfl
  · rw [full_other (by decide)]
    exact aka_value rfl
  all_goals rw [other _ (by decide) (by decide)]; rfl

theorem personSection_cr {heading mark id d : Str} (h0 : '\r' ∉ heading) (hm : '\r' ∉ mark) (h1 : '\r' ∉ id) (h3 : '\r' ∉ d) : '\r' ∉ personSection heading mark id d := by
  unfold personSection secOpen pOpen
  simp only [List.mem_append, not_or]
  exact ⟨⟨by decide, h0, by decide⟩, ⟨⟨by decide, ⟨⟨by decide, hm⟩, by decide⟩, h1⟩, by decide⟩, ⟨⟨⟨by decide, by decide⟩, by decide⟩, h3, by decide⟩, by decide, by decide⟩

theorem personLine_cr {id : Str} {c : Character} (hx : PersonFits id c) : '\r' ∉ personLine id c := by
  have hi := num_cr hx.number
  unfold personLine personText secOpen
  simp only [List.mem_append, not_or]
  exact ⟨⟨by decide, ⟨esc_cr (odtConvert_title hx.title).2, (fullPart_plain hx.fullName).2, (akaPart_plain hx.aka).2⟩, by decide⟩, ⟨⟨by decide, by decide, hi⟩, by decide⟩,
    personSection_cr (by decide) (by decide) hi (odtConvert_cr hx.desc), personSection_cr (by decide) (by decide) hi (odtConvert_cr hx.bio),
    personSection_cr (by decide) (by decide) hi (odtConvert_cr hx.goals), personSection_cr (by decide) (by decide) hi (odtConvert_cr hx.notes), by decide⟩

/-- What comes back of a character. -/
def personRead (c x : Character) : Character := { x with desc := tidyDesc c.desc, bio := tidyDesc c.bio, goals := tidyDesc c.goals, notes := tidyDesc c.notes }

/-- Reading the sheet of a character. -/
def characterBack (id : Str) (c : Character) (m : Novel) : Novel :=
  personBack id (tidy (c.desc.getD [])) (tidy (c.bio.getD [])) (tidy (c.goals.getD [])) (tidy (c.notes.getD [])) m

/-- Reading all sheets. -/
def charactersBack (d : Dict Character) : List Str → Novel → Novel
  | [], m => m
  | id :: ids, m => charactersBack d ids (characterBack id ((d.get? id).getD {}) m)

theorem Fed.persons {d : Dict Character} (ids : List Str) (hx : PersonsFit ids d) (m : Novel) (id0 : Option Str) (cm acc : Str) :
    ∃ acc', Fed charactersReader (ids.flatMap (fun id => personLine id ((d.get? id).getD {}))) acc (idleP ls cm) (cr m [] none id0) acc' (idleP ls cm)
      (cr (charactersBack d ids m) [] none (ids.foldl (fun _ i => some i) id0)) := by
  induction ids generalizing m acc id0 with
  | nil => exact ⟨acc, Fed.nil _ _ _ _⟩
  | cons id ids ih =>
    obtain ⟨x, h1, h2⟩ := hx id (by simp)
    obtain ⟨acc', f⟩ := ih (fun i hi => hx i (by simp [hi])) (characterBack id x m) (some id) c!"\n"
    refine ⟨acc', ?_⟩
    unfold charactersBack
    rw [List.flatMap_cons, h1, Option.getD_some]
    refine Fed.append (Fed.personText (x := x.title.getD [] ++ (fullPart x.fullName ++ akaPart x.aka)) m id0 h2.number ?_ h2.desc h2.bio h2.goals h2.notes cm acc) f
    exact (Mute.esc (odtConvert_title h2.title).2).append ((Mute.plain (fullPart_plain h2.fullName).1).append (Mute.plain (akaPart_plain h2.aka).1))

theorem persons_cr {d : Dict Character} (ids : List Str) (hx : PersonsFit ids d) : '\r' ∉ ids.flatMap (fun id => personLine id ((d.get? id).getD {})) := by
  rw [List.mem_flatMap]
  rintro ⟨id, hid, hm2⟩
  obtain ⟨x, h1, h2⟩ := hx id hid
  rw [h1, Option.getD_some] at hm2
  exact personLine_cr h2 hm2

theorem persons_lines (e : DocEnv) (n : Novel) (ids : List Str) (hx : PersonsFit ids n.characters) {l : List Str}
    (hl : elementLines personSheet ((odtCharacters e).characterMapping n) ids = .ok l) : l.flatten = ids.flatMap (fun id => personLine id ((n.characters.get? id).getD {})) := by
  induction ids generalizing l with
  | nil =>
    cases hl
    rfl
  | cons id ids ih =>
    obtain ⟨x, h1, h2⟩ := hx id (by simp)
    unfold elementLines at hl
    obtain ⟨m0, hm0, hl⟩ := bind_ok hl
    obtain ⟨rest, hr, hl⟩ := bind_ok hl
    injection hl with hl
    obtain ⟨m1, hm1, hm0⟩ := bind_ok hm0
    rw [Dict.get!_of h1] at hm0
    injection hm0 with hm0
    rw [← hl, List.flatten_cons, ih (fun i hi => hx i (by simp [hi])) hr, List.flatMap_cons, h1, Option.getD_some, ← hm0]
    exact congrArg (· ++ _) (person_line e n h1 h2 hm1)

/-! ### What the import does, described without the loop -/

theorem characterBack_get (id : Str) (c : Character) (m : Novel) (k : Str) :
    (characterBack id c m).characters.get? k = if id = k then some (personRead c ((m.characters.get? k).getD {})) else m.characters.get? k := by
  show ((((Dict.modify (Dict.modify (knownPerson id m).characters id _) id _).modify id _).modify id _).get? k) = _
  rw [Dict.get?_modify, Dict.get?_modify, Dict.get?_modify, Dict.get?_modify]
  by_cases hk : id = k
  · subst hk
    rw [if_pos rfl, if_pos rfl, if_pos rfl, if_pos rfl, if_pos rfl]
    unfold knownPerson
    split
    · rename_i hh
      unfold Dict.has at hh
      obtain ⟨x, hx⟩ := Option.isSome_iff_exists.1 hh
      rw [hx]
      rfl
    · rename_i hh
      have e : m.characters.get? id = none := by
        unfold Dict.has at hh
        simpa using hh
      show Option.map _ (Option.map _ (Option.map _ (Option.map _ ((m.characters.set id {}).get? id)))) = _
      rw [Dict.get?_set_self, e]
      rfl
  · rw [if_neg hk, if_neg hk, if_neg hk, if_neg hk, if_neg hk]
    unfold knownPerson
    split
    · rfl
    · exact Dict.get?_set_ne _ _ hk

theorem charactersBack_get (d : Dict Character) (ids : List Str) (m : Novel) (k : Str) :
    (charactersBack d ids m).characters.get? k =
      if k ∈ ids then some (personRead ((d.get? k).getD {}) ((m.characters.get? k).getD {})) else m.characters.get? k := by
  induction ids generalizing m with
  | nil => rfl
  | cons id ids ih =>
    unfold charactersBack
    rw [ih, characterBack_get]
    by_cases e : id = k
    · subst e
      rw [if_pos rfl, if_pos (c := id ∈ id :: ids) (by simp)]
      split
      · rfl
      · rfl
    · rw [if_neg e]
      by_cases h2 : k ∈ ids
      · rw [if_pos h2, if_pos (by simp [h2])]
      · rw [if_neg h2, if_neg]
        rw [List.mem_cons]
        rintro (h | h)
        · exact e h.symm
        · exact h2 h

theorem characterBack_frame {id : Str} {m : Novel} (hk : m.characters.has id = true) (c : Character) :
    ∃ d, characterBack id c m = { m with characters := d } ∧ d.keys = m.characters.keys := by
  have e : knownPerson id m = m := by
    unfold knownPerson
    rw [if_pos hk]
  unfold characterBack personBack
  rw [e]
  have k : ∀ s t m, (partBack id s t m).characters.keys = m.characters.keys := fun s t m => Dict.keys_modify ..
  refine ⟨_, rfl, ?_⟩
  rw [Dict.keys_modify, k, k, k]

theorem charactersBack_frame (d : Dict Character) (ids : List Str) (m : Novel) (hk : ∀ id ∈ ids, m.characters.has id = true) :
    ∃ d', charactersBack d ids m = { m with characters := d' } ∧ d'.keys = m.characters.keys := by
  induction ids generalizing m with
  | nil => exact ⟨m.characters, rfl, rfl⟩
  | cons id ids ih =>
    unfold charactersBack
    obtain ⟨d1, g1, g2⟩ := characterBack_frame (hk id (by simp)) ((d.get? id).getD {})
    obtain ⟨d', h1, h2⟩ := ih (characterBack id ((d.get? id).getD {}) m) (by
      intro i hi
      have := hk i (by simp [hi])
      unfold Dict.has at this ⊢
      rw [characterBack_get]
      split
      · rfl
      · exact this)
    rw [g1] at h1 h2
    exact ⟨d', by rw [g1, h1], by rw [h2]; exact g2⟩

/-- The texts of a character are tidy. -/
def TidyPerson (c : Character) : Prop := tidyDesc c.desc = c.desc ∧ tidyDesc c.bio = c.bio ∧ tidyDesc c.goals = c.goals ∧ tidyDesc c.notes = c.notes

theorem charactersBack_same (ids : List Str) (m : Novel) (hk : ∀ id ∈ ids, ∃ c, m.characters.get? id = some c ∧ TidyPerson c) : charactersBack m.characters ids m = m := by
  induction ids with
  | nil => rfl
  | cons id ids ih =>
    unfold charactersBack
    obtain ⟨c, h1, h2, h3, h4, h5⟩ := hk id (by simp)
    have e : characterBack id c m = m := by
      unfold characterBack personBack knownPerson
      rw [if_pos (has_of h1)]
      have key : ∀ s t, setSection s t c = c → partBack id s t m = m := by
        intro s t hs
        unfold partBack
        rw [Dict.modify_same h1 hs]
      unfold tidyDesc at h2 h3 h4 h5
      rw [key c!"desc" _ (by show { c with desc := _ } = c; rw [h2]), key c!"bio" _ (by show { c with bio := _ } = c; rw [h3]),
        key c!"goals" _ (by show { c with goals := _ } = c; rw [h4]), key c!"notes" _ (by show { c with notes := _ } = c; rw [h5])]
    rw [h1, Option.getD_some, e]
    exact ih (fun i hi => hk i (by simp [hi]))

end Verif
