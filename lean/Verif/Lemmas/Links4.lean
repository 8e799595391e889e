import Verif.Lemmas.Links3

namespace Verif
open Spec Template

/-! ### Documents -/

theorem Shows.fed {h : Reader} {s : Str} {p p' : Str → OdtP} {r r' : Str → Rd} (f : ∀ acc, ∃ acc', Fed h s acc (p acc) (r acc) acc' (p' acc) (r' acc)) : Shows s [] := by
  intro acc
  obtain ⟨acc', evs, x, _⟩ := f acc
  exact ⟨acc', evs, x, by simp⟩

/-- A document with a header. -/
theorem Shows.after {H s : Str} {l : List Str} (hH : ∃ a es, saxRun (.text []) H = (.text a, es)) (h : Shows s l) (hcr : '\r' ∉ H ++ s) : ∀ x ∈ l, HasRegion (H ++ s) x := by
  intro x hx
  obtain ⟨a0, e0, r0⟩ := hH
  obtain ⟨a, e, r, y⟩ := h a0
  obtain ⟨as, g1, g2⟩ := y x hx
  refine ⟨(e0 ++ e) ++ saxPend a, as, ?_, List.mem_append_left _ (List.mem_append_right _ g1), g2⟩
  unfold saxEvents
  rw [normEol_id hcr, saxRun_comp r0 r]

theorem header_run {ls : List Str} (hL : ∀ l ∈ ls, LangCode l) : ∃ a es, saxRun (.text []) (formattedHeader ls) = (.text a, es) := by
  obtain ⟨a, es, x, _⟩ := Fed.header (h := worldReader locationKind) hL (wr {} [] none)
  exact ⟨a, es, x⟩

theorem footer_shows : Shows contentFooter [] := by
  intro acc
  obtain ⟨es, x, _⟩ := Fed.footer (h := worldReader locationKind) (ls := []) (wr {} [] none) [] acc
  exact ⟨_, es, x, by simp⟩

/-- The sections of the manuscript. -/
theorem manuscript_regions (name path : Str) {n : Novel} (hn : Exportable n) (hi : Inherits n) (hw : ManuscriptWritable n) :
    ∃ text, formattedText (odtManuscript (formattedEnv name path)) n = .ok text ∧ ∀ x ∈ n.srtChapters.flatMap (chapterSections n), HasRegion text x := by
  obtain ⟨e, he⟩ : ∃ e, e = formattedEnv name path := ⟨_, rfl⟩
  obtain ⟨ls, hls⟩ : ∃ ls, n.languages.getD [] = ls := ⟨_, rfl⟩
  have hL : ∀ l ∈ ls, LangCode l := by rw [← hls]; exact hw.languages
  have hf : (formats ls).Nodup := by
    have hd : ls.Nodup := by rw [← hls]; exact hw.distinct
    unfold formats
    rw [List.nodup_cons, List.nodup_cons]
    refine ⟨?_, ?_, ?_⟩
    · simp
    · simp
    · refine List.Pairwise.map _ ?_ hd
      intro a b hab e
      exact hab (List.append_cancel_left e)
  obtain ⟨t1, ht1, ht2⟩ := conv_title e n hw.title
  obtain ⟨a1, ha1, ha2⟩ := conv_title e n (author_carriable hw.author)
  obtain ⟨chs, hchs⟩ := getChapters_total hn (odtManuscript_total e hn)
  have hchs' : chs = Spec.manuscript (odtManuscript e) n [] n.srtChapters := getChapters_spec (C29_writers e).2.1 hi hchs
  have hh : ∃ hm, (odtManuscript e).headerMapping n = .ok hm ∧ hm.get? c!"ContentHeader" = some (formattedHeader ls) ∧ hm.get? c!"Title" = some (t1.flatMap escChar) ∧
      hm.get? c!"AuthorName" = some (a1.flatMap escChar) := by
    have h0 : e.formattedBase.header n = .ok _ := rfl
    refine ⟨_, rfl, ?_, ?_, ?_⟩
    · rw [Dict.get?_set_self, he, hls]
      rfl
    · rw [get?_set_other (by decide), ← ht1]
      rfl
    · rw [get?_set_other (by decide), ← ha1]
      rfl
  obtain ⟨hm, hm0, hm1, hm2, hm3⟩ := hh
  have htext : formattedText (odtManuscript e) n = .ok (quotations ([subst titleTemplate hm] ++ chs ++ [contentFooter]).flatten) := by
    unfold formattedText getFileHeader
    rw [hm0, hchs]
    rfl
  rw [subst_title hm1 hm2 hm3] at htext
  obtain ⟨b', qb, hb'⟩ : ShowsPart (((c!"<text:p text:style-name=\"Title\">" ++ (t1.flatMap escChar ++ c!"</text:p>\n")) ++ (c!"<text:p text:style-name=\"Subtitle\">" ++ (a1.flatMap escChar ++ c!"</text:p>\n"))) ++
      chs.flatten) (n.srtChapters.flatMap (chapterSections n)) := by
    refine (ShowsPart.even ((title_even ht2).append (subtitle_even ha2))).append ?_
    rw [hchs']
    refine manuscript_shows e hn hls hL hf hw.author n.srtChapters (fun id h => h) ?_ []
    intro id hid ch hch hsh
    refine ⟨hw.chapters id hid ch hch hsh, ?_⟩
    intro p hp
    rw [← hls]
    refine hw.scenes p ?_
    unfold exported
    rw [List.mem_flatMap]
    exact ⟨id, hid, by rw [hch]; exact hp⟩
  obtain ⟨body, hbody⟩ : ∃ b, b = ((c!"<text:p text:style-name=\"Title\">" ++ (t1.flatMap escChar ++ c!"</text:p>\n")) ++ (c!"<text:p text:style-name=\"Subtitle\">" ++ (a1.flatMap escChar ++ c!"</text:p>\n"))) ++
        chs.flatten := ⟨_, rfl⟩
  have etext : ([formattedHeader ls ++ ((c!"<text:p text:style-name=\"Title\">" ++ (t1.flatMap escChar ++ c!"</text:p>\n")) ++ (c!"<text:p text:style-name=\"Subtitle\">" ++ (a1.flatMap escChar ++ c!"</text:p>\n")))] ++ chs ++
      [contentFooter]).flatten = formattedHeader ls ++ (body ++ contentFooter) := by
    rw [hbody, List.flatten_append, List.flatten_append, List.flatten_cons, List.flatten_nil, List.append_nil, List.flatten_cons, List.flatten_nil, List.append_nil]
    simp only [List.append_assoc]
  rw [etext] at htext
  rw [← hbody] at qb
  have qall : Quot (formattedHeader ls ++ (body ++ contentFooter)) (formattedHeader ls ++ (b' ++ contentFooter)) := (Quot.header hL).append (qb.append (Quot.lit (by decide)))
  rw [quotations_eq qall] at htext
  refine ⟨_, by rw [← he]; exact htext, ?_⟩
  have := hb'.append footer_shows
  rw [List.append_nil] at this
  exact Shows.after (header_run hL) this qall.2.2

/-! ### Sheets -/

theorem h2_shows {body x : Str} (hb : Mute (worldReader locationKind) body x) : Shows (h2Open ++ (body ++ hEnd)) [] :=
  Shows.fed (fun acc => ⟨_, Fed.h2 (ls := []) (wr_ignores {} (by decide)) hb [] acc⟩)

theorem h3_shows {body x : Str} (hb : Mute (worldReader locationKind) body x) : Shows (h3Plain ++ (body ++ hEnd)) [] :=
  Shows.fed (fun acc => ⟨_, Fed.h3 (ls := []) (wr_ignores {} (by decide)) hb [] acc⟩)

theorem para_shows {t : Option Str} (ht : CarriableO t) : Shows (pOpen bodyStyle ++ (odtConvert t false ++ pEnd)) [] := by
  intro acc
  obtain ⟨L, ⟨es, x, _⟩, _⟩ := Fed.paragraphs (h := worldReader locationKind) (ls := []) (wr_collects {} []) [] acc ht (st := bodyStyle) (.inr rfl) []
  exact ⟨_, es, x, by simp⟩

theorem nl_shows : Shows c!"\n" [] := Shows.bal (a := []) (Bal.plain (by decide) [])

theorem section_shows {name mid : Str} {l : List Str} (hn : name.all plainAttr = true) (h : Shows mid l) : Shows (secOpen name ++ (mid ++ secEnd)) (name :: l) := by
  have := (Shows.section hn).append (h.append Shows.secEnd)
  rw [List.append_nil] at this
  exact this

theorem element_shows {mark : Str} (hm : mark = c!"LcID" ∨ mark = c!"ItID") {id : Str} {x : WorldElement} (hx : ElementFits id x) : Shows (elementText mark id x) [mark ++ c!":" ++ id] := by
  unfold elementText sheetText
  have hn : (mark ++ c!":" ++ id).all plainAttr = true := by
    rw [List.all_append, Bool.and_eq_true]
    refine ⟨?_, (digits_plain hx.number.2).1⟩
    rcases hm with rfl | rfl <;> decide
  have := (h2_shows ((Mute.esc (odtConvert_title hx.title).2).append (Mute.plain (akaPart_plain hx.aka).1))).append (section_shows hn ((para_shows hx.desc).append nl_shows))
  rw [List.append_assoc (pOpen bodyStyle ++ _)] at this
  exact this

theorem personSection_shows {heading mark id : Str} {d : Option Str} (hh : heading.all plainChar = true) (hm : mark.all plainAttr = true) (hid : NumId id) (hd : CarriableO d) :
    Shows (personSection heading mark id (odtConvert d false)) [] := by
  unfold personSection
  have hn : (c!"CrID_" ++ mark ++ c!":" ++ id).all plainAttr = true := by
    rw [List.all_append, List.all_append, List.all_append, hm, (digits_plain hid.2).1]
    decide
  have := (h3_shows (Mute.plain hh)).append (section_shows hn ((para_shows hd).append nl_shows))
  rw [List.append_assoc (pOpen bodyStyle ++ _)] at this
  exact this.sub (by simp)

theorem person_shows {id : Str} {x : Character} (hx : PersonFits id x) : Shows (personLine id x) [c!"CrID:" ++ id] := by
  unfold personLine personText
  have hn : (c!"CrID:" ++ id).all plainAttr = true := by
    rw [List.all_append, Bool.and_eq_true]
    exact ⟨by decide, (digits_plain hx.number.2).1⟩
  have hb := (personSection_shows (heading := c!"Description") (mark := c!"desc") (by decide) (by decide) hx.number hx.desc).append
    ((personSection_shows (heading := c!"Bio") (mark := c!"bio") (by decide) (by decide) hx.number hx.bio).append
    ((personSection_shows (heading := c!"Goals") (mark := c!"goals") (by decide) (by decide) hx.number hx.goals).append
    (personSection_shows (heading := c!"Notes") (mark := c!"notes") (by decide) (by decide) hx.number hx.notes)))
  have := (h2_shows ((Mute.esc (odtConvert_title hx.title).2).append ((Mute.plain (fullPart_plain hx.fullName).1).append (Mute.plain (akaPart_plain hx.aka).1)))).append
    (section_shows hn hb)
  simpa only [List.append_assoc, List.nil_append] using this

theorem flat_shows {f : Str → Str} {g : Str → Str} (ids : List Str) (h : ∀ id ∈ ids, Shows (f id) [g id]) : Shows (ids.flatMap f) (ids.map g) := by
  induction ids with
  | nil => exact Shows.nil
  | cons id ids ih =>
    rw [List.flatMap_cons]
    exact (h id (by simp)).append (ih (fun i hi => h i (by simp [hi])))

theorem titles_shows {n : Novel} (ht : TitleFits n) : Shows ((c!"<text:p text:style-name=\"Title\">" ++ ((n.title.getD []).flatMap escChar ++ c!"</text:p>\n")) ++
      (c!"<text:p text:style-name=\"Subtitle\">" ++ ((n.authorName.getD []).flatMap escChar ++ c!"</text:p>\n"))) [] :=
  (Shows.fed (fun acc => ⟨_, Fed.titleP (h := worldReader locationKind) (ls := []) (r := wr {} [] none) (wr_ignores {} (by decide)) (Mute.esc (odtConvert_title ht.1).2) [] acc⟩)).append
  (Shows.fed (fun acc => ⟨_, Fed.subtitleP (h := worldReader locationKind) (ls := []) (r := wr {} [] none) (wr_ignores {} (by decide)) (Mute.esc (odtConvert_title ht.2).2) [] acc⟩))

/-- The sections of a document with a title, an author and sheets. -/
theorem sheets_regions {n : Novel} (ht : TitleFits n) {body : Str} {l : List Str} (hb : Shows body l) (hcr : '\r' ∉ body) :
    ∀ x ∈ l, HasRegion (formattedHeader [] ++ (((c!"<text:p text:style-name=\"Title\">" ++ ((n.title.getD []).flatMap escChar ++ c!"</text:p>\n")) ++
      (c!"<text:p text:style-name=\"Subtitle\">" ++ ((n.authorName.getD []).flatMap escChar ++ c!"</text:p>\n"))) ++ (body ++ contentFooter))) x := by
  have := (titles_shows ht).append (hb.append footer_shows)
  rw [List.append_nil, List.nil_append] at this
  refine Shows.after (header_run (by simp)) this ?_
  have h1 := title_cr ht
  rw [← List.append_assoc, List.mem_append, not_or]
  refine ⟨h1, ?_⟩
  rw [List.mem_append, not_or]
  exact ⟨hcr, by decide⟩

theorem locations_regions {name path : Str} {n : Novel} {text : Str} (hw : getText (odtLocations (plainEnv name path)) n = .ok text) (ht : TitleFits n)
    (hx : ElementsFit n.srtLocations n.locations) : ∀ id ∈ n.srtLocations, HasRegion text (c!"LcID:" ++ id) := by
  intro id hid
  rw [locations_text name path hw ht hx]
  refine sheets_regions ht (flat_shows (g := fun id => c!"LcID:" ++ id) n.srtLocations ?_) (elements_cr (.inl rfl) n.srtLocations hx) _ (List.mem_map.2 ⟨id, hid, rfl⟩)
  intro i hi
  obtain ⟨x, e1, e2⟩ := hx i hi
  rw [e1]
  exact element_shows (.inl rfl) e2

theorem items_regions {name path : Str} {n : Novel} {text : Str} (hw : getText (odtItems (plainEnv name path)) n = .ok text) (ht : TitleFits n)
    (hx : ElementsFit n.srtItems n.items) : ∀ id ∈ n.srtItems, HasRegion text (c!"ItID:" ++ id) := by
  intro id hid
  rw [items_text name path hw ht hx]
  refine sheets_regions ht (flat_shows (g := fun id => c!"ItID:" ++ id) n.srtItems ?_) (elements_cr (.inr rfl) n.srtItems hx) _ (List.mem_map.2 ⟨id, hid, rfl⟩)
  intro i hi
  obtain ⟨x, e1, e2⟩ := hx i hi
  rw [e1]
  exact element_shows (.inr rfl) e2

theorem characters_regions {name path : Str} {n : Novel} {text : Str} (hw : getText (odtCharacters (plainEnv name path)) n = .ok text) (ht : TitleFits n)
    (hx : PersonsFit n.srtCharacters n.characters) : ∀ id ∈ n.srtCharacters, HasRegion text (c!"CrID:" ++ id) := by
  intro id hid
  rw [characters_text name path hw ht hx]
  refine sheets_regions ht (flat_shows (g := fun id => c!"CrID:" ++ id) n.srtCharacters ?_) (persons_cr n.srtCharacters hx) _ (List.mem_map.2 ⟨id, hid, rfl⟩)
  intro i hi
  obtain ⟨x, e1, e2⟩ := hx i hi
  rw [e1]
  exact person_shows e2

end Verif
