/-
Location and item sheets: the whole document.
-/
import Verif.Lemmas.Sheets

namespace Verif
open Spec Re Template

variable {h : Reader} {ls : List Str} {w : WorldKind}

/-! ### The calls before those for the content -/

/-- Nothing outside of sections matters to the reader. -/
structure Deaf (h : Reader) (r : Rd) : Prop where
  start : ∀ t as, t ≠ c!"div" → t ≠ c!"s" → h r (.start t as) = .ok r
  data : ∀ s, h r (.data s) = .ok r
  stop : ∀ t, t ≠ c!"div" → h r (.stop t) = .ok r

theorem Deaf.ignores {r : Rd} (hd : Deaf h r) {tag : Str} (ht : tag ≠ c!"div" ∧ tag ≠ c!"s") : Ignores h r tag :=
  ⟨hd.start _ _ ht.1 ht.2, hd.data, hd.stop _ ht.1⟩

theorem Deaf.cons {r : Rd} {c : Call} {cs : List Call} (h1 : h r c = .ok r) (h2 : h.run r cs = .ok r) : h.run r (c :: cs) = .ok r := by
  unfold Reader.run
  rw [h1]
  exact h2

theorem Deaf.styles {r : Rd} (hd : Deaf h r) {st : XNode} {cs : List Call} (hs : stylesCalls st = .ok cs) : h.run r cs = .ok r := by
  unfold stylesCalls at hs
  split at hs
  · cases hs
  · rename_i s _
    generalize XNode.sel c!"style:default-style" s.kids = l at hs
    induction l with
    | nil =>
      cases hs
      rfl
    | cons x l ih =>
      unfold styleCalls at hs
      split at hs
      · split at hs
        · cases hs
        · cases hs
          exact Deaf.cons (hd.start _ _ (by decide) (by decide)) rfl
      · exact ih hs

theorem Deaf.info {r : Rd} (hd : Deaf h r) {i : Option XNode} {cs : List Call} (hi : infoCalls i = .ok cs) : h.run r cs = .ok r := by
  cases i with
  | none =>
    cases hi
    rfl
  | some x =>
    replace hi : metaCalls x = .ok cs := hi
    unfold metaCalls at hi
    split at hi
    · cases hi
    · injection hi with hi
      subst hi
      refine reader_run_append (r1 := r) (reader_run_append (r1 := r) ?_ ?_) ?_
      · split
        · exact Deaf.cons (hd.start _ _ (by decide) (by decide)) (Deaf.cons (hd.data _) (Deaf.cons (hd.stop _ (by decide)) rfl))
        · rfl
      · split
        · exact Deaf.cons (hd.start _ _ (by decide) (by decide)) rfl
        · rfl
      · split
        · exact Deaf.cons (hd.start _ _ (by decide) (by decide)) rfl
        · rfl

/-! ### From a text to a novel -/

/-- A document whose text between title and footer takes the reader from one state to another. -/
theorem read_sheet {n n' : Novel} {title author tx ax body : Str} {r' : Rd} (hd : Deaf h { novel := n }) (ht : Mute h title tx) (ha : Mute h author ax)
    (hb : ∀ cm acc, ∃ cm' acc', Fed h body acc (idleP [] cm) { novel := n } acc' (idleP [] cm') r') (hn : r'.novel = n')
    (hcr : '\r' ∉ formattedHeader [] ++ (((c!"<text:p text:style-name=\"Title\">" ++ (title ++ c!"</text:p>\n")) ++
      (c!"<text:p text:style-name=\"Subtitle\">" ++ (author ++ c!"</text:p>\n"))) ++ (body ++ contentFooter))) :
    ∃ evs, saxEvents (formattedHeader [] ++ (((c!"<text:p text:style-name=\"Title\">" ++ (title ++ c!"</text:p>\n")) ++
      (c!"<text:p text:style-name=\"Subtitle\">" ++ (author ++ c!"</text:p>\n"))) ++ (body ++ contentFooter))) = some evs ∧
      ∀ st info a b, stylesCalls st = .ok a → infoCalls info = .ok b → readOdt h ⟨st, info, evs⟩ n = .ok n' := by
  obtain ⟨acc1, f1⟩ := Fed.header (h := h) (ls := []) (by intro l hl; cases hl) { novel := n }
  obtain ⟨cm', acc', f2⟩ := hb [] c!"\n"
  have f := f1.append (((Fed.titleP (ls := []) (hd.ignores (by decide)) ht [] acc1).append (Fed.subtitleP (hd.ignores (by decide)) ha [] c!"\n")).append
    (f2.append (Fed.footer r' cm' acc')))
  obtain ⟨evs, x1, x2⟩ := f
  refine ⟨evs ++ saxPend c!"\n", ?_, ?_⟩
  · unfold saxEvents
    rw [normEol_id hcr, x1]
  · intro st info a b h1 h2
    obtain ⟨calls, y1, y2⟩ := x2.append (idle_pend cm' c!"\n" _)
    unfold readOdt feedFile
    rw [h1, h2]
    simp only [Bind.bind, Except.bind]
    have e : OdtP.run {} (evs ++ saxPend c!"\n") = .ok (idleP [] cm', calls) := y1
    rw [e]
    simp only
    rw [reader_run_append (reader_run_append (hd.styles h1) (hd.info h2)) y2]
    simp only [hn]

/-! ### No carriage returns -/

theorem plainOut_cr {t : Str} (ht : '\r' ∉ t) : '\r' ∉ plainOut t := by
  fun_induction plainOut t with
  | case1 => simp
  | case2 t ih =>
    rw [List.mem_append, not_or]
    exact ⟨by decide, ih (fun e => ht (by simp [e]))⟩
  | case3 t _ ih =>
    rw [List.mem_append, not_or]
    exact ⟨by decide, ih (fun e => ht (by simp [e]))⟩
  | case4 c t _ _ ih =>
    rw [List.mem_append, not_or]
    exact ⟨escChar_no_cr (fun e => ht (by simp [e])), ih (fun e => ht (by simp [e]))⟩

theorem carriable_cr {t : Str} (ht : Carriable t) : '\r' ∉ t := fun hm => (ht _ hm).2 rfl

theorem odtConvert_cr {t : Option Str} (ht : CarriableO t) : '\r' ∉ odtConvert t false := by
  cases t with
  | none => simp [odtConvert]
  | some t =>
    rw [odtConvert_plain (carriable_cr ht)]
    exact plainOut_cr (carriable_cr ht)

theorem head_cr : '\r' ∉ formattedHeader [] := by
  rw [formattedHeader_eq]
  simp only [List.mem_append, not_or]
  exact ⟨by decide +kernel, by decide, by decide⟩

theorem odtConvert_title {o : Option Str} (ho : CarriableO o) : odtConvert o true = (o.getD []).flatMap escChar ∧ Carriable (o.getD []) := by
  cases o with
  | none => exact ⟨rfl, by intro c hc; cases hc⟩
  | some t =>
    refine ⟨?_, ho⟩
    cases t with
    | nil => rfl
    | cons c t => exact replaceAll_xml (c :: t)

theorem esc_cr {t : Str} (ht : Carriable t) : '\r' ∉ t.flatMap escChar := escs_cr (carriable_cr ht)

theorem num_cr {id : Str} (h : NumId id) : '\r' ∉ id := fun hm => absurd (h.2 _ hm) (by unfold Digit; decide)

/-! ### Locations and items -/

/-- The part of the heading for the alternate name. -/
def akaPart (aka : Option Str) : Str := if aka.getD [] = [] then [] else akaText (aka.getD [])

theorem aka_value {aka : Option Str} {m : Mapping} (h : m.get? c!"AKA" = some (odtConvert aka true)) : (withAka aka m).get? c!"AKA" = some (akaPart aka) := by
  unfold withAka akaPart
  split
  · rename_i e
    rw [h]
    cases aka with
    | none => rfl
    | some t =>
      rw [Option.getD_some] at e
      subst e
      rfl
  · rw [Dict.get?_set_self]

theorem aka_other {aka : Option Str} {m : Mapping} {k : Str} (hk : k ≠ c!"AKA") : (withAka aka m).get? k = m.get? k := by
  unfold withAka
  split
  · rfl
  · rw [get?_set_other hk.symm]

theorem akaPart_plain {aka : Option Str} (h : ∀ t, aka = some t → Plain t) : (akaPart aka).all plainChar = true ∧ '\r' ∉ akaPart aka := by
  have hp : Plain (aka.getD []) := by
    cases aka with
    | none => intro c hc; cases hc
    | some t => exact h t rfl
  unfold akaPart
  split
  · exact ⟨rfl, by simp⟩
  · unfold akaText
    refine ⟨?_, ?_⟩
    · rw [List.all_append, List.all_append, plain_all hp]
      decide
    · simp only [List.mem_append, not_or]
      exact ⟨⟨by decide, fun hm => (hp _ hm).2.2.2.2 rfl⟩, by decide⟩

/-- The sheet of an element. -/
def elementText (mark id : Str) (e : WorldElement) : Str := sheetText mark id ((e.title.getD []).flatMap escChar ++ akaPart e.aka) (odtConvert e.desc false)

theorem element_line {mark : Str} (hm : mark = c!"LcID" ∨ mark = c!"ItID") (e : DocEnv) (n : Novel) {id : Str} {x : WorldElement} (hx : ElementFits id x) :
    subst (elementSheet mark) (withAka x.aka (e.plainBase.world n id x)) = elementText mark id x := by
  refine subst_sheet hm ?_ (aka_value rfl) ?_ ?_
  · rw [aka_other (by decide), ← (odtConvert_title hx.title).1]
    rfl
  · rw [aka_other (by decide)]
    rfl
  · rw [aka_other (by decide)]
    rfl

theorem sheetText_cr {mark id head d : Str} (hm : mark = c!"LcID" ∨ mark = c!"ItID") (h1 : '\r' ∉ id) (h2 : '\r' ∉ head) (h3 : '\r' ∉ d) : '\r' ∉ sheetText mark id head d := by
  have h0 : '\r' ∉ mark := by rcases hm with rfl | rfl <;> decide
  unfold sheetText secOpen pOpen
  simp only [List.mem_append, not_or]
  refine ⟨⟨by decide, h2, by decide⟩, ⟨⟨by decide, ⟨h0, by decide⟩, h1⟩, by decide⟩, ⟨⟨⟨by decide, by decide⟩, by decide⟩, h3, by decide⟩, by decide, by decide⟩

theorem Fed.element (hw : w = locationKind ∨ w = itemKind) (m : Novel) {id : Str} {x : WorldElement} (hx : ElementFits id x) (cm acc : Str) :
    Fed (worldReader w) (elementText w.mark id x) acc (idleP ls cm) (wr m [] none) c!"\n" (idleP ls cm) (wr (descBack w id (tidy (x.desc.getD [])) m) [] none) :=
  Fed.sheet hw m hx.number ((Mute.esc (odtConvert_title hx.title).2).append (Mute.plain (akaPart_plain hx.aka).1)) hx.desc cm acc

/-- The description of an element. -/
def descOf (d : Dict WorldElement) (id : Str) : Str := ((d.get? id).bind (·.desc)).getD []

/-- Reading all sheets. -/
def sheetsBack (w : WorldKind) (d : Dict WorldElement) : List Str → Novel → Novel
  | [], m => m
  | id :: ids, m => sheetsBack w d ids (descBack w id (tidy (descOf d id)) m)

theorem Fed.elements (hw : w = locationKind ∨ w = itemKind) {d : Dict WorldElement} (ids : List Str) (hx : ElementsFit ids d) (m : Novel) (cm acc : Str) :
    ∃ acc', Fed (worldReader w) (ids.flatMap (fun id => elementText w.mark id ((d.get? id).getD {}))) acc (idleP ls cm) (wr m [] none) acc' (idleP ls cm)
      (wr (sheetsBack w d ids m) [] none) := by
  induction ids generalizing m acc with
  | nil => exact ⟨acc, Fed.nil _ _ _ _⟩
  | cons id ids ih =>
    obtain ⟨x, h1, h2⟩ := hx id (by simp)
    obtain ⟨acc', f⟩ := ih (fun i hi => hx i (by simp [hi])) (descBack w id (tidy (x.desc.getD [])) m) c!"\n"
    refine ⟨acc', ?_⟩
    rw [List.flatMap_cons, h1, Option.getD_some]
    have e : descOf d id = x.desc.getD [] := by
      unfold descOf
      rw [h1]
      rfl
    unfold sheetsBack
    rw [e]
    exact (Fed.element hw m h2 cm acc).append f

theorem elements_cr {mark : Str} (hm : mark = c!"LcID" ∨ mark = c!"ItID") {d : Dict WorldElement} (ids : List Str) (hx : ElementsFit ids d) :
    '\r' ∉ ids.flatMap (fun id => elementText mark id ((d.get? id).getD {})) := by
  rw [List.mem_flatMap]
  rintro ⟨id, hid, hm2⟩
  obtain ⟨x, h1, h2⟩ := hx id hid
  rw [h1, Option.getD_some] at hm2
  refine sheetText_cr hm (num_cr h2.number) ?_ (odtConvert_cr h2.desc) hm2
  rw [List.mem_append, not_or]
  exact ⟨esc_cr (odtConvert_title h2.title).2, (akaPart_plain h2.aka).2⟩

theorem elements_lines {mark : Str} (hm : mark = c!"LcID" ∨ mark = c!"ItID") (e : DocEnv) (n : Novel) {d : Dict WorldElement} {f : Str → Except Exc Mapping}
    (hf : ∀ id x, d.get? id = some x → f id = .ok (withAka x.aka (e.plainBase.world n id x))) (ids : List Str) (hx : ElementsFit ids d) {l : List Str}
    (hl : elementLines (elementSheet mark) f ids = .ok l) : l.flatten = ids.flatMap (fun id => elementText mark id ((d.get? id).getD {})) := by
  induction ids generalizing l with
  | nil =>
    cases hl
    rfl
  | cons id ids ih =>
    obtain ⟨x, h1, h2⟩ := hx id (by simp)
    unfold elementLines at hl
    rw [hf id x h1] at hl
    obtain ⟨m0, hm0, hl⟩ := bind_ok hl
    injection hm0 with hm0
    subst hm0
    obtain ⟨rest, hr, hl⟩ := bind_ok hl
    injection hl with hl
    rw [← hl, List.flatten_cons, ih (fun i hi => hx i (by simp [hi])) hr, List.flatMap_cons, h1, Option.getD_some]
    congr 1
    exact element_line hm e n h2

/-! ### What the import does, described without the loop -/

theorem kind_laws (hw : w = locationKind ∨ w = itemKind) (m : Novel) (d d' : Dict WorldElement) (id : Str) :
    w.get (w.put m d) = d ∧ w.put (w.put m d) d' = w.put m d' ∧ w.put m (w.get m) = m ∧ w.get (w.add m id) = w.get m := by
  rcases hw with rfl | rfl <;> exact ⟨rfl, rfl, rfl, rfl⟩

theorem descBack_get (hw : w = locationKind ∨ w = itemKind) (id t : Str) (m : Novel) (k : Str) :
    (w.get (descBack w id t m)).get? k = if id = k then some { ((w.get m).get? k).getD {} with desc := some t } else (w.get m).get? k := by
  unfold descBack
  rw [(kind_laws hw _ _ [] []).1, Dict.get?_modify]
  unfold knownElement
  by_cases hk : id = k
  · subst hk
    rw [if_pos rfl, if_pos rfl]
    split
    · rename_i hh
      unfold Dict.has at hh
      obtain ⟨x, hx⟩ := Option.isSome_iff_exists.1 hh
      rw [hx]
      rfl
    · rename_i hh
      have e : (w.get m).get? id = none := by
        unfold Dict.has at hh
        simpa using hh
      rw [(kind_laws hw _ _ [] []).1, Dict.get?_set_self, e]
      rfl
  · rw [if_neg hk, if_neg hk]
    split
    · rfl
    · rw [(kind_laws hw _ _ [] []).1, Dict.get?_set_ne _ _ hk]

theorem sheetsBack_get (hw : w = locationKind ∨ w = itemKind) (d : Dict WorldElement) (ids : List Str) (m : Novel) (k : Str) :
    (w.get (sheetsBack w d ids m)).get? k = if k ∈ ids then some { ((w.get m).get? k).getD {} with desc := some (tidy (descOf d k)) } else (w.get m).get? k := by
  induction ids generalizing m with
  | nil => rfl
  | cons id ids ih =>
    unfold sheetsBack
    rw [ih, descBack_get hw]
    by_cases e : id = k
    · subst e
      rw [if_pos rfl, if_pos (c := id ∈ id :: ids) (by simp)]
      split
      · rfl
      · rfl
    · rw [if_neg e]
      by_cases h2 : k ∈ ids
      · rw [if_pos h2, if_pos (by simp [h2])]
      · rw [if_neg h2, if_neg]
        rw [List.mem_cons]
        rintro (h | h)
        · exact e h.symm
        · exact h2 h

/-- If the elements exist, nothing but the dictionary changes, and its keys stay. -/
theorem sheetsBack_frame (hw : w = locationKind ∨ w = itemKind) (d : Dict WorldElement) (ids : List Str) (m : Novel) (hk : ∀ id ∈ ids, (w.get m).has id = true) :
    ∃ d', sheetsBack w d ids m = w.put m d' ∧ d'.keys = (w.get m).keys := by
  induction ids generalizing m with
  | nil => exact ⟨w.get m, (kind_laws hw m [] [] []).2.2.1.symm, rfl⟩
  | cons id ids ih =>
    unfold sheetsBack
    have e : descBack w id (tidy (descOf d id)) m = w.put m ((w.get m).modify id (fun e => { e with desc := some (tidy (descOf d id)) })) := by
      unfold descBack knownElement
      rw [if_pos (hk id (by simp))]
    obtain ⟨d', h1, h2⟩ := ih (descBack w id (tidy (descOf d id)) m) (by
      intro i hi
      rw [e, (kind_laws hw _ _ [] []).1]
      unfold Dict.has
      rw [Dict.get?_modify]
      have := hk i (by simp [hi])
      unfold Dict.has at this
      split
      · rw [Option.isSome_map]
        exact this
      · exact this)
    refine ⟨d', ?_, ?_⟩
    · rw [h1, e, (kind_laws hw _ _ _ []).2.1]
    · rw [h2, e, (kind_laws hw _ _ [] []).1, Dict.keys_modify]

theorem sheetsBack_same (hw : w = locationKind ∨ w = itemKind) (ids : List Str) (m : Novel)
    (hk : ∀ id ∈ ids, ∃ e t, (w.get m).get? id = some e ∧ e.desc = some t ∧ tidy t = t) : sheetsBack w (w.get m) ids m = m := by
  induction ids with
  | nil => rfl
  | cons id ids ih =>
    unfold sheetsBack
    obtain ⟨e, t, h1, h2, h3⟩ := hk id (by simp)
    have e1 : descOf (w.get m) id = t := by
      unfold descOf
      rw [h1]
      simp only [Option.bind_some, h2, Option.getD_some]
    have e2 : descBack w id (tidy (descOf (w.get m) id)) m = m := by
      unfold descBack knownElement
      have hh : (w.get m).has id = true := has_of h1
      rw [if_pos hh, e1, h3, Dict.modify_same h1 (by rw [← h2]), (kind_laws hw m [] [] []).2.2.1]
    rw [e2]
    exact ih (fun i hi => hk i (by simp [hi]))

end Verif
