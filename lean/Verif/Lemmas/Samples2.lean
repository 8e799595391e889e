/-
The data files: what is in them.
-/
import Verif.Lemmas.Samples

namespace Verif
open Xml Elem Spec

theorem find_indentKids {l : Nat} {t : Str} {s : Elem} : ∀ {ks : List Elem}, find t (indentKids l ks) = some s →
    ∃ e, find t ks = some e ∧ (s = indent (l + 1) e ∨ s = fixTail l (indent (l + 1) e))
  | [], h => by rw [indentKids] at h; cases h
  | [e], h => by
    rw [indentKids] at h
    unfold find at h ⊢
    rw [List.find?_cons] at h ⊢
    rw [tag_fixTail, tag_indent] at h
    split at h
    · cases h; exact ⟨e, rfl, Or.inr rfl⟩
    · cases h
  | e :: f :: r, h => by
    rw [indentKids] at h
    unfold find at h ⊢
    rw [List.find?_cons] at h ⊢
    rw [tag_indent] at h
    split at h
    · cases h; exact ⟨e, rfl, Or.inl rfl⟩
    · exact find_indentKids (ks := f :: r) h

theorem find_indentKids_some {l : Nat} {t : Str} {e : Elem} : ∀ {ks : List Elem}, find t ks = some e → ∃ s, find t (indentKids l ks) = some s
  | [], h => by cases h
  | [x], h => by
    rw [indentKids]
    unfold find at h ⊢
    rw [List.find?_cons] at h ⊢
    rw [tag_fixTail, tag_indent]
    split at h
    · exact ⟨_, rfl⟩
    · cases h
  | x :: y :: r, h => by
    rw [indentKids]
    unfold find at h ⊢
    rw [List.find?_cons] at h ⊢
    rw [tag_indent]
    split at h
    · exact ⟨_, rfl⟩
    · exact find_indentKids_some (ks := y :: r) h

theorem indentStr_blank (l : Nat) : ∀ c ∈ indentStr l, c = ' ' ∨ c = '\t' ∨ c = '\n' := by
  intro c hc
  unfold indentStr at hc
  rcases List.mem_cons.1 hc with h | h
  · exact Or.inr (Or.inr h)
  · exact Or.inl (List.mem_replicate.1 h).2

theorem blankTail_indent (l : Nat) {e : Elem} (h : BlankTail e) : BlankTail (indent l e) := by
  unfold BlankTail at h ⊢
  match e with
  | node t x y [] =>
    rw [indent]
    intro c hc
    dsimp only [Elem.tail] at hc h
    split at hc
    · exact indentStr_blank _ c hc
    · exact h c hc
  | node t x y (k :: ks) =>
    rw [indent]
    intro c hc
    dsimp only [Elem.tail] at hc h
    split at hc
    · exact indentStr_blank _ c hc
    · exact h c hc

theorem blankTail_fixTail (l : Nat) {e : Elem} (h : BlankTail e) : BlankTail (fixTail l e) := by
  unfold BlankTail at h ⊢
  cases e with
  | node t x y ks =>
    intro c hc
    dsimp only [Elem.tail, fixTail] at hc h
    split at hc
    · exact indentStr_blank _ c hc
    · exact h c hc

/-- A file with a section of a pretty-printed tree is well-formed, and a reader finds the section in it. -/
theorem section_file (b : Bool) {l : Nat} {e s : Elem} (hg : GoodTree SafeRaw e) (ht : BlankTail e) (hs : s = indent (l + 1) e ∨ s = fixTail l (indent (l + 1) e)) :
    ∃ z, parseXml (parserInput (fileText b s)) = some z ∧ Reloaded e z ∧ z.tag = e.tag := by
  have hR : Raws SafeRaw := fun s h => h.raw
  have hsafe : SafeTree s := by
    rcases hs with rfl | rfl
    · exact safeTree_of_good _ (goodTree_indent hR _ _ hg)
    · exact safeTree_of_good _ (goodTree_fixTail hR _ (goodTree_indent hR _ _ hg))
  have hbl : BlankTail s := by
    rcases hs with rfl | rfl
    · exact blankTail_indent _ ht
    · exact blankTail_fixTail _ (blankTail_indent _ ht)
  obtain ⟨z, z1, z2, _, z4⟩ := parse_file b hsafe hbl
  refine ⟨z, z1, ?_, ?_⟩
  · rcases hs with rfl | rfl
    · exact reloaded_indent _ _ _ z2
    · exact reloaded_indent _ _ _ (reloaded_fixTail _ z2)
  · rw [z4.tag]
    rcases hs with rfl | rfl
    · exact tag_indent _ _
    · rw [tag_fixTail, tag_indent]

/-- A section that is rebuilt from a new one. -/
theorem rebuilt_good {α : Type} {sec tag : Str} {d : Dict α} {f : α → List Elem → List Elem} {ids : List Str} {ks : List Elem}
    (hs : IsName sec ∧ sec ∉ cdataTags) (hn : IsName tag ∧ tag ∉ cdataTags)
    (hf : ∀ id ∈ ids, ∀ a, d.get? id = some a → GoodL SafeRaw (f a [leaf c!"ID" (some id)])) (h : rebuildSection tag d f ids [] = .ok ks) :
    GoodTree SafeRaw (node sec none none ks) := by
  have hR : Raws SafeRaw := fun s h => h.raw
  obtain ⟨es, rfl, hes⟩ := rebuildSection_eq h
  refine goodTree_node hR hs ?_
  intro e he
  obtain ⟨id, hid, a, ha, rfl⟩ := hes e he
  exact goodTree_node hR hn (hf id hid a ha)

theorem dataSections_ok {root c l i : Elem} : dataSections root = .ok (c, l, i) ↔
    find c!"CHARACTERS" root.kids = some c ∧ find c!"LOCATIONS" root.kids = some l ∧ find c!"ITEMS" root.kids = some i := by
  unfold dataSections
  constructor
  · intro h
    split at h
    · rename_i a b d h1 h2 h3
      cases h
      exact ⟨h1, h2, h3⟩
    · cases h
  · rintro ⟨h1, h2, h3⟩
    rw [h1, h2, h3]

/-- A section read from a data file. -/
theorem section_read {α β : Type} {sec tag : Str} {d : Dict α} {f : α → List Elem → List Elem} {g : List Elem → β} {ids : List Str} {ks r : List Elem} {z : Elem} {res : List Str × Dict β}
    (hf : ∀ a ks, sel c!"ID" (f a ks) = sel c!"ID" ks) (hids : ids.Nodup ∧ ∀ id ∈ ids, GoodId id)
    (hb : rebuildSection tag d f ids [] = .ok ks) (hr : Reloaded (node sec none none ks) z) (hz : find sec r = some z)
    (hm : readSection sec (fun ks => .ok (g ks)) [] r = .ok res) :
    res.1 = ids ∧ res.2.keys = ids ∧ ∀ id ∈ ids, ∃ a ks', d.get? id = some a ∧ ReloadedL (f a [leaf c!"ID" (some id)]) ks' ∧ res.2.get? id = some (g ks') := by
  have hz' : find sec [z] = some z := by
    have := (find_mem hz).2
    unfold find
    rw [List.find?_cons, decide_eq_true this]
  refine world_section (sec := sec) (tag := tag) (rk := [node sec none none []]) (out := [node sec none none ks]) (r := [z]) hf hids ?_ ?_ (.cons _ _ _ _ hr .nil) ?_
  · intro s hs e he
    unfold find at hs
    rw [List.find?_cons, decide_eq_true (show (node sec none none []).tag = sec from rfl)] at hs
    cases hs
    cases he
  · refine ⟨node sec none none [], ks, ?_, hb, ?_⟩
    · unfold find
      rw [List.find?_cons, decide_eq_true (show (node sec none none []).tag = sec from rfl)]
    · unfold find
      rw [List.find?_cons, decide_eq_true (show (node sec none none ks).tag = sec from rfl)]
      rfl
  · unfold readSection at hm ⊢
    rw [hz] at hm
    rw [hz']
    exact hm

/-- The world of a novel that is read is the one of the three sections. -/
theorem readTree_world {lib : PyLib} {x : Elem} {m : Novel} (hm : readTree lib x = .ok m) :
    readSection c!"LOCATIONS" (fun ks => .ok (readWorld ks)) [] x.kids = .ok (m.srtLocations, m.locations) ∧
    readSection c!"ITEMS" (fun ks => .ok (readWorld ks)) [] x.kids = .ok (m.srtItems, m.items) ∧
    readSection c!"CHARACTERS" (fun ks => .ok (readCharacter ks)) [] x.kids = .ok (m.srtCharacters, m.characters) := by
  unfold readTree readRoot at hm
  simp only [bind, Except.bind] at hm
  cases hp : find c!"PROJECT" x.kids with
  | none => rw [hp] at hm; cases hm
  | some pe =>
  rw [hp] at hm; simp only at hm
  cases hl : readSection c!"LOCATIONS" (fun ks => .ok (readWorld ks)) (readProject lib {} pe.kids).locations x.kids with
  | error e => rw [hl] at hm; cases hm
  | ok l =>
  rw [hl] at hm; simp only at hm
  cases hi : readSection c!"ITEMS" (fun ks => .ok (readWorld ks)) (readProject lib {} pe.kids).items x.kids with
  | error e => rw [hi] at hm; cases hm
  | ok i =>
  rw [hi] at hm; simp only at hm
  cases hc : readSection c!"CHARACTERS" (fun ks => .ok (readCharacter ks)) (readProject lib {} pe.kids).characters x.kids with
  | error e => rw [hc] at hm; cases hm
  | ok c =>
  rw [hc] at hm; simp only at hm
  cases hs : readSection c!"SCENES" (readScene lib c.1 l.1 i.1) (readProject lib {} pe.kids).scenes x.kids with
  | error e => rw [hs] at hm; cases hm
  | ok s =>
  rw [hs] at hm; simp only at hm
  cases hh : readSection c!"CHAPTERS" (fun ks => .ok (readChapter s.2.keys ks)) (readProject lib {} pe.kids).chapters x.kids with
  | error e => rw [hh] at hm; cases hm
  | ok h =>
  rw [hh] at hm; simp only at hm
  obtain ⟨e1, e2, e3⟩ := C39_effect _ _ hm
  have m1 : m.srtLocations = l.1 := by rw [e1]
  have m2 : m.locations = l.2 := by rw [e1]
  have m3 : m.srtItems = i.1 := by rw [e1]
  have m4 : m.items = i.2 := by rw [e1]
  have m5 : m.srtCharacters = c.1 := by rw [e1]
  have m6 : m.characters = c.2 := by rw [e1]
  rw [m1, m2, m3, m4, m5, m6]
  exact ⟨hl, hi, hc⟩

/-- The three sections of a project that is saved for the first time. -/
theorem data_sections (lib : PyLib) {sl sc : Str} {n : Novel} {out c l i : Elem} (hn : StorableWorld n) (hw : writeTree sl sc n none = .ok out)
    (hd : dataSections out = .ok (c, l, i)) (b : Bool) :
    ∃ zc zl zi, parseXml (parserInput (fileText b c)) = some zc ∧ parseXml (parserInput (fileText b l)) = some zl ∧ parseXml (parserInput (fileText b i)) = some zi ∧
      zc.tag = c!"CHARACTERS" ∧ zl.tag = c!"LOCATIONS" ∧ zi.tag = c!"ITEMS" ∧ ∀ x m, TakenOver x zc zl zi → readTree lib x = .ok m → SameWorld n m := by
  have hR : Raws SafeRaw := fun s h => h.raw
  obtain ⟨dc, dl, di⟩ := dataSections_ok.1 hd
  unfold writeTree at hw
  simp only at hw
  cases hb : buildRoot sl sc (prepareNovel n) (Option.getD none newRoot).kids with
  | error e => rw [hb] at hw; cases hw
  | ok rk =>
  rw [hb] at hw
  simp only [Except.ok.injEq] at hw
  obtain ⟨⟨pe, pe1, pe2⟩, ⟨el, kl, l1, l2, l3⟩, ⟨ei, ki, i1, i2, i3⟩, ⟨ec, kc, c1, c2, c3⟩, _⟩ := buildRoot_ok hb
  have hl : el = node c!"LOCATIONS" none none [] := by cases l1; rfl
  have hi : ei = node c!"ITEMS" none none [] := by cases i1; rfl
  have hc : ec = node c!"CHARACTERS" none none [] := by cases c1; rfl
  subst hl hi hc
  obtain ⟨p1, p2, p3, p4, p5, p6, p7, p8, p9, p10⟩ := prepareNovel_fields n
  rw [p3, p4] at l2
  rw [p5, p6] at i2
  rw [p7, p8] at c2
  have hne : rk ≠ [] := by rintro rfl; cases pe2
  obtain ⟨r0, rr, rfl⟩ := List.exists_cons_of_ne_nil hne
  have ho : out.kids = indentKids 0 (r0 :: rr) := by
    rw [← hw]
    show (indent 0 (mapKids (fun _ => r0 :: rr) newRoot)).kids = _
    rw [show mapKids (fun _ => r0 :: rr) newRoot = node c!"YWRITER7" none none (r0 :: rr) from rfl, indent]
    rfl
  rw [ho] at dc dl di
  obtain ⟨sc', fc, hsc⟩ := find_indentKids dc
  obtain ⟨sl', fl, hsl⟩ := find_indentKids dl
  obtain ⟨si', fi, hsi⟩ := find_indentKids di
  rw [c3] at fc; rw [l3] at fl; rw [i3] at fi
  cases fc; cases fl; cases fi
  have blankNone : ∀ t ks, BlankTail (node t none none ks) := fun t ks c hc => by cases hc
  have gc : GoodTree SafeRaw (node c!"CHARACTERS" none none kc) := rebuilt_good ⟨isName_of (by decide), by decide⟩ ⟨isName_of (by decide), by decide⟩
    (fun id hid a ha => GoodL.buildCharacter (hn.characters.2 id hid a ha) (.idLeaf hR (hn.characters.1.2 id hid).2)) c2
  have gl : GoodTree SafeRaw (node c!"LOCATIONS" none none kl) := rebuilt_good ⟨isName_of (by decide), by decide⟩ ⟨isName_of (by decide), by decide⟩
    (fun id hid a ha => GoodL.buildWorld (hn.locations.2 id hid a ha) (.idLeaf hR (hn.locations.1.2 id hid).2)) l2
  have gi : GoodTree SafeRaw (node c!"ITEMS" none none ki) := rebuilt_good ⟨isName_of (by decide), by decide⟩ ⟨isName_of (by decide), by decide⟩
    (fun id hid a ha => GoodL.buildWorld (hn.items.2 id hid a ha) (.idLeaf hR (hn.items.1.2 id hid).2)) i2
  obtain ⟨zc, zc1, zc2, zc3⟩ := section_file b gc (blankNone _ _) hsc
  obtain ⟨zl, zl1, zl2, zl3⟩ := section_file b gl (blankNone _ _) hsl
  obtain ⟨zi, zi1, zi2, zi3⟩ := section_file b gi (blankNone _ _) hsi
  refine ⟨zc, zl, zi, zc1, zl1, zi1, zc3, zl3, zi3, ?_⟩
  rintro x m ⟨x1, x2, x3⟩ hm
  obtain ⟨m1, m2, m3⟩ := readTree_world hm
  obtain ⟨a1, a2, a3⟩ := section_read sel_ID_buildWorld ⟨hn.locations.1.1, fun id hid => (hn.locations.1.2 id hid).1⟩ l2 zl2 x2 m1
  obtain ⟨b1, b2, b3⟩ := section_read sel_ID_buildWorld ⟨hn.items.1.1, fun id hid => (hn.items.1.2 id hid).1⟩ i2 zi2 x3 m2
  obtain ⟨d1, d2, d3⟩ := section_read sel_ID_buildCharacter ⟨hn.characters.1.1, fun id hid => (hn.characters.1.2 id hid).1⟩ c2 zc2 x1 m3
  refine ⟨⟨d1, d2, ?_⟩, ⟨a1, a2, ?_⟩, ⟨b1, b2, ?_⟩⟩
  · intro id hid
    obtain ⟨w, ks, h1, h2, h3⟩ := d3 id hid
    exact ⟨w, _, h1, h3, character_entry w id ks h2⟩
  · intro id hid
    obtain ⟨w, ks, h1, h2, h3⟩ := a3 id hid
    exact ⟨w, _, h1, h3, world_entry w id ks h2⟩
  · intro id hid
    obtain ⟨w, ks, h1, h2, h3⟩ := b3 id hid
    exact ⟨w, _, h1, h3, world_entry w id ks h2⟩

/-- The three sections are always there. -/
theorem data_exists {sl sc : Str} {n : Novel} {out : Elem} (hw : writeTree sl sc n none = .ok out) : ∃ t, dataSections out = .ok t := by
  unfold writeTree at hw
  simp only at hw
  cases hb : buildRoot sl sc (prepareNovel n) (Option.getD none newRoot).kids with
  | error e => rw [hb] at hw; cases hw
  | ok rk =>
  rw [hb] at hw
  simp only [Except.ok.injEq] at hw
  obtain ⟨⟨pe, pe1, pe2⟩, ⟨el, kl, l1, l2, l3⟩, ⟨ei, ki, i1, i2, i3⟩, ⟨ec, kc, c1, c2, c3⟩, _⟩ := buildRoot_ok hb
  have hne : rk ≠ [] := by rintro rfl; cases pe2
  obtain ⟨r0, rr, rfl⟩ := List.exists_cons_of_ne_nil hne
  have ho : out.kids = indentKids 0 (r0 :: rr) := by
    rw [← hw]
    show (indent 0 (mapKids (fun _ => r0 :: rr) newRoot)).kids = _
    rw [show mapKids (fun _ => r0 :: rr) newRoot = node c!"YWRITER7" none none (r0 :: rr) from rfl, indent]
    rfl
  obtain ⟨a, ha⟩ := find_indentKids_some (l := 0) c3
  obtain ⟨b, hb'⟩ := find_indentKids_some (l := 0) l3
  obtain ⟨c, hc⟩ := find_indentKids_some (l := 0) i3
  exact ⟨(a, b, c), dataSections_ok.2 ⟨by rw [ho, ha], by rw [ho, hb'], by rw [ho, hc]⟩⟩

end Verif
