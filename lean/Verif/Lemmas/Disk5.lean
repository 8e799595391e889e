/-
From the novel to the file and back.
-/
import Verif.Lemmas.Disk4
import Verif.Lemmas.Stable2
import Verif.Lemmas.Stable

namespace Verif
open Xml Elem Spec

/-! ### Parsed trees -/

theorem Spec.Parsed.tag {e e' : Elem} (h : Parsed e e') : e'.tag = e.tag := by cases h; rfl

theorem Spec.Parsed.kids {e e' : Elem} (h : Parsed e e') : ParsedL e.kids e'.kids := by
  cases h with
  | node t x x' y y' ks ks' h1 h2 => exact h2

theorem Spec.ParsedL.filter {ks ks' : List Elem} (h : ParsedL ks ks') (p : Str → Bool) : ParsedL (ks.filter (fun e => p e.tag)) (ks'.filter (fun e => p e.tag)) := by
  induction ks generalizing ks' with
  | nil => cases h; exact .nil
  | cons e r ih =>
    cases h with
    | cons _ e' _ r' h1 h2 h3 h4 =>
      rw [List.filter_cons, List.filter_cons, h1.tag]
      split
      · exact .cons _ _ _ _ h1 h2 h3 (ih h4)
      · exact ih h4

theorem parsed_withoutLists {e e' : Elem} (D : List (Str × Str)) (h : Parsed e e') : Parsed (withoutLists D e) (withoutLists D e') := by
  cases h with
  | node t x x' y y' ks ks' h1 h2 => exact .node _ _ _ _ _ _ _ h1 (h2.filter (fun u => !D.contains (t, u)))

theorem tail_withoutLists (D : List (Str × Str)) (e : Elem) : (withoutLists D e).tail = e.tail := by cases e; rfl

theorem parsedL_withoutLists {ks ks' : List Elem} (D : List (Str × Str)) (h : ParsedL ks ks') : ParsedL (ks.map (withoutLists D)) (ks'.map (withoutLists D)) := by
  induction ks generalizing ks' with
  | nil => cases h; exact .nil
  | cons e r ih =>
    cases h with
    | cons _ e' _ r' h1 h2 h3 h4 =>
      refine .cons _ _ _ _ (parsed_withoutLists D h1) ?_ ?_ (ih h4)
      · rw [tail_withoutLists, tail_withoutLists]; exact h2
      · rw [tail_withoutLists]; exact h3

theorem Spec.SafePlain.parsed {s t : Str} (h : SafePlain s) (hc : CharData s t) : t = s := charData_unique hc (charData_plain' h.chars)

mutual
theorem goodTree_parsed : (e e' : Elem) → Parsed e e' → SafePlain (e'.tail.getD []) → GoodTree SafePlain e → GoodTree SafePlain e'
  | node t x y ks, e', h, ht, hg => by
    cases h with
    | node _ _ x' _ y' _ ks' h1 h2 =>
      rw [GoodTree] at hg ⊢
      refine ⟨hg.1, ?_, ht, goodTreeL_parsed ks ks' h2 hg.2.2.2⟩
      have g := hg.2.1
      have p := h1.2
      split
      · rename_i hc
        rw [if_pos hc] at g p
        refine ⟨by rw [p]; exact g.1, ?_⟩
        have := g.2
        subst this
        cases h2
        rfl
      · rename_i hc
        rw [if_neg hc] at g p
        rw [g.parsed p]
        exact g
theorem goodTreeL_parsed : (ks ks' : List Elem) → ParsedL ks ks' → GoodTreeL SafePlain ks → GoodTreeL SafePlain ks'
  | [], ks', h, hg => by cases h; exact hg
  | e :: r, ks', h, hg => by
    cases h with
    | cons _ e' _ r' h1 h2 h3 h4 =>
      rw [GoodTreeL] at hg ⊢
      refine ⟨goodTree_parsed e e' h1 ?_ hg.1, goodTreeL_parsed r r' h4 hg.2⟩
      have ht : SafePlain (e.tail.getD []) := by
        cases e with
        | node t x y ks => have := hg.1; rw [GoodTree] at this; exact this.2.2.1
      rw [ht.parsed h2]
      exact ht
end

/-! ### Pretty printing -/

theorem mem_indentKids {l : Nat} {ks : List Elem} {x : Elem} (h : x ∈ indentKids l ks) : ∃ e ∈ ks, x = indent (l + 1) e ∨ x = fixTail l (indent (l + 1) e) := by
  match ks, h with
  | [], h => rw [indentKids] at h; cases h
  | [e], h =>
    rw [indentKids, List.mem_singleton] at h
    exact ⟨e, by simp, Or.inr h⟩
  | e :: f :: r, h =>
    rw [indentKids] at h
    rcases List.mem_cons.1 h with h | h
    · exact ⟨e, by simp, Or.inl h⟩
    · obtain ⟨k, h1, h2⟩ := mem_indentKids h
      exact ⟨k, by rw [List.mem_cons]; exact Or.inr h1, h2⟩

theorem tag_indent (l : Nat) (e : Elem) : (indent l e).tag = e.tag := by
  match e with
  | node t x y [] => rw [indent]; rfl
  | node t x y (k :: ks) => rw [indent]; rfl

theorem tag_fixTail (l : Nat) (e : Elem) : (fixTail l e).tag = e.tag := by cases e; rfl

theorem sel_indentKids_length (t : Str) (l : Nat) (ks : List Elem) : (sel t (indentKids l ks)).length = (sel t ks).length := by
  match ks with
  | [] => rw [indentKids]
  | [e] =>
    rw [indentKids]
    unfold sel
    simp only [List.filter_cons, List.filter_nil, tag_fixTail, tag_indent]
    split <;> rfl
  | e :: f :: r =>
    have ih := sel_indentKids_length t l (f :: r)
    rw [indentKids]
    unfold sel at ih ⊢
    rw [List.filter_cons, List.filter_cons, tag_indent]
    split
    · rw [List.length_cons, List.length_cons, ih]
    · exact ih

theorem goodTree_withoutLists_indent {R : Str → Prop} (hR : Raws R) {D : List (Str × Str)} (hD : ∀ p ∈ D, p.1 ∉ cdataTags) (l : Nat) {e : Elem} (h : GoodTree R (withoutLists D e)) :
    GoodTree R (withoutLists D (indent l e)) := by
  match e, h with
  | node t x y [], h =>
    rw [indent]
    unfold withoutLists at h ⊢
    rw [mapKids, GoodTree] at h ⊢
    refine ⟨h.1, h.2.1, ?_, h.2.2.2⟩
    split
    · exact hR _ (indentStr_safe l).1
    · exact h.2.2.1
  | node t x y (k :: ks), h =>
    rw [indent]
    unfold withoutLists at h ⊢
    rw [mapKids, GoodTree] at h ⊢
    rw [tag_node] at h ⊢
    have ht : t ∉ cdataTags := by
      intro ht
      have h2 := h.2.1
      rw [if_pos ht] at h2
      have h3 := h2.2
      rw [List.filter_eq_nil_iff] at h3
      have := h3 k (by simp)
      simp only [Bool.not_eq_true', Bool.not_eq_false, List.contains_eq_mem, decide_eq_true_eq] at this
      exact hD _ this ht
    have h2 := h.2.1
    rw [if_neg ht] at h2 ⊢
    refine ⟨h.1, ?_, ?_, ?_⟩
    · split
      · exact hR _ (indentStr_safe l).2
      · exact h2
    · split
      · exact hR _ (indentStr_safe l).1
      · exact h.2.2.1
    · rw [goodTreeL_iff]
      have h4 := (goodTreeL_iff _ _).1 h.2.2.2
      intro a ha
      obtain ⟨ha1, ha2⟩ := List.mem_filter.1 ha
      obtain ⟨b, hb, hab⟩ := mem_indentKids ha1
      have htag : a.tag = b.tag := by
        rcases hab with rfl | rfl
        · exact tag_indent _ _
        · rw [tag_fixTail, tag_indent]
      have hgb : GoodTree R b := h4 b (List.mem_filter.2 ⟨hb, by rw [← htag]; exact ha2⟩)
      rcases hab with rfl | rfl
      · exact goodTree_indent hR _ b hgb
      · exact goodTree_fixTail hR _ (goodTree_indent hR _ b hgb)

theorem withoutLists_fixTail (D : List (Str × Str)) (l : Nat) (e : Elem) : withoutLists D (fixTail l e) = fixTail l (withoutLists D e) := by cases e; rfl

theorem Secs.indent {R : Str → Prop} (hR : Raws R) {D : List (Str × Str)} (hD : ∀ p ∈ D, p.1 ∉ cdataTags) (l : Nat) {ks : List Elem} (h : Secs R D ks) : Secs R D (indentKids l ks) := by
  intro x hx
  obtain ⟨e, he, hx⟩ := mem_indentKids hx
  have := goodTree_withoutLists_indent hR hD (l + 1) (h e he)
  rcases hx with rfl | rfl
  · exact this
  · rw [withoutLists_fixTail]
    exact goodTree_fixTail hR l this

/-! ### The texts of the prepared novel -/

theorem syncScene_texts {s : Scene} (h : StorableScene s) : SceneTexts (syncScene s) := by
  refine ⟨h.texts, h.plain, h.tags, h.start, ?_, ?_, h.ids⟩
  · intro t ht
    rw [syncScene_arcs] at ht
    cases ha : s.scnArcs with
    | none => rw [ha] at ht; exact h.arcs _ (by simp) t ht
    | some a => rw [ha] at ht; cases ht; exact h.arcs s.scnArcs (by simp) _ ha
  · intro t ht
    rw [syncScene_mode] at ht
    cases hm : s.scnMode with
    | none => rw [hm] at ht; exact h.mode t ht
    | some m =>
      rw [hm] at ht
      dsimp only at ht
      split at ht
      · cases ht
      · cases ht
        have hi := simple_ofInt m
        rw [ywConvert_plain]
        · exact hi.safePlain
        · intro c hc
          have h1 := (hi c hc).2
          have h2 : c ∈ ("-0123456789".toList : List Char) := by
            unfold Str.ofInt at hc
            split at hc
            · have := digit_mem (Str.isDigit_of_mem_ofNat hc)
              exact List.mem_cons_of_mem _ this
            · rcases List.mem_cons.1 hc with rfl | hc
              · decide
              · exact List.mem_cons_of_mem _ (digit_mem (Str.isDigit_of_mem_ofNat hc))
          revert h2
          have : ∀ c ∈ ("-0123456789".toList : List Char), c ∉ ['&', '<', '>', '\'', '"'] := by decide
          exact this c

theorem checkLocale_simple {n : Novel} {sl sc : Str} (h1 : SimpleText n.languageCode) (h2 : SimpleText n.countryCode) (hl : Simple sl) (hc : Simple sc) :
    CdataText (n.checkLocale sl sc).languageCode ∧ CdataText (n.checkLocale sl sc).countryCode := by
  have some' : ∀ {t : Str}, Simple t → CdataText (some t) := fun h s hs => by cases hs; exact h.safeCdata
  unfold Novel.checkLocale
  split
  · exact ⟨some' hl, some' hc⟩
  · split
    · split
      · exact ⟨h1.cdata, h2.cdata⟩
      · exact ⟨some' (simple_of (by decide)), some' (simple_of (by decide))⟩
    · exact ⟨some' (simple_of (by decide)), some' (simple_of (by decide))⟩

theorem prepared_texts {n : Novel} {sl sc : Str} (h : StorableNovel n) (hk : n.scenes.keys.Nodup) (hl : Simple sl) (hc : Simple sc) : RootTexts sl sc (prepareNovel n) := by
  have hlang : (prepareNovel n).languages.getD [] = languagesToSave n := by
    unfold prepareNovel languagesToSave
    split <;> rfl
  have hrest : (prepareNovel n).title = n.title ∧ (prepareNovel n).desc = n.desc ∧ (prepareNovel n).authorName = n.authorName ∧ (prepareNovel n).authorBio = n.authorBio ∧
      (prepareNovel n).fieldTitle1 = n.fieldTitle1 ∧ (prepareNovel n).fieldTitle2 = n.fieldTitle2 ∧ (prepareNovel n).fieldTitle3 = n.fieldTitle3 ∧ (prepareNovel n).fieldTitle4 = n.fieldTitle4 ∧
      (prepareNovel n).languageCode = n.languageCode ∧ (prepareNovel n).countryCode = n.countryCode ∧ (prepareNovel n).srtChapters = n.srtChapters ∧ (prepareNovel n).chapters = n.chapters ∧
      (prepareNovel n).srtLocations = n.srtLocations ∧ (prepareNovel n).locations = n.locations ∧ (prepareNovel n).srtItems = n.srtItems ∧ (prepareNovel n).items = n.items ∧
      (prepareNovel n).srtCharacters = n.srtCharacters ∧ (prepareNovel n).characters = n.characters ∧ (prepareNovel n).srtPrjNotes = n.srtPrjNotes ∧
      (prepareNovel n).projectNotes = n.projectNotes ∧ (prepareNovel n).scenes = n.scenes.map (fun p => (p.1, syncScene p.2)) := by
    unfold prepareNovel
    split <;> simp [Novel.getLanguages]
  obtain ⟨e1, e2, e3, e4, e5, e6, e7, e8, e9, e10, e11, e12, e13, e14, e15, e16, e17, e18, e19, e20, e21⟩ := hrest
  refine ⟨?_, ?_, ?_, ?_, ?_, ?_, ?_, ?_, ?_⟩
  · rw [e1, e2, e3, e4, e5, e6, e7, e8]; exact h.texts
  · have := checkLocale_simple (n := prepareNovel n) (by rw [e9]; exact h.locale _ (by simp)) (by rw [e10]; exact h.locale _ (by simp)) hl hc
    intro v hv
    simp only [List.mem_cons, List.not_mem_nil, or_false] at hv
    rcases hv with rfl | rfl
    · exact this.1
    · exact this.2
  · rw [hlang]; exact h.languages
  · rw [e21]
    intro p hp
    obtain ⟨q, hq, rfl⟩ := List.mem_map.1 hp
    obtain ⟨h1, h2⟩ := h.scenes q.1 q.2 (get?_of_mem_nodup hk hq)
    exact ⟨h1, syncScene_texts h2⟩
  · rw [e11, e12]; exact h.chapters
  · rw [e13, e14]; exact h.locations
  · rw [e15, e16]; exact h.items
  · rw [e17, e18]; exact h.characters
  · rw [e19, e20]; exact h.notes

/-! ### The whole way -/

/-- A novel is saved: the file is well-formed, a parser gets the tree, and what is kept in this tree on the next saving can be carried again. -/
theorem saved_parses {sl sc : Str} {n : Novel} {tree : Option Elem} {out : Elem} (b : Bool) (h : StorableNovel n) (hk : n.scenes.keys.Nodup) (hl : Simple sl) (hc : Simple sc)
    (hx : KeepableTree (tree.getD newRoot)) (hw : writeTree sl sc n tree = .ok out) :
    SafeTree out ∧ BlankTail out ∧ ∃ z, parseXml (parserInput (fileText b out)) = some z ∧ Reloaded out z ∧ Parsed out z ∧ KeepableTree z := by
  unfold writeTree at hw
  generalize tree.getD newRoot = x at hx hw
  dsimp only at hw
  split at hw
  · cases hw
  · rename_i rk hb
    cases hw
    obtain ⟨p, g1, g2⟩ := (buildRoot_ok hb).1
    cases x with
    | node t v y ks =>
      have hg := hx.good
      have hkeep := hx.once
      have htail := hx.tail
      rw [kids_node] at hkeep g1 hb
      rw [mapKids, GoodTree, goodTreeL_iff] at hg
      have hsec : Secs SafePlain rebuiltLists ks := fun e he => hg.2.2.2 _ (List.mem_map.2 ⟨e, he, rfl⟩)
      obtain ⟨s1, s2, s3⟩ := buildRoot_good (prepared_texts h hk hl hc) hsec hkeep hb
      have hks : ks.map (withoutLists rebuiltLists) ≠ [] := by
        intro h0
        rw [List.map_eq_nil_iff] at h0
        rw [h0] at g1
        cases g1
      have htc : t ∉ cdataTags := by
        intro ht
        have := hg.2.1
        rw [if_pos ht] at this
        exact hks this.2
      have hv := hg.2.1
      rw [if_neg htc] at hv
      have hR : Raws SafeRaw := fun s h => h.raw
      have hgood : GoodTree SafeRaw (node t v y rk) := by
        rw [GoodTree, if_neg htc]
        exact ⟨hg.1, hv.raw, hg.2.2.1.raw, (goodTreeL_iff _ _).2 s2⟩
      have hsafe : SafeTree (indent 0 (node t v y rk)) := safeTree_of_good _ (goodTree_indent hR 0 _ hgood)
      have hne : rk ≠ [] := by
        intro h0
        rw [h0] at g2
        cases g2
      obtain ⟨r0, rr, rfl⟩ := List.exists_cons_of_ne_nil hne
      have hout : indent 0 (node t v y (r0 :: rr)) = node t (if blank v then some (indentStr 0 ++ c!"  ") else v) (if blank y then some (indentStr 0) else y) (indentKids 0 (r0 :: rr)) := by
        rw [indent]
      have hblank : BlankTail (indent 0 (node t v y (r0 :: rr))) := by
        rw [hout]
        unfold BlankTail at htail ⊢
        intro c hc
        dsimp only [Elem.tail] at hc htail
        split at hc
        · have : c ∈ c!"\n" := hc
          simp at this
          exact Or.inr (Or.inr this)
        · exact htail c hc
      obtain ⟨z, z1, z2, z3, z4⟩ := parse_file b hsafe hblank
      show SafeTree (indent 0 (node t v y (r0 :: rr))) ∧ BlankTail (indent 0 (node t v y (r0 :: rr))) ∧ ∃ z, parseXml (parserInput (fileText b (indent 0 (node t v y (r0 :: rr))))) = some z ∧
        Reloaded (indent 0 (node t v y (r0 :: rr))) z ∧ Parsed (indent 0 (node t v y (r0 :: rr))) z ∧ KeepableTree z
      refine ⟨hsafe, hblank, z, z1, z2, z4, ?_, ?_, ?_⟩
      · rw [hout] at z4
        cases z4 with
        | node _ _ x' _ y' _ ks' h1 h2 =>
          have hp : Parsed (node t (if blank v then some (indentStr 0 ++ c!"  ") else v) (if blank y then some (indentStr 0) else y) ((indentKids 0 (r0 :: rr)).map (withoutLists rebuiltLists)))
              (node t x' y' (ks'.map (withoutLists rebuiltLists))) := .node _ _ _ _ _ _ _ h1 (parsedL_withoutLists _ h2)
          refine goodTree_parsed _ _ hp ?_ ?_
          · have : y' = none := z3
            rw [this]
            exact safePlain_nil
          · rw [GoodTree, if_neg htc, goodTreeL_iff]
            refine ⟨hg.1, ?_, ?_, ?_⟩
            · split
              · exact (indentStr_safe 0).2
              · exact hv
            · split
              · exact (indentStr_safe 0).1
              · exact hg.2.2.1
            · intro e he
              obtain ⟨a, ha, rfl⟩ := List.mem_map.1 he
              exact s1.indent (fun s h => h) (by decide) 0 a ha
      · intro p hp
        have hk := z2.kids
        rw [hout, kids_node] at hk
        rw [length_sel_reloaded hk, sel_indentKids_length]
        exact s3 p hp
      · unfold BlankTail
        rw [z3]
        intro c hc
        cases hc

end Verif
