/-
C60: a compiled translation file gives every message its translation.
-/
import Verif.Lemmas.Msgfmt5
import Verif.Props.C58_Translations

namespace Verif
open Spec

/-- In the file that is generated, every message is found with its translation, and nothing else is found; and there is a file, unless it would be
larger than 2 GB. -/
theorem C60_catalog (messages : List (Bytes × Bytes)) (hn : (messages.map (·.1)).Nodup) :
    (∀ file, generate messages = some file → ∀ key, moFind file key = messages.lookup key) ∧
    (28 + (messages.map fun e => e.1.length + e.2.length + 18).sum < 2147483648 → ∃ file, generate messages = some file) :=
  ⟨fun _ h key => generate_find hn h key, fun h => generate_some hn h⟩

/-- The messages that the program finds in a file, in order. -/
theorem make_file (charset : Str → Option Enc) (head : CatEntry) (es : List CatEntry) (below : List Str)
    (hhead : head.Regular) (hes : ∀ e ∈ es, e.Regular ∧ e.says ≠ []) (hb : ∀ l ∈ below, SideLine l) (hf : FuzzySeparated (head :: es))
    (hc : head.says = [] → ∀ e, es.head? = some e → (∀ l ∈ e.above, isRemark l = false) →
      (charset (view .latin1 head.reads)).getD .latin1 ≠ .other ∧ ((charset (view .latin1 head.reads)).getD .latin1 ≠ .latin1 → e.Plain))
    (M : List (Bytes × Bytes)) :
    makeMo charset M (utf8 (catText (head :: es) below)) = generate ((head :: es).foldl addEntry M) := by
  unfold makeMo catText
  rw [byteLines_text, List.map_append, List.flatMap_cons, List.map_append, List.append_assoc, moLoop_append]
  · have hE : entryEnc charset (.start M) [] head = .latin1 := by
      unfold entryEnc
      rw [if_neg (fun h => by cases h.1)]
      rfl
    obtain ⟨s1, h1, r1, hs1, hid1, hstr1, hf1⟩ := entry_loop (charset := charset) (s := .start M) (E := .latin1) (M := M)
      ⟨.inr rfl, rfl, rfl, by decide, rfl⟩ [] (fun h => by cases h) hhead (by rw [hE]; decide) (fun h => absurd hE h) (fun h => by cases h)
    rw [hE] at r1
    obtain ⟨s2, E2, h2, r2⟩ := entries_loop (charset := charset) es s1 _ _ head.says head.reads r1 hs1 hid1 hstr1 hes
      (fun hz b hb => by
        cases es with
        | nil => cases hb
        | cons b' es =>
          cases hb
          rw [hf1] at hz
          obtain ⟨l, hl, hl'⟩ := hf.1 hz
          exact List.any_eq_true.2 ⟨l, hl, hl'⟩)
      (by
        cases es with
        | nil => trivial
        | cons b es => exact hf.2)
      (fun h e he ha => hc h e he fun l hl => by
        have := List.any_eq_false.1 ha l hl
        simpa using this)
    obtain ⟨s3, h3, r3, _⟩ := above_lines (charset := charset) below s2 hb r2
    rw [h1]
    show (do let s ← moLoop charset s1 _; _) = _
    rw [moLoop_append, h2]
    show (do let s ← moLoop charset s2 _; _) = _
    rw [h3]
    show generate (finalMsgs s3) = _
    rw [r3.final]
    rfl
  · intro l hl
    rcases List.mem_append.1 hl with hl | hl
    · obtain ⟨e, he, hl2⟩ := List.mem_flatMap.1 hl
      rcases List.mem_cons.1 he with h | he
      · rw [h] at hl2; exact entry_noNL hhead l hl2
      · exact entry_noNL (hes e he).1 l hl2
    · exact (hb l hl).1

/-- A translation file with a header and entries, all in the usual form, is compiled into a file in which every message has its last certain
translation, and nothing else is found. -/
theorem C60_make_partial (charset : Str → Option Enc) (head : CatEntry) (es : List CatEntry) (below : List Str)
    (hhead : head.Regular) (hes : ∀ e ∈ es, e.Regular ∧ e.says ≠ []) (hb : ∀ l ∈ below, SideLine l) (hf : FuzzySeparated (head :: es))
    (hc : head.says = [] → ∀ e, es.head? = some e → (∀ l ∈ e.above, isRemark l = false) →
      (charset (view .latin1 head.reads)).getD .latin1 ≠ .other ∧ ((charset (view .latin1 head.reads)).getD .latin1 ≠ .latin1 → e.Plain))
    (hsize : catSize (head :: es) < 2147483648) :
    ∃ file, makeMo charset [] (utf8 (catText (head :: es) below)) = some file ∧
      (∀ key, moFind file (utf8 key) = (catTranslation key (head :: es)).map utf8) ∧
      ∀ b, (∀ key, b ≠ utf8 key) → moFind file b = none := by
  have hn : (((head :: es).foldl addEntry []).map (·.1)).Nodup := entries_nodup _ _ (by simp)
  have hs := entries_size (head :: es) []
  obtain ⟨file, hg⟩ := generate_some hn (by
    have : msgSize [] = 0 := rfl
    omega)
  refine ⟨file, by rw [make_file charset head es below hhead hes hb hf hc]; exact hg, fun key => ?_, fun b hb => ?_⟩
  · rw [generate_find hn hg, entries_lookup]
    cases catTranslation key (head :: es) <;> rfl
  · rw [generate_find hn hg, List.lookup_eq_none_iff]
    intro p hp
    rcases entries_keys _ _ p.1 (List.mem_map.2 ⟨p, hp, rfl⟩) with h | ⟨e, _, h⟩
    · cases h
    · have := hb e.says
      rw [← h] at this
      simpa using this

/-! ### From the update of the translations to the compiled file -/

/-- The lines of the header of a new translation file, without the quotation marks. -/
def headStrings (e : TrEnv) (cr : Str) : List Str :=
  [[], c!"Project-Id-Version: " ++ e.version ++ c!"\\n", cr, c!"PO-Revision-Date: " ++ e.now ++ c!"\\n",
   c!"Last-Translator: Peter Triesberger\\n", c!"Language: de\\n", c!"MIME-Version: 1.0\\n",
   c!"Content-Type: text/plain; charset=UTF-8\\n", c!"Content-Transfer-Encoding: 8bit\\n"]

/-- The header as an entry. -/
def headEntry (e : TrEnv) (cr header : Str) : CatEntry :=
  ⟨[c!"# " ++ e.app ++ c!" Dictionary (English-German)", c!"# Copyright (C) 2022 Peter Triesberger", c!"#"], [[]], [], headStrings e cr, header⟩

/-- The messages as entries. -/
def msgEntries (say tr : Str → Str) (above : List Str) : List Str → List CatEntry
  | [] => []
  | m :: ms => ⟨above, [m], say m, [tr m], say (tr m)⟩ :: msgEntries say tr [[]] ms

theorem msgEntries_lines (say tr : Str → Str) : ∀ (ms : List Str) (above : List Str),
    above ++ (ms.flatMap fun m => [c!"msgid \"" ++ m ++ c!"\"", c!"msgstr \"" ++ tr m ++ c!"\"", []]) =
      (msgEntries say tr above ms).flatMap CatEntry.lines ++ if ms = [] then above else [[]] := by
  intro ms
  induction ms with
  | nil => intro above; simp [msgEntries]
  | cons m ms ih =>
    intro above
    have h := ih [[]]
    rw [List.flatMap_cons, msgEntries, List.flatMap_cons]
    have e1 : CatEntry.lines ⟨above, [m], say m, [tr m], say (tr m)⟩ = above ++ [c!"msgid \"" ++ m ++ c!"\"", c!"msgstr \"" ++ tr m ++ c!"\""] := by
      simp [CatEntry.lines, keyed]
    rw [e1, if_neg (by simp)]
    have e2 : (if ms = [] then ([[]] : List Str) else [[]]) = [[]] := by split <;> rfl
    rw [e2] at h
    generalize c!"msgid \"" ++ m ++ c!"\"" = a
    generalize c!"msgstr \"" ++ tr m ++ c!"\"" = b
    refine Eq.trans ?_ (List.append_assoc (above ++ [a, b]) _ _).symm
    rw [← h]
    exact (List.append_assoc above [a, b] _).symm

theorem newFile_cat (e : TrEnv) (cr header : Str) (ms : List Str) (say tr : Str → Str) :
    newFile e (c!"\"" ++ cr ++ c!"\"") ms tr =
      catText (headEntry e cr header :: msgEntries say tr [[], []] ms) (if ms = [] then [[], []] else [[]]) := by
  unfold newFile catText
  refine congrArg (List.flatMap (· ++ c!"\n")) ?_
  rw [List.flatMap_cons, List.append_assoc (headEntry e cr header).lines, ← msgEntries_lines]
  have : newHeader e (c!"\"" ++ cr ++ c!"\"") = (headEntry e cr header).lines ++ [[], []] := by
    unfold newHeader CatEntry.lines headEntry headStrings keyed
    simp
  rw [this]
  exact List.append_assoc (headEntry e cr header).lines [[], []] _

theorem denotesAll_single {p t : Str} (h : Denotes p t) : DenotesAll [p] t := by
  have := DenotesAll.cons h .nil
  rwa [List.append_nil] at this

theorem denotes_nil {t : Str} (h : Denotes [] t) : t = [] := by cases h; rfl

theorem denotes_ne {a b : Str} (h : Denotes a b) (hb : b = []) : a = [] := by
  subst hb
  cases h
  rfl

theorem msgEntries_translation {say tr : Str → Str} {ms0 : List Str} (hinj : ∀ a ∈ ms0, ∀ b ∈ ms0, say a = say b → a = b) {m : Str} (hm : m ∈ ms0) :
    ∀ (ms : List Str) (above : List Str), (∀ x ∈ ms, x ∈ ms0) → (∀ l ∈ above, isRemark l = false) →
    catTranslation (say m) (msgEntries say tr above ms) = if m ∈ ms ∧ say (tr m) ≠ [] then some (say (tr m)) else none := by
  intro ms
  induction ms with
  | nil => intro above _ _; simp [msgEntries, catTranslation]
  | cons x ms ih =>
    intro above hsub ha
    have hfz : CatEntry.fuzzy ⟨above, [x], say x, [tr x], say (tr x)⟩ = false := by
      show above.any _ = false
      rw [List.any_eq_false]
      intro l hl
      have := ha l hl
      cases l with
      | nil => simp
      | cons c l =>
        have hc : c ≠ '#' := by simpa [isRemark] using this
        have : (c!"#,").isPrefixOf (c :: l) = false := by
          show ('#' == c && _) = false
          rw [beq_eq_false_iff_ne.2 fun e => hc e.symm]; rfl
        rw [this]; simp
    rw [msgEntries, catTranslation, ih [[]] (fun y hy => hsub y (List.mem_cons_of_mem _ hy)) (by decide), hfz]
    by_cases hx : say x = say m
    · have : x = m := hinj x (hsub x List.mem_cons_self) m hm hx
      subst this
      by_cases ht : say (tr x) = []
      · simp [ht]
      · by_cases hmem : x ∈ ms <;> simp [ht, hmem]
    · have hne : m ≠ x := fun e => hx (by rw [e])
      simp [hx, hne]

theorem msgEntries_other {say tr : Str → Str} {key : Str} : ∀ (ms : List Str) (above : List Str), (∀ x ∈ ms, say x ≠ key) →
    catTranslation key (msgEntries say tr above ms) = none := by
  intro ms
  induction ms with
  | nil => intro above _; rfl
  | cons x ms ih =>
    intro above h
    rw [msgEntries, catTranslation, ih _ fun y hy => h y (List.mem_cons_of_mem _ hy)]
    have := h x List.mem_cons_self
    simp [this]

/-- The whole way: after an update of the translations and the compilation of the new file, every message of the template (a proper string, in plain
characters) is found with its translation, as it was in the old file or in the dictionary; a message without a translation is not found, and nothing
else is found, except for the header under the empty message. -/
theorem C60_translations_partial (charset : Str → Option Enc) (e : TrEnv) (dict : Dict Str) (template : PoFile) (old : Option PoFile)
    (ht : template.Regular) (ho : ∀ f, old = some f → f.Regular) (happ : '\n' ∉ e.app)
    (say : Str → Str) (hplain : ∀ m ∈ template.messages, ∀ c ∈ m, c.toNat < 128) (hsay : ∀ m ∈ template.messages, Denotes m (say m))
    (hinj : ∀ a ∈ template.messages, ∀ b ∈ template.messages, say a = say b → a = b)
    (htr : ∀ m ∈ template.messages, Denotes (translationOf dict old m) (say (translationOf dict old m)))
    (cr header : Str) (hcr : creationLine e template = c!"\"" ++ cr ++ c!"\"") (hheader : DenotesAll (headStrings e cr) header)
    (hcs : charset (view .latin1 header) ≠ some .other)
    (hsize : 28 + (46 + (utf8 header).length + (template.messages.map fun m => (utf8 (say m)).length + (utf8 (say (translationOf dict old m))).length + 18).sum) < 2147483648) :
    ∃ file, makeMo charset [] (utf8 (updateTranslations e dict template.text (old.map PoFile.text)).text) = some file ∧
      (∀ m ∈ template.messages, moFind file (utf8 (say m)) =
        if translationOf dict old m = [] then none else some (utf8 (say (translationOf dict old m)))) ∧
      ∀ b, b ≠ [] → (∀ m ∈ template.messages, b ≠ utf8 (say m)) → moFind file b = none := by
  rw [update_text e dict template old ht ho, hcr]
  obtain ⟨hread, hperm, _⟩ := readPot_file ht e
  have hms : (sortedMessages e template).Perm template.messages := hperm
  generalize sortedMessages e template = ms at hms
  generalize htrd : translationOf dict old = tr at *
  rw [newFile_cat e cr header ms say tr]
  have hmem : ∀ x ∈ ms, x ∈ template.messages := fun x hx => hms.mem_iff.1 hx
  have regular : ∀ (ms : List Str) (above : List Str), (∀ x ∈ ms, x ∈ template.messages) → (∀ l ∈ above, l = []) →
      ∀ c ∈ msgEntries say tr above ms, c.Regular ∧ c.says ≠ [] ∧ c.fuzzy = false ∧ c.Plain ∧ ∀ l ∈ c.above, isRemark l = false := by
    intro ms
    induction ms with
    | nil => intro above _ _ c hc; cases hc
    | cons x ms ih =>
      intro above hsub ha c hc
      rcases List.mem_cons.1 hc with rfl | hc
      · have hx := hsub x List.mem_cons_self
        obtain ⟨en, hen, hxe⟩ := List.mem_map.1 hx
        refine ⟨⟨?_, ⟨by simp, by simp⟩, denotesAll_single (hsay x hx), denotesAll_single (htr x hx)⟩, ?_, ?_, ?_, ?_⟩
        · intro l hl
          rw [ha l hl]
          exact ⟨by simp, .inr (by simp)⟩
        · intro h
          have := denotes_ne (hsay x hx) h
          rw [← hxe] at this
          exact (ht.message en hen).2.1 this
        · show above.any _ = false
          rw [List.any_eq_false]
          intro l hl
          rw [ha l hl]; simp
        · intro p hp
          rw [List.mem_singleton.1 hp]
          exact hplain x hx
        · intro l hl
          rw [ha l hl]; rfl
      · exact ih [[]] (fun y hy => hsub y (List.mem_cons_of_mem _ hy)) (by simp) c hc
  have reg := regular ms [[], []] hmem (by simp)
  have hhead : (headEntry e cr header).Regular := by
    refine ⟨?_, ⟨by simp [headEntry], by simp [headEntry, headStrings]⟩, denotesAll_single .nil, hheader⟩
    intro l hl
    simp only [headEntry, List.mem_cons, List.not_mem_nil, or_false] at hl
    rcases hl with rfl | rfl | rfl
    · refine ⟨?_, .inl rfl⟩
      simp [happ]
    · exact ⟨by decide, .inl rfl⟩
    · exact ⟨by decide, .inl rfl⟩
  have hcfz : (headEntry e cr header).fuzzy = false := by
    show List.any _ _ = false
    simp [headEntry, List.isPrefixOf]
  have sep : FuzzySeparated (headEntry e cr header :: msgEntries say tr [[], []] ms) := by
    have all : ∀ l : List CatEntry, (∀ c ∈ l, c.fuzzy = false) → FuzzySeparated l := by
      intro l
      induction l with
      | nil => intro _; trivial
      | cons a l ih =>
        intro h
        cases l with
        | nil => trivial
        | cons b l =>
          refine ⟨fun hz => ?_, ih fun c hc => h c (List.mem_cons_of_mem _ hc)⟩
          rw [h a List.mem_cons_self] at hz
          cases hz
    refine all _ fun c hc => ?_
    rcases List.mem_cons.1 hc with rfl | hc
    · exact hcfz
    · exact (reg c hc).2.2.1
  have size : catSize (headEntry e cr header :: msgEntries say tr [[], []] ms) < 2147483648 := by
    have hsum : ∀ (ms : List Str) (above : List Str), ((msgEntries say tr above ms).map fun e => (utf8 e.says).length + (utf8 e.reads).length + 18) =
        ms.map fun m => (utf8 (say m)).length + (utf8 (say (tr m))).length + 18 := by
      intro ms
      induction ms with
      | nil => intro _; rfl
      | cons x ms ih => intro above; rw [msgEntries, List.map_cons, ih]; rfl
    unfold catSize
    rw [List.map_cons, hsum, List.sum_cons, (hms.map _).sum_nat]
    have : (utf8 (headEntry e cr header).says).length = 0 := rfl
    have : (headEntry e cr header).reads = header := rfl
    rw [this]
    omega
  obtain ⟨file, h1, h2, h3⟩ := C60_make_partial charset (headEntry e cr header) (msgEntries say tr [[], []] ms) (if ms = [] then [[], []] else [[]])
    hhead (fun c hc => ⟨(reg c hc).1, (reg c hc).2.1⟩)
    (by
      intro l hl
      have : l = [] := by
        split at hl
        · simpa using hl
        · simpa using hl
      rw [this]
      exact ⟨by simp, .inr (by simp)⟩) sep
    (fun _ c hc _ => ⟨by
        intro h
        cases hx : charset (view .latin1 (headEntry e cr header).reads) with
        | none => rw [hx] at h; cases h
        | some x => rw [hx] at h; exact hcs (hx.trans (congrArg some h)), fun _ => (reg c (List.mem_of_mem_head? hc)).2.2.2.1⟩) size
  refine ⟨file, h1, fun m hm => ?_, fun b hb hne => ?_⟩
  · rw [h2, catTranslation, msgEntries_translation hinj hm ms [[], []] hmem (by decide)]
    have hmm : m ∈ ms := hms.mem_iff.2 hm
    obtain ⟨en, hen, hxe⟩ := List.mem_map.1 hm
    have hsm : ¬ (headEntry e cr header).says = say m := fun h => (ht.message en hen).2.1 (by rw [hxe]; exact denotes_ne (hsay m hm) h.symm)
    by_cases hz : tr m = []
    · have : say (tr m) = [] := by
        have := htr m hm
        rw [hz] at this ⊢
        exact denotes_nil this
      rw [if_neg (fun h => h.2 this), if_pos hz, if_neg (fun h => hsm h.1)]
      rfl
    · rw [if_pos ⟨hmm, fun h => hz (denotes_ne (htr m hm) h)⟩, if_neg hz]
      rfl
  · by_cases hk : ∃ key, b = utf8 key
    · obtain ⟨key, rfl⟩ := hk
      rw [h2, catTranslation, msgEntries_other ms _ (fun x hx h => hne x (hmem x hx) (by rw [h]))]
      have : ¬ (headEntry e cr header).says = key := fun h => hb (by rw [← h]; rfl)
      rw [if_neg (fun h => this h.1)]
      rfl
    · exact h3 b fun key h => hk ⟨key, h⟩

/-! ### An example and findings -/

/-- A reader of headers, for the examples. -/
def demoCharset (h : Str) : Option Enc := if Str.contains (Str.lower h) c!"charset=utf-8" then some .utf8 else none

/-- A file with these lines. -/
def poFile (lines : List Str) : Bytes := utf8 (lines.flatMap (· ++ c!"\n"))

/-- What is found in the compiled file for some messages. -/
theorem find_of {charset : Str → Option Enc} {file : Bytes} {M0 M : List (Bytes × Bytes)}
    (h : (moLoop charset (.start M0) (byteLines file)).map finalMsgs = some M) (hn : (M.map (·.1)).Nodup)
    (hs : 28 + (M.map fun e => e.1.length + e.2.length + 18).sum < 2147483648) :
    ∃ mo, makeMo charset M0 file = some mo ∧ ∀ key, moFind mo key = M.lookup key := by
  obtain ⟨s, h1, h2⟩ := Option.map_eq_some_iff.1 h
  obtain ⟨mo, hg⟩ := generate_some hn hs
  refine ⟨mo, ?_, generate_find hn hg⟩
  unfold makeMo
  rw [h1]
  show generate (finalMsgs s) = _
  rw [h2, hg]

set_option maxRecDepth 100000 in
/-- The mark on the first entry is taken to be on the second, which has no comment above it. -/
theorem C60_fuzzy_spreads :
    ∃ mo, makeMo demoCharset [] (poFile [c!"#, fuzzy", c!"msgid \"a\"", c!"msgstr \"A\"", c!"", c!"msgid \"b\"", c!"msgstr \"B\""]) = some mo ∧
      moFind mo (utf8 c!"b") = none := by
  obtain ⟨mo, h1, h2⟩ := find_of (charset := demoCharset) (M0 := []) (M := [])
    (file := poFile [c!"#, fuzzy", c!"msgid \"a\"", c!"msgstr \"A\"", c!"", c!"msgid \"b\"", c!"msgstr \"B\""]) (by decide +kernel) (by simp) (by decide)
  exact ⟨mo, h1, h2 _⟩

set_option maxRecDepth 100000 in
/-- A second file gets the messages of the first. -/
theorem C60_messages_stay (M : List (Bytes × Bytes)) (hM : M = [(utf8 c!"a", utf8 c!"A")]) :
    makeMo demoCharset [] (poFile [c!"msgid \"a\"", c!"msgstr \"A\""]) = generate M ∧
    ∃ mo, makeMo demoCharset M (poFile [c!"msgid \"b\"", c!"msgstr \"B\""]) = some mo ∧ moFind mo (utf8 c!"a") = some (utf8 c!"A") := by
  subst hM
  constructor
  · have h : (moLoop demoCharset (.start []) (byteLines (poFile [c!"msgid \"a\"", c!"msgstr \"A\""]))).map finalMsgs = some [(utf8 c!"a", utf8 c!"A")] := by
      decide +kernel
    obtain ⟨s, h1, h2⟩ := Option.map_eq_some_iff.1 h
    unfold makeMo
    rw [h1]
    show generate (finalMsgs s) = _
    rw [h2]
  · obtain ⟨mo, h1, h2⟩ := find_of (charset := demoCharset) (M0 := [(utf8 c!"a", utf8 c!"A")]) (M := [(utf8 c!"a", utf8 c!"A"), (utf8 c!"b", utf8 c!"B")])
      (file := poFile [c!"msgid \"b\"", c!"msgstr \"B\""]) (by decide +kernel) (by decide) (by decide)
    exact ⟨mo, h1, (h2 _).trans (by decide)⟩

set_option maxRecDepth 100000 in
/-- The first message after the header: its characters are read in the one encoding and written in the other. -/
theorem C60_first_message :
    ∃ mo, makeMo demoCharset [] (poFile [c!"msgid \"\"", c!"msgstr \"charset=UTF-8\"", c!"", c!"msgid \"é\"", c!"msgstr \"e\""]) = some mo ∧
      moFind mo (utf8 c!"é") = none ∧ moFind mo (utf8 c!"Ã©") = some (utf8 c!"e") := by
  have h4 : moLoop demoCharset (.start []) [lineBytes c!"msgid \"\"", lineBytes c!"msgstr \"charset=UTF-8\"", lineBytes c!"", lineBytes c!"msgid \"é\""] =
      some ⟨some .id, none, utf8 c!"Ã©", [], false, some false, .utf8, [([], utf8 c!"charset=UTF-8")]⟩ := by
    rfl
  have h5 : moLine demoCharset ⟨some .id, none, utf8 c!"Ã©", [], false, some false, .utf8, [([], utf8 c!"charset=UTF-8")]⟩ (lineBytes c!"msgstr \"e\"") =
      some ⟨some .str, none, utf8 c!"Ã©", utf8 c!"e", false, some false, .utf8, [([], utf8 c!"charset=UTF-8")]⟩ := by
    have hd : Enc.utf8.decode (lineBytes c!"msgstr \"e\"") = some c!"msgstr \"e\"\n" := decode_view (E := .utf8) (by decide) c!"msgstr \"e\"\n"
    unfold moLine
    rw [show (MoState.enc ⟨some .id, none, utf8 c!"Ã©", [], false, some false, .utf8, [([], utf8 c!"charset=UTF-8")]⟩) = .utf8 from rfl, hd]
    rfl
  obtain ⟨mo, h1, h2⟩ := find_of (charset := demoCharset) (M0 := []) (M := [([], utf8 c!"charset=UTF-8"), (utf8 c!"Ã©", utf8 c!"e")])
    (file := poFile [c!"msgid \"\"", c!"msgstr \"charset=UTF-8\"", c!"", c!"msgid \"é\"", c!"msgstr \"e\""])
    (by
      unfold poFile
      rw [byteLines_text (by decide)]
      show (moLoop demoCharset (.start []) ([lineBytes c!"msgid \"\"", lineBytes c!"msgstr \"charset=UTF-8\"", lineBytes c!"", lineBytes c!"msgid \"é\""] ++ [lineBytes c!"msgstr \"e\""])).map _ = _
      rw [moLoop_append, h4]
      rw [Option.bind_some, moLoop, h5]
      decide +kernel) (by decide) (by decide)
  exact ⟨mo, h1, (h2 _).trans (by decide), (h2 _).trans (by decide)⟩

set_option maxRecDepth 100000 in
/-- A message with a context is found under the context, the byte 4 and the message. But the context is taken to belong to the next entry also, if
there is no comment above it. -/
theorem C60_context_spreads :
    ∃ mo, makeMo demoCharset [] (poFile [c!"msgctxt \"menu\"", c!"msgid \"a\"", c!"msgstr \"A\"", c!"", c!"msgid \"b\"", c!"msgstr \"B\""]) = some mo ∧
      moFind mo (utf8 c!"menu" ++ [4] ++ utf8 c!"a") = some (utf8 c!"A") ∧ moFind mo (utf8 c!"b") = none ∧
      moFind mo (utf8 c!"menu" ++ [4] ++ utf8 c!"b") = some (utf8 c!"B") := by
  obtain ⟨mo, h1, h2⟩ := find_of (charset := demoCharset) (M0 := [])
    (M := [(utf8 c!"menu" ++ [4] ++ utf8 c!"a", utf8 c!"A"), (utf8 c!"menu" ++ [4] ++ utf8 c!"b", utf8 c!"B")])
    (file := poFile [c!"msgctxt \"menu\"", c!"msgid \"a\"", c!"msgstr \"A\"", c!"", c!"msgid \"b\"", c!"msgstr \"B\""])
    (by decide +kernel) (by decide) (by decide)
  exact ⟨mo, h1, (h2 _).trans (by decide), (h2 _).trans (by decide), (h2 _).trans (by decide)⟩

set_option maxRecDepth 100000 in
/-- A message with a plural is found under its two forms with the byte 0 between them, with all forms of the translation. But a form that is empty is
left out without a gap if it is the first one, so that the other forms get wrong numbers. -/
theorem C60_plural :
    (∃ mo, makeMo demoCharset [] (poFile [c!"msgid \"one\"", c!"msgid_plural \"many\"", c!"msgstr[0] \"ein\"", c!"msgstr[1] \"viele\""]) = some mo ∧
      moFind mo (utf8 c!"one" ++ [0] ++ utf8 c!"many") = some (utf8 c!"ein" ++ [0] ++ utf8 c!"viele") ∧ moFind mo (utf8 c!"one") = none) ∧
    ∃ mo, makeMo demoCharset [] (poFile [c!"msgid \"one\"", c!"msgid_plural \"many\"", c!"msgstr[0] \"\"", c!"msgstr[1] \"viele\""]) = some mo ∧
      moFind mo (utf8 c!"one" ++ [0] ++ utf8 c!"many") = some (utf8 c!"viele") := by
  constructor
  · obtain ⟨mo, h1, h2⟩ := find_of (charset := demoCharset) (M0 := [])
      (M := [(utf8 c!"one" ++ [0] ++ utf8 c!"many", utf8 c!"ein" ++ [0] ++ utf8 c!"viele")])
      (file := poFile [c!"msgid \"one\"", c!"msgid_plural \"many\"", c!"msgstr[0] \"ein\"", c!"msgstr[1] \"viele\""])
      (by decide +kernel) (by decide) (by decide)
    exact ⟨mo, h1, (h2 _).trans (by decide), (h2 _).trans (by decide)⟩
  · obtain ⟨mo, h1, h2⟩ := find_of (charset := demoCharset) (M0 := [])
      (M := [(utf8 c!"one" ++ [0] ++ utf8 c!"many", utf8 c!"viele")])
      (file := poFile [c!"msgid \"one\"", c!"msgid_plural \"many\"", c!"msgstr[0] \"\"", c!"msgstr[1] \"viele\""])
      (by decide +kernel) (by decide) (by decide)
    exact ⟨mo, h1, (h2 _).trans (by decide)⟩

/-- An example: a header, a message in two lines with a remark, an uncertain translation, a message whose translation has other characters and
quotation marks. -/
def demoHead : CatEntry := ⟨[c!"# Ein Wörterbuch"], [[]], [], [[], c!"Content-Type: text/plain; charset=UTF-8\\n"], c!"Content-Type: text/plain; charset=UTF-8\n"⟩

def demoEntries : List CatEntry :=
  [⟨[[], c!"#: novel.py:12"], [c!"Open ", c!"project"], c!"Open project", [c!"Projekt öffnen"], c!"Projekt öffnen"⟩,
   ⟨[[], c!"#, fuzzy"], [c!"Close"], c!"Close", [c!"Klose"], c!"Klose"⟩,
   ⟨[[], c!"# häufig"], [c!"Scene \\\"{}\\\""], c!"Scene \"{}\"", [c!"Szene „{}“"], c!"Szene „{}“"⟩]

/-- A proof of `Denotes` for plain characters. -/
theorem denotes_plain {s : Str} (h : ∀ c ∈ s, c ∉ c!"\"\\\n\r" ∧ c ≠ Char.ofNat 0) : Denotes s s := by
  induction s with
  | nil => exact .nil
  | cons c s ih => exact .plain (h c List.mem_cons_self).1 (h c List.mem_cons_self).2 (ih fun x hx => h x (List.mem_cons_of_mem _ hx))

set_option maxRecDepth 100000 in
theorem C60_demo :
    demoHead.Regular ∧ (∀ e ∈ demoEntries, e.Regular ∧ e.says ≠ []) ∧ FuzzySeparated (demoHead :: demoEntries) ∧
    (∀ e, demoEntries.head? = some e → (∀ l ∈ e.above, isRemark l = false) → False) ∧ catSize (demoHead :: demoEntries) < 2147483648 ∧
    ∃ mo, makeMo demoCharset [] (utf8 (catText (demoHead :: demoEntries) [])) = some mo ∧
      moFind mo (utf8 c!"Open project") = some (utf8 c!"Projekt öffnen") ∧ moFind mo (utf8 c!"Close") = none ∧
      moFind mo (utf8 c!"Scene \"{}\"") = some (utf8 c!"Szene „{}“") ∧ moFind mo (utf8 c!"Scene") = none := by
  have side : ∀ l ∈ ([[], c!"# Ein Wörterbuch", c!"#: novel.py:12", c!"#, fuzzy", c!"# häufig"] : List Str), SideLine l := by
    unfold SideLine; decide +kernel
  have h1 : demoHead.Regular := by
    refine ⟨fun l hl => side l ?_, by decide, denotesAll_single .nil, ?_⟩
    · rw [List.mem_singleton.1 (show l ∈ [c!"# Ein Wörterbuch"] from hl)]; decide
    · refine DenotesAll.cons .nil (denotesAll_single ?_)
      exact (denotes_plain (s := c!"Content-Type: text/plain; charset=UTF-8") (by decide)).append (.escape (c := 'n') (by decide) .nil)
  have h2 : ∀ e ∈ demoEntries, e.Regular ∧ e.says ≠ [] := by
    intro e he
    have sides : ∀ x ∈ demoEntries, ∀ l ∈ x.above, l ∈ ([[], c!"# Ein Wörterbuch", c!"#: novel.py:12", c!"#, fuzzy", c!"# häufig"] : List Str) := by decide +kernel
    have hside := fun l hl => side l (sides e he l hl)
    simp only [demoEntries, List.mem_cons, List.not_mem_nil, or_false] at he
    rcases he with rfl | rfl | rfl
    · exact ⟨⟨hside, by decide,
        .cons (denotes_plain (s := c!"Open ") (by decide)) (denotesAll_single (denotes_plain (s := c!"project") (by decide))),
        denotesAll_single (denotes_plain (s := c!"Projekt öffnen") (by decide))⟩, by decide⟩
    · exact ⟨⟨hside, by decide,
        denotesAll_single (denotes_plain (s := c!"Close") (by decide)),
        denotesAll_single (denotes_plain (s := c!"Klose") (by decide))⟩, by decide⟩
    · exact ⟨⟨hside, by decide,
        denotesAll_single ((denotes_plain (s := c!"Scene ") (by decide)).append (.escape (c := '"') (d := '"') (by decide)
          ((denotes_plain (s := c!"{}") (by decide)).append (.escape (c := '"') (d := '"') (by decide) .nil)))),
        denotesAll_single (denotes_plain (s := c!"Szene „{}“") (by decide))⟩, by decide⟩
  have h3 : FuzzySeparated (demoHead :: demoEntries) := by
    simp only [FuzzySeparated, demoEntries]
    decide +kernel
  have h4 : ∀ e, demoEntries.head? = some e → (∀ l ∈ e.above, isRemark l = false) → False := by
    intro e he ha
    cases he
    exact absurd (ha c!"#: novel.py:12" (by decide)) (by decide)
  have h5 : catSize (demoHead :: demoEntries) < 2147483648 := by decide +kernel
  obtain ⟨mo, hm, hf, _⟩ := C60_make_partial demoCharset demoHead demoEntries [] h1 h2 (by simp) h3 (fun _ e he ha => (h4 e he ha).elim) h5
  exact ⟨h1, h2, h3, h4, h5, mo, hm, (hf _).trans (by decide +kernel), (hf _).trans (by decide +kernel), (hf _).trans (by decide +kernel), (hf _).trans (by decide +kernel)⟩

end Verif
