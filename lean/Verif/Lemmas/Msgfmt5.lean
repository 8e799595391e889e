/-
Reading translation files: entries, whole files, and what is found in the compiled file.
-/
import Verif.Lemmas.Msgfmt4

namespace Verif
open Spec

variable {charset : Str → Option Enc}

/-- The messages after an entry. -/
def addEntry (M : List (Bytes × Bytes)) (e : CatEntry) : List (Bytes × Bytes) := addMsg none (utf8 e.says) (utf8 e.reads) e.fuzzy M

/-- The encoding after the message of an entry. -/
def entryEnc (charset : Str → Option Enc) (s : MoState) (header : Str) (e : CatEntry) : Enc :=
  if s.sect = some .str ∧ s.id = [] ∧ e.above.any isRemark = false then (charset (view s.enc header)).getD s.enc else s.enc

theorem entry_loop {s : MoState} {E : Enc} {M : List (Bytes × Bytes)} (hr : Ready s E M) (header : Str) (hh : s.sect = some .str → s.str = utf8 header)
    {e : CatEntry} (he : e.Regular) (ho : entryEnc charset s header e ≠ .other) (hpl : entryEnc charset s header e ≠ E → e.Plain)
    (hz : s.fuzzy = true → s.sect = some .str ∧ e.above.any isRemark = true) :
    ∃ s', moLoop charset s (e.lines.map lineBytes) = some s' ∧ Ready s' (entryEnc charset s header e) (addEntry M e) ∧ s'.sect = some .str ∧
      s'.id = utf8 e.says ∧ s'.str = utf8 e.reads ∧ s'.fuzzy = e.fuzzy := by
  obtain ⟨s1, h1, r1, hc⟩ := above_lines (charset := charset) e.above s he.above hr
  have henc : nextEnc charset s1 header = entryEnc charset s header e := by
    unfold nextEnc entryEnc
    rcases hc with ⟨hc1, hc2⟩ | ⟨hc1, hc2, _⟩
    · subst hc2
      simp only [hc1, and_true]
    · rw [if_neg (fun h => by rw [hc2] at h; cases h.1), if_neg (fun h => by rw [hc1] at h; cases h.2.2), r1.enc, hr.enc]
  have hstr : s1.sect = some .str → s1.str = utf8 header := by
    rcases hc with ⟨_, hc2⟩ | ⟨_, hc2, _⟩
    · subst hc2; exact hh
    · intro h; rw [hc2] at h; cases h
  have hfz : s1.fuzzy = e.fuzzy := by
    rcases hc with ⟨hc1, hc2⟩ | ⟨hc1, hc2, hc3⟩
    · subst hc2
      have e1 : e.fuzzy = false := by
        show e.above.any isFuzzyMark = false
        rw [List.any_eq_false] at hc1 ⊢
        intro x hx hz
        refine hc1 x hx ?_
        unfold isFuzzyMark at hz
        cases x with
        | nil => cases hz
        | cons c x =>
          have := (Bool.and_eq_true _ _ ▸ hz).1
          have : (('#' == c) && _) = true := this
          have hc := (Bool.and_eq_true _ _ ▸ this).1
          rw [← beq_iff_eq.1 hc]; rfl
      rw [e1]
      cases hf : s1.fuzzy with
      | false => rfl
      | true => rw [(hz hf).2] at hc1; cases hc1
    · rw [hc3]
      show _ = e.above.any isFuzzyMark
      by_cases h : s.sect = some .str
      · rw [if_pos h, Bool.false_or]
      · rw [if_neg h]
        have : s.fuzzy = false := by
          cases hf : s.fuzzy with
          | false => rfl
          | true => exact absurd (hz hf).1 h
        rw [this, Bool.false_or]
  obtain ⟨hm, ht⟩ := he.some
  have hsays := he.says
  have hreads := he.reads
  have hpl' : entryEnc charset s header e ≠ E → ∀ p ∈ e.message, ∀ c ∈ p, c.toNat < 128 := hpl
  unfold CatEntry.lines addEntry
  generalize hEn : entryEnc charset s header e = E' at *
  generalize e.message = ms at *
  generalize e.translation = ts at *
  generalize e.says = u at *
  generalize e.reads = v at *
  cases hsays with
  | nil => exact absurd rfl hm
  | @cons p t r u1 hp hr1 =>
    cases hreads with
    | nil => exact absurd rfl ht
    | @cons q w r2 v1 hq hr2 =>
      have hv : view E p = view (nextEnc charset s1 header) p := by
        rw [henc]
        by_cases hE : E' = E
        · rw [hE]
        · have := hpl' hE p List.mem_cons_self
          rw [view_ascii this, view_ascii this]
      have h2 := msgid_line (charset := charset) r1 header hstr hp (by rw [henc]; exact ho) hv
      rw [henc] at h2
      have h3 := id_strings (charset := charset) ho hr1
        { s1 with sect := some .id, id := utf8 t, str := [], plural := some false, messages := M, enc := E' } rfl rfl
      have h4 := msgstr_line (charset := charset) (E := E')
        (s := { s1 with sect := some .id, id := utf8 t ++ utf8 u1, str := [], plural := some false, messages := M, enc := E' }) rfl ho rfl hq
      have h5 := str_strings (charset := charset) ho hr2
        { s1 with sect := some .str, id := utf8 t ++ utf8 u1, str := [] ++ utf8 w, plural := some false, messages := M, enc := E' } rfl rfl
      refine ⟨{ s1 with sect := some .str, id := utf8 t ++ utf8 u1, str := [] ++ utf8 w ++ utf8 v1, plural := some false, messages := M, enc := E' },
        ?_, ⟨.inl rfl, r1.ctxt, rfl, ho, ?_⟩, rfl, (utf8_append t u1).symm, (utf8_append w v1).symm, hfz⟩
      · rw [List.map_append, List.map_append, moLoop_append, moLoop_append, h1]
        show (moLoop charset s1 ((keyed c!"msgid" (p :: r)).map lineBytes)).bind _ = _
        rw [keyed, List.map_cons, moLoop, h2]
        show (moLoop charset _ _).bind _ = _
        rw [h3]
        show moLoop charset _ _ = _
        rw [keyed, List.map_cons, moLoop, h4]
        exact h5
      · show (if (some Section.str : Option Section) = some .str then addMsg s1.ctxt (utf8 t ++ utf8 u1) (utf8 w ++ utf8 v1) s1.fuzzy M else M) = _
        rw [if_pos rfl, r1.ctxt, hfz, utf8_append, utf8_append]

/-- The entries after the first. -/
theorem entries_loop : ∀ (es : List CatEntry) (s : MoState) (E : Enc) (M : List (Bytes × Bytes)) (idText header : Str), Ready s E M →
    s.sect = some .str → s.id = utf8 idText → s.str = utf8 header → (∀ e ∈ es, e.Regular ∧ e.says ≠ []) →
    (s.fuzzy = true → ∀ e, es.head? = some e → e.above.any isRemark = true) → FuzzySeparated es →
    (idText = [] → ∀ e, es.head? = some e → e.above.any isRemark = false →
      (charset (view E header)).getD E ≠ .other ∧ ((charset (view E header)).getD E ≠ E → e.Plain)) →
    ∃ s' E', moLoop charset s ((es.flatMap CatEntry.lines).map lineBytes) = some s' ∧ Ready s' E' (es.foldl addEntry M) := by
  intro es
  induction es with
  | nil => intro s E M idText header hr _ _ _ _ _ _ _; exact ⟨s, E, rfl, hr⟩
  | cons e es ih =>
    intro s E M idText header hr hs hid hstr hes hfz hsep hcs
    obtain ⟨he, hne⟩ := hes e List.mem_cons_self
    have hE : entryEnc charset s header e ≠ .other ∧ (entryEnc charset s header e ≠ E → e.Plain) := by
      unfold entryEnc
      by_cases h : s.sect = some .str ∧ s.id = [] ∧ e.above.any isRemark = false
      · rw [if_pos h, hr.enc]
        refine hcs ?_ e rfl h.2.2
        rw [hid] at h
        exact utf8_inj (b := []) h.2.1
      · rw [if_neg h, hr.enc]
        exact ⟨hr.ok, fun h => absurd rfl h⟩
    obtain ⟨s1, h1, r1, hs1, hid1, hstr1, hf1⟩ := entry_loop (charset := charset) hr header (fun _ => hstr) he hE.1 hE.2
      (fun h => ⟨hs, hfz h e rfl⟩)
    have hsep' : FuzzySeparated es := by
      cases es with
      | nil => trivial
      | cons b es => exact hsep.2
    obtain ⟨s2, E2, h2, r2⟩ := ih s1 _ _ e.says e.reads r1 hs1 hid1 hstr1 (fun x hx => hes x (List.mem_cons_of_mem _ hx))
      (fun hz b hb => by
        cases es with
        | nil => cases hb
        | cons b' es =>
          cases hb
          rw [hf1] at hz
          obtain ⟨l, hl, hl'⟩ := hsep.1 hz
          exact List.any_eq_true.2 ⟨l, hl, hl'⟩)
      hsep' (fun h => absurd h hne)
    refine ⟨s2, E2, ?_, r2⟩
    rw [List.flatMap_cons, List.map_append, moLoop_append, h1]
    exact h2

/-! ### Lines -/

theorem denotes_noNL {a b : Str} (h : Denotes a b) : '\n' ∉ a := by
  induction h with
  | nil => simp
  | plain hc _ _ ih =>
    rw [List.mem_cons, not_or]
    exact ⟨fun e => hc (by rw [← e]; decide), ih⟩
  | @escape c d r t hc _ ih =>
    have ha : ∀ p ∈ [('n', '\n'), ('t', '\t'), ('r', '\r'), ('"', '"'), ('\'', '\''), ('\\', '\\')], p.1 ≠ '\n' := by decide
    rw [List.mem_cons, List.mem_cons, not_or, not_or]
    exact ⟨by decide, fun e => ha _ hc e.symm, ih⟩

theorem keyed_noNL {kw : Str} (hk : '\n' ∉ kw) {ps : List Str} {t : Str} (h : DenotesAll ps t) : ∀ l ∈ keyed kw ps, '\n' ∉ l := by
  have all : ∀ {ps : List Str} {t : Str}, DenotesAll ps t → ∀ p ∈ ps, '\n' ∉ p := by
    intro ps t h
    induction h with
    | nil => intro p hp; cases hp
    | cons hp _ ih =>
      intro p hm
      rcases List.mem_cons.1 hm with rfl | hm
      · exact denotes_noNL hp
      · exact ih p hm
  have hall := all h
  intro l hl
  cases ps with
  | nil => cases hl
  | cons p r =>
    rcases List.mem_cons.1 hl with rfl | hl
    · have := hall p List.mem_cons_self
      simp [hk, this]
    · obtain ⟨q, hq, rfl⟩ := List.mem_map.1 hl
      have := hall q (List.mem_cons_of_mem _ hq)
      simp [this]

theorem utf8_noNL {l : Str} (h : '\n' ∉ l) : (10 : UInt8) ∉ utf8 l := by
  intro hm
  obtain ⟨c, hc, hb⟩ := List.mem_flatMap.1 hm
  by_cases ha : c.toNat < 128
  · rw [utf8_ascii_char ha, List.mem_singleton] at hb
    have h1 : c.toNat = 10 := by
      have := congrArg UInt8.toNat hb
      rw [UInt8.toNat_ofNat'] at this
      have h10 : (10 : UInt8).toNat = 10 := rfl
      omega
    have : c = '\n' := Char.toNat_inj.1 h1
    exact h (this ▸ hc)
  · have := utf8_high_char ha _ hb
    revert this; decide

theorem byteLines_line {a r : Bytes} (h : (10 : UInt8) ∉ a) : byteLines (a ++ 10 :: r) = (a ++ [10]) :: byteLines r := by
  induction a with
  | nil => rw [List.nil_append, byteLines, if_pos rfl]; rfl
  | cons x a ih =>
    rw [List.mem_cons, not_or] at h
    rw [List.cons_append, byteLines, if_neg (fun e => h.1 e.symm), ih h.2]
    rfl

theorem byteLines_text {ls : List Str} (h : ∀ l ∈ ls, '\n' ∉ l) : byteLines (utf8 (ls.flatMap (· ++ c!"\n"))) = ls.map lineBytes := by
  induction ls with
  | nil => rfl
  | cons l ls ih =>
    have e : utf8 ((l :: ls).flatMap (· ++ c!"\n")) = utf8 l ++ 10 :: utf8 (ls.flatMap (· ++ c!"\n")) := by
      rw [List.flatMap_cons, utf8_append, utf8_append, List.append_assoc]
      rfl
    rw [e, byteLines_line (utf8_noNL (h l List.mem_cons_self)), ih fun x hx => h x (List.mem_cons_of_mem _ hx), List.map_cons]
    congr 1
    unfold lineBytes
    rw [utf8_append]
    rfl

theorem entry_noNL {e : CatEntry} (he : e.Regular) : ∀ l ∈ e.lines, '\n' ∉ l := by
  intro l hl
  rcases List.mem_append.1 hl with hl | hl
  · rcases List.mem_append.1 hl with hl | hl
    · exact (he.above l hl).1
    · exact keyed_noNL (by decide) he.says l hl
  · exact keyed_noNL (by decide) he.reads l hl

/-! ### The messages -/

theorem setMsg_keys (k v : Bytes) : ∀ (M : List (Bytes × Bytes)), (setMsg k v M).map (·.1) = if k ∈ M.map (·.1) then M.map (·.1) else M.map (·.1) ++ [k] := by
  intro M
  induction M with
  | nil => rfl
  | cons e M ih =>
    obtain ⟨k', v'⟩ := e
    unfold setMsg
    by_cases h : k' = k
    · subst h; simp
    · rw [if_neg h, List.map_cons, ih, List.map_cons]
      simp only [List.mem_cons]
      have h' : ¬ k = k' := fun e => h e.symm
      simp only [h', false_or]
      split <;> rfl

theorem setMsg_nodup {k v : Bytes} {M : List (Bytes × Bytes)} (h : (M.map (·.1)).Nodup) : ((setMsg k v M).map (·.1)).Nodup := by
  rw [setMsg_keys]
  split
  · exact h
  · rename_i hk
    rw [List.nodup_append]
    refine ⟨h, by simp, fun a ha b hb => ?_⟩
    rw [List.mem_singleton.1 hb]
    exact fun e => hk (e ▸ ha)

theorem setMsg_lookup (k v : Bytes) (x : Bytes) : ∀ (M : List (Bytes × Bytes)), (setMsg k v M).lookup x = if x = k then some v else M.lookup x := by
  intro M
  induction M with
  | nil =>
    unfold setMsg
    rw [List.lookup_cons]
    by_cases h : x = k
    · subst h; simp
    · rw [beq_eq_false_iff_ne.2 h, if_neg h]
  | cons e M ih =>
    obtain ⟨k', v'⟩ := e
    unfold setMsg
    by_cases h : k' = k
    · subst h
      rw [if_pos rfl, List.lookup_cons, List.lookup_cons]
      by_cases hx : x = k'
      · subst hx; simp
      · rw [beq_eq_false_iff_ne.2 hx, if_neg hx]
    · rw [if_neg h, List.lookup_cons, List.lookup_cons, ih]
      by_cases hx : x = k'
      · subst hx
        rw [if_neg h]; simp
        try exact fun e => absurd e h
      · rw [beq_eq_false_iff_ne.2 hx]

theorem addEntry_nodup {e : CatEntry} {M : List (Bytes × Bytes)} (h : (M.map (·.1)).Nodup) : ((addEntry M e).map (·.1)).Nodup := by
  unfold addEntry addMsg
  split
  · exact setMsg_nodup h
  · exact h

theorem utf8_nil {s : Str} : utf8 s = [] ↔ s = [] := ⟨fun h => utf8_inj (b := []) h, fun h => by rw [h]; rfl⟩

theorem entries_lookup (key : Str) : ∀ (es : List CatEntry) (M : List (Bytes × Bytes)), (es.foldl addEntry M).lookup (utf8 key) =
    ((catTranslation key es).map utf8).orElse fun _ => M.lookup (utf8 key) := by
  intro es
  induction es with
  | nil => intro M; rfl
  | cons e es ih =>
    intro M
    rw [List.foldl_cons, ih, catTranslation]
    cases catTranslation key es with
    | some t => rfl
    | none =>
      show (addEntry M e).lookup (utf8 key) = ((if _ then some e.reads else none : Option Str).map utf8).orElse _
      unfold addEntry addMsg
      by_cases hf : e.fuzzy = false ∧ e.reads ≠ []
      · have hc : (!e.fuzzy && decide (utf8 e.reads ≠ [])) = true := by
          rw [hf.1]
          simpa [utf8_nil] using hf.2
        rw [if_pos hc]
        show (setMsg (utf8 e.says) (utf8 e.reads) M).lookup _ = _
        rw [setMsg_lookup]
        by_cases hk : e.says = key
        · rw [if_pos (by rw [hk]), if_pos ⟨hk, hf.2, hf.1⟩]; rfl
        · rw [if_neg (fun h => hk (utf8_inj h).symm), if_neg (fun h => hk h.1)]; rfl
      · have hc : ¬ (!e.fuzzy && decide (utf8 e.reads ≠ [])) = true := by
          intro h
          rw [Bool.and_eq_true] at h
          refine hf ⟨by simpa using h.1, ?_⟩
          simpa [utf8_nil] using h.2
        rw [if_neg hc, if_neg (fun h => hf ⟨h.2.2, h.2.1⟩)]; rfl

theorem entries_nodup : ∀ (es : List CatEntry) (M : List (Bytes × Bytes)), (M.map (·.1)).Nodup → ((es.foldl addEntry M).map (·.1)).Nodup := by
  intro es
  induction es with
  | nil => intro M h; exact h
  | cons e es ih => intro M h; exact ih _ (addEntry_nodup h)

theorem entries_keys : ∀ (es : List CatEntry) (M : List (Bytes × Bytes)), ∀ k ∈ (es.foldl addEntry M).map (·.1), k ∈ M.map (·.1) ∨ ∃ e ∈ es, k = utf8 e.says := by
  intro es
  induction es with
  | nil => intro M k h; exact .inl h
  | cons e es ih =>
    intro M k h
    rcases ih _ k h with h | ⟨e', he', h⟩
    · unfold addEntry addMsg at h
      split at h
      · have h : k ∈ (setMsg (utf8 e.says) (utf8 e.reads) M).map (·.1) := h
        rw [setMsg_keys] at h
        split at h
        · exact .inl h
        · rcases List.mem_append.1 h with h | h
          · exact .inl h
          · exact .inr ⟨e, List.mem_cons_self, List.mem_singleton.1 h⟩
      · exact .inl h
    · exact .inr ⟨e', List.mem_cons_of_mem _ he', h⟩

/-! ### The size -/

/-- The bytes that the messages need. -/
def msgSize (M : List (Bytes × Bytes)) : Nat := (M.map fun e => e.1.length + e.2.length + 18).sum

theorem setMsg_size (k v : Bytes) : ∀ M : List (Bytes × Bytes), msgSize (setMsg k v M) ≤ msgSize M + (k.length + v.length + 18) := by
  intro M
  induction M with
  | nil => simp [setMsg, msgSize]
  | cons e M ih =>
    obtain ⟨k', v'⟩ := e
    unfold setMsg
    by_cases h : k' = k
    · subst h
      rw [if_pos rfl]
      simp only [msgSize, List.map_cons, List.sum_cons]
      omega
    · rw [if_neg h]
      simp only [msgSize, List.map_cons, List.sum_cons] at ih ⊢
      omega

/-- The size of a compiled file with all the entries. -/
def Spec.catSize (es : List CatEntry) : Nat := 28 + (es.map fun e => (utf8 e.says).length + (utf8 e.reads).length + 18).sum

theorem entries_size : ∀ (es : List CatEntry) (M : List (Bytes × Bytes)), 28 + msgSize (es.foldl addEntry M) ≤ msgSize M + catSize es := by
  intro es
  induction es with
  | nil => intro M; simp [catSize]; omega
  | cons e es ih =>
    intro M
    have h := ih (addEntry M e)
    have h2 : msgSize (addEntry M e) ≤ msgSize M + ((utf8 e.says).length + (utf8 e.reads).length + 18) := by
      unfold addEntry addMsg
      split
      · exact setMsg_size _ _ _
      · omega
    simp only [catSize, List.map_cons, List.sum_cons] at h ⊢
    rw [List.foldl_cons]
    omega

theorem places_bound (ks vs : Nat) : ∀ (es : List (Bytes × Bytes)) (o1 o2 : Nat),
    (∀ n ∈ keyTable ks (places o1 o2 es), n ≤ ks + o1 + (zeroed (es.map (·.1))).length) ∧
    ∀ n ∈ valueTable vs (places o1 o2 es), n ≤ vs + o2 + (zeroed (es.map (·.2))).length := by
  intro es
  induction es with
  | nil => intro o1 o2; exact ⟨fun n h => (by cases h), fun n h => (by cases h)⟩
  | cons e es ih =>
    intro o1 o2
    obtain ⟨k, v⟩ := e
    obtain ⟨h1, h2⟩ := ih (o1 + k.length + 1) (o2 + v.length + 1)
    rw [List.map_cons, List.map_cons, zeroed_length_cons, zeroed_length_cons, places]
    constructor
    · intro n hn
      have hn : n ∈ [k.length, o1 + ks] ++ keyTable ks (places (o1 + k.length + 1) (o2 + v.length + 1) es) := hn
      rcases List.mem_append.1 hn with hn | hn
      · simp only [List.mem_cons, List.not_mem_nil, or_false] at hn
        show n ≤ ks + o1 + (k.length + 1 + _)
        omega
      · have := h1 n hn
        show n ≤ ks + o1 + (k.length + 1 + _)
        omega
    · intro n hn
      have hn : n ∈ [v.length, o2 + vs] ++ valueTable vs (places (o1 + k.length + 1) (o2 + v.length + 1) es) := hn
      rcases List.mem_append.1 hn with hn | hn
      · simp only [List.mem_cons, List.not_mem_nil, or_false] at hn
        show n ≤ vs + o2 + (v.length + 1 + _)
        omega
      · have := h2 n hn
        show n ≤ vs + o2 + (v.length + 1 + _)
        omega

theorem msgSize_eq (es : List (Bytes × Bytes)) : msgSize es = 16 * es.length + (zeroed (es.map (·.1))).length + (zeroed (es.map (·.2))).length := by
  induction es with
  | nil => rfl
  | cons e es ih =>
    rw [List.map_cons, List.map_cons, zeroed_length_cons, zeroed_length_cons, List.length_cons]
    simp only [msgSize, List.map_cons, List.sum_cons] at ih ⊢
    omega

theorem msgSize_perm {a b : List (Bytes × Bytes)} (h : a.Perm b) : msgSize a = msgSize b := List.Perm.sum_nat (h.map _)

theorem generate_some {M : List (Bytes × Bytes)} (hn : (M.map (·.1)).Nodup) (h : 28 + msgSize M < 2147483648) : ∃ file, generate M = some file := by
  refine ⟨_, generate_file.2 ⟨?_, rfl⟩⟩
  rw [← msgSize_perm (sorted_perm M hn), msgSize_eq] at h
  generalize sortedEntries M = es at *
  obtain ⟨h1, h2⟩ := places_bound (28 + 16 * es.length) (28 + 16 * es.length + (zeroed (es.map (·.1))).length) es 0 0
  refine ⟨by omega, fun n hn => ?_⟩
  rcases List.mem_append.1 hn with hn | hn
  · have := h1 n hn; omega
  · have := h2 n hn; omega

end Verif
