/-
Lemmas about the collector of messages (C61).
-/
import Verif.Spec.Pgettext
import Verif.Lemmas.Translations
import Verif.Lemmas.Ini
import Verif.Lemmas.Escape

namespace Verif
open Spec

/-- No marked message with this quotation mark begins in `a`, if `r` follows. -/
def NoStart (q : Char) (a r : Str) : Prop := ∀ b s, a = b ++ s → s ≠ [] → ¬ ['_', '(', q] <+: s ++ r

theorem NoStart.tail {q c : Char} {a r : Str} (h : NoStart q (c :: a) r) : NoStart q a r :=
  fun b s e hs => h (c :: b) s (by rw [e]; rfl) hs

theorem findMsgs_skip {q : Char} : ∀ (a r : Str), NoStart q a r → findMsgs q 0 (a ++ r) = findMsgs q 0 r := by
  intro a
  induction a with
  | nil => intro r _; rfl
  | cons c a ih =>
    intro r h
    have h0 : ¬ ['_', '(', q] <+: c :: (a ++ r) := h [] (c :: a) rfl (by simp)
    rw [List.cons_append, findMsgs, if_neg (fun hp => h0 (List.isPrefixOf_iff_prefix.1 hp)), ih r h.tail]

theorem find_consume {q : Char} : ∀ (a r : Str) (n : Nat), n = a.length → findMsgs q n (a ++ r) = findMsgs q 0 r := by
  intro a
  induction a with
  | nil => intro r n h; subst h; rfl
  | cons c a ih => intro r n h; subst h; rw [List.cons_append, List.length_cons, findMsgs, ih r _ rfl]

theorem body_found {q : Char} (hq : q ≠ ')') : ∀ (m r : Str), m ≠ [] → '\n' ∉ m → ¬ [q, ')'] <:+: m → msgBody q (m ++ (q :: ')' :: r)) = some m := by
  intro m
  induction m with
  | nil => intro r h; exact absurd rfl h
  | cons c m ih =>
    intro r _ hn hc
    have h1 : ¬ c = '\n' := fun e => hn (e ▸ List.mem_cons_self)
    rw [List.cons_append, msgBody, if_neg h1]
    cases m with
    | nil =>
      rw [if_pos (by simp [List.isPrefixOf])]
    | cons d m =>
      have h2 : ¬ [q, ')'].isPrefixOf (d :: m ++ q :: ')' :: r) = true := by
        intro hp
        obtain ⟨w, hw⟩ := List.isPrefixOf_iff_prefix.1 hp
        cases m with
        | nil =>
          simp only [List.cons_append, List.nil_append, List.cons.injEq] at hw
          exact hq hw.2.1.symm
        | cons e m =>
          simp only [List.cons_append, List.nil_append, List.cons.injEq] at hw
          obtain ⟨rfl, rfl, _⟩ := hw
          exact hc ⟨[c], m, rfl⟩
      rw [if_neg h2, ih r (by simp) (fun h => hn (List.mem_cons_of_mem _ h)) (fun ⟨a, b, e⟩ => hc ⟨c :: a, b, by simp [← e]⟩)]
      rfl

theorem find_marked {q : Char} (hq : q ≠ ')') {m : Str} (hm : m ≠ []) (hn : '\n' ∉ m) (hc : ¬ [q, ')'] <:+: m) (r : Str) :
    findMsgs q 0 (MarkedMsg.text ⟨q, m⟩ ++ r) = m :: findMsgs q 0 r := by
  have e : MarkedMsg.text ⟨q, m⟩ ++ r = '_' :: ('(' :: q :: (m ++ q :: ')' :: r)) := by simp [MarkedMsg.text]
  rw [e, findMsgs, if_pos (by simp [List.isPrefixOf])]
  show (match msgBody q (m ++ q :: ')' :: r) with | some m => _ | none => _) = _
  rw [body_found hq m r hm hn hc]
  show m :: _ = _
  refine congrArg (m :: ·) ?_
  have e2 : '(' :: q :: (m ++ q :: ')' :: r) = ('(' :: q :: (m ++ [q, ')'])) ++ r := by simp
  rw [e2, find_consume _ _ _ (by simp)]

/-- A text in which no marked message begins, before something that begins otherwise or the beginning of a marked message. -/
theorem noStart_of {q : Char} (hq : q ≠ '_') {a r : Str} (h : ¬ ['_', '(', q] <:+: a)
    (h1 : ∀ b, a = b ++ c!"_(" → r.head? ≠ some q) (h2 : ∀ b, a = b ++ c!"_" → r.head? ≠ some '(') : NoStart q a r := by
  intro b s e hs hp
  obtain ⟨w, hw⟩ := hp
  match s, hs with
  | [x], _ =>
    cases r with
    | nil => simp at hw
    | cons y r =>
      simp only [List.cons_append, List.nil_append, List.cons.injEq] at hw
      obtain ⟨rfl, rfl, _⟩ := hw
      exact h2 b e rfl
  | [x, y], _ =>
    cases r with
    | nil => simp at hw
    | cons z r =>
      simp only [List.cons_append, List.nil_append, List.cons.injEq] at hw
      obtain ⟨rfl, rfl, rfl, _⟩ := hw
      exact h1 b e rfl
  | x :: y :: z :: s, _ =>
    simp only [List.cons_append, List.nil_append, List.cons.injEq] at hw
    obtain ⟨rfl, rfl, rfl, _⟩ := hw
    exact h ⟨b, s, by rw [e]; simp⟩

theorem marked_head (ms : List (MarkedMsg × Str)) : (ms.flatMap fun p => p.1.text ++ p.2).head? = none ∨ (ms.flatMap fun p => p.1.text ++ p.2).head? = some '_' := by
  cases ms with
  | nil => exact .inl rfl
  | cons p ms => exact .inr rfl

theorem code_skip {q : Char} (hq : q = '"' ∨ q = '\'') {a : Str} (h : Unmarked a) (ms : List (MarkedMsg × Str)) :
    NoStart q a (ms.flatMap fun p => p.1.text ++ p.2) := by
  have hh := marked_head ms
  refine noStart_of (by rcases hq with rfl | rfl <;> decide) ?_ (fun b _ hr => ?_) (fun b _ hr => ?_)
  · rcases hq with rfl | rfl
    · exact h.1
    · exact h.2
  · rcases hh with e | e <;> rw [e] at hr
    · cases hr
    · cases hr; rcases hq with h | h <;> exact absurd h (by decide)
  · rcases hh with e | e <;> rw [e] at hr
    · cases hr
    · exact absurd hr (by decide)

theorem other_skip {q q' : Char} (hq : q = '"' ∨ q = '\'') (hq' : q' = '"' ∨ q' = '\'') (hne : q' ≠ q) {m : Str} (h : Unmarked m) (r : Str) :
    findMsgs q 0 (MarkedMsg.text ⟨q', m⟩ ++ r) = findMsgs q 0 r := by
  have e : MarkedMsg.text ⟨q', m⟩ ++ r = c!"_(" ++ ([q'] ++ (m ++ ([q', ')'] ++ r))) := by simp [MarkedMsg.text]
  have s1 : NoStart q c!"_(" ([q'] ++ (m ++ ([q', ')'] ++ r))) := by
    refine noStart_of (by rcases hq with rfl | rfl <;> decide) ?_ ?_ ?_
    · intro hi; have := hi.length_le; simp at this
    · intro b _ hr; exact hne (Option.some.inj hr)
    · intro b hb hr
      have := congrArg List.getLast? hb
      simp at this
  have s2 : NoStart q [q'] (m ++ ([q', ')'] ++ r)) := by
    refine noStart_of (by rcases hq with rfl | rfl <;> decide) ?_ ?_ ?_
    · intro hi; have := hi.length_le; simp at this
    · intro b hb _
      have := congrArg List.length hb
      simp at this
    · intro b hb _
      have := congrArg List.getLast? hb
      rcases hq' with rfl | rfl <;> simp at this
  have s3 : NoStart q m ([q', ')'] ++ r) := by
    refine noStart_of (by rcases hq with rfl | rfl <;> decide) ?_ ?_ ?_
    · rcases hq with rfl | rfl
      · exact h.1
      · exact h.2
    · intro b _ hr; exact hne (Option.some.inj hr)
    · intro b _ hr; rcases hq' with rfl | rfl <;> exact absurd hr (by simp)
  have s4 : NoStart q [q', ')'] r := by
    refine noStart_of (by rcases hq with rfl | rfl <;> decide) ?_ ?_ ?_
    · intro hi; have := hi.length_le; simp at this
    · intro b hb _
      have := congrArg List.getLast? hb
      simp at this
    · intro b hb _
      have := congrArg List.getLast? hb
      simp at this
  rw [e, findMsgs_skip _ _ s1, findMsgs_skip _ _ s2, findMsgs_skip _ _ s3, findMsgs_skip _ _ s4]

/-- The messages with one kind of quotation marks. -/
def Spec.Source.msgs (s : Source) (q : Char) : List Str := (s.marked.filter fun p => p.1.quote = q).map fun p => p.1.message

theorem find_source {s : Source} (hs : s.Regular) {q : Char} (hq : q = '"' ∨ q = '\'') : findMsgs q 0 s.text = s.msgs q := by
  unfold Source.text Source.msgs
  rw [findMsgs_skip _ _ (code_skip hq hs.first.1 _)]
  have key : ∀ ms : List (MarkedMsg × Str), (∀ p ∈ ms, p ∈ s.marked) →
      findMsgs q 0 (ms.flatMap fun p => p.1.text ++ p.2) = (ms.filter fun p => p.1.quote = q).map fun p => p.1.message := by
    intro ms
    induction ms with
    | nil => intro _; rfl
    | cons p ms ih =>
      intro h
      have hp := h p List.mem_cons_self
      obtain ⟨h1, h2, h3, h4⟩ := hs.message p hp
      rw [List.flatMap_cons, List.append_assoc]
      have ih' := ih fun x hx => h x (List.mem_cons_of_mem _ hx)
      have hcode := findMsgs_skip _ _ (code_skip hq (hs.code p hp).1 ms)
      by_cases e : p.1.quote = q
      · have : p.1.text = MarkedMsg.text ⟨q, p.1.message⟩ := by rw [← e]
        rw [this, find_marked (by rcases hq with rfl | rfl <;> decide) h2 h1.1 (e ▸ h4), hcode, ih', List.filter_cons_of_pos (by simpa using e)]
        rfl
      · rw [other_skip (q' := p.1.quote) (m := p.1.message) hq (hs.quote p hp) e h3, hcode, ih', List.filter_cons_of_neg (by simpa using e)]
  exact key _ fun _ h => h

theorem source_noCR {s : Source} (hs : s.Regular) : '\r' ∉ s.text := by
  unfold Source.text
  intro h
  rcases List.mem_append.1 h with h | h
  · exact hs.first.2 h
  · obtain ⟨p, hp, h⟩ := List.mem_flatMap.1 h
    rcases List.mem_append.1 h with h | h
    · have hq := hs.quote p hp
      have : '\r' ∉ p.1.message := (hs.message p hp).1.2
      simp only [MarkedMsg.text, List.mem_append, List.mem_singleton, List.mem_cons, List.not_mem_nil, or_false] at h
      rcases h with (((h | h) | h) | h) | h
      · rcases h with h | h <;> exact absurd h (by decide)
      · rcases hq with e | e <;> rw [e] at h <;> exact absurd h (by decide)
      · exact this h
      · rcases hq with e | e <;> rw [e] at h <;> exact absurd h (by decide)
      · exact absurd h (by decide)
    · exact (hs.code p hp).2 h

theorem getMessages_source {s : Source} (hs : s.Regular) (m : Str) :
    m ∈ getMessages (universalNewlines s.text) ↔ ∃ p ∈ s.marked, p.1.message = m := by
  rw [universalNewlines_noCR fun c hc e => source_noCR hs (e ▸ hc)]
  unfold getMessages
  rw [find_source hs (.inl rfl), find_source hs (.inr rfl), List.mem_append]
  unfold Source.msgs
  simp only [List.mem_map, List.mem_filter, decide_eq_true_eq]
  constructor
  · rintro (⟨p, ⟨hp, _⟩, rfl⟩ | ⟨p, ⟨hp, _⟩, rfl⟩) <;> exact ⟨p, hp, rfl⟩
  · rintro ⟨p, hp, rfl⟩
    rcases hs.quote p hp with e | e
    · exact .inl ⟨p, ⟨hp, e⟩, rfl⟩
    · exact .inr ⟨p, ⟨hp, e⟩, rfl⟩

/-! ### Directories -/

theorem hasProgram_cons {e : SrcEntry} {r : List SrcEntry} {t : Except Exc Str} : HasProgram (e :: r) t ↔ HasProgram [e] t ∨ HasProgram r t := by
  constructor
  · intro h
    cases h with
    | here h => exact .inl (.here h)
    | inside h => exact .inl (.inside h)
    | later h => exact .inr h
  · rintro (h | h)
    · cases h with
      | here h => exact .here h
      | inside h => exact .inside h
      | later h => cases h
    · exact .later h

theorem hasProgram_file {name : Str} {t u : Except Exc Str} : HasProgram [.file name t] u ↔ c!".py" <:+ name ∧ u = t := by
  constructor
  · intro h
    cases h with
    | here h => exact ⟨h, rfl⟩
    | later h => cases h
  · rintro ⟨h, rfl⟩
    exact .here h

theorem hasProgram_dir {name : Str} {es : List SrcEntry} {u : Except Exc Str} : HasProgram [.dir name es] u ↔ HasProgram es u := by
  constructor
  · intro h
    cases h with
    | inside h => exact h
    | later h => cases h
  · exact .inside

/-- What a scan gives: an error, if some program cannot be read; otherwise the messages of all programs. -/
def ScanOk (has : Except Exc Str → Prop) (result : Except Exc (List Str)) : Prop :=
  ((∃ x, has (.error x)) → ∃ x, result = .error x) ∧
  ((∀ x, ¬ has (.error x)) → ∃ ms, result = .ok ms ∧ ∀ m, m ∈ ms ↔ ∃ t, has (.ok t) ∧ m ∈ getMessages (universalNewlines t))

mutual
theorem scanEntry_ok : ∀ e : SrcEntry, ScanOk (HasProgram [e]) (scanEntry e)
  | .file name text => by
    unfold ScanOk
    simp only [hasProgram_file]
    rw [scanEntry.eq_def]
    by_cases h : c!".py" <:+ name
    · have hb : Str.endsWith name c!".py" = true := List.isSuffixOf_iff_suffix.2 h
      simp only
      rw [if_pos hb]
      cases text with
      | error x => exact ⟨fun _ => ⟨x, rfl⟩, fun hx => absurd ⟨h, rfl⟩ (hx x)⟩
      | ok t =>
        refine ⟨fun ⟨x, hx⟩ => (by cases hx.2), fun _ => ⟨_, rfl, fun m => ⟨fun hm => ⟨t, ⟨h, rfl⟩, hm⟩, ?_⟩⟩⟩
        rintro ⟨t', ⟨_, e⟩, hm⟩
        cases e
        exact hm
    · have hb : ¬ Str.endsWith name c!".py" = true := fun hb => h (List.isSuffixOf_iff_suffix.1 hb)
      simp only
      rw [if_neg hb]
      exact ⟨fun ⟨x, hx⟩ => absurd hx.1 h, fun _ => ⟨[], rfl, fun m => ⟨fun hm => (by cases hm), fun ⟨t, hx, _⟩ => absurd hx.1 h⟩⟩⟩
  | .dir name es => by
    have ih := scanDir_ok es
    unfold ScanOk at ih ⊢
    simp only [hasProgram_dir]
    rw [scanEntry]
    exact ih

theorem scanDir_ok : ∀ es : List SrcEntry, ScanOk (HasProgram es) (scanDir es)
  | [] => by
    rw [scanDir]
    exact ⟨fun ⟨x, h⟩ => (by cases h), fun _ => ⟨[], rfl, fun m => ⟨fun hm => (by cases hm), fun ⟨t, h, _⟩ => (by cases h)⟩⟩⟩
  | e :: r => by
    obtain ⟨a1, a2⟩ := scanEntry_ok e
    obtain ⟨b1, b2⟩ := scanDir_ok r
    unfold ScanOk
    rw [scanDir]
    constructor
    · rintro ⟨x, hx⟩
      rcases hasProgram_cons.1 hx with h | h
      · obtain ⟨y, hy⟩ := a1 ⟨x, h⟩
        rw [hy]; exact ⟨y, rfl⟩
      · obtain ⟨y, hy⟩ := b1 ⟨x, h⟩
        rw [hy]
        cases scanEntry e with
        | error z => exact ⟨z, rfl⟩
        | ok a => exact ⟨y, rfl⟩
    · intro h
      obtain ⟨ms, h1, h2⟩ := a2 fun x hx => h x (hasProgram_cons.2 (.inl hx))
      obtain ⟨ns, h3, h4⟩ := b2 fun x hx => h x (hasProgram_cons.2 (.inr hx))
      rw [h1, h3]
      refine ⟨ms ++ ns, rfl, fun m => ?_⟩
      rw [List.mem_append, h2, h4]
      constructor
      · rintro (⟨t, ht, hm⟩ | ⟨t, ht, hm⟩)
        · exact ⟨t, hasProgram_cons.2 (.inl ht), hm⟩
        · exact ⟨t, hasProgram_cons.2 (.inr ht), hm⟩
      · rintro ⟨t, ht, hm⟩
        rcases hasProgram_cons.1 ht with ht | ht
        · exact .inl ⟨t, ht, hm⟩
        · exact .inr ⟨t, ht, hm⟩
end

/-! ### The template -/

theorem mem_distinct_iff (l : List Str) (m : Str) : m ∈ distinct l ↔ m ∈ l := by
  induction l with
  | nil => exact Iff.rfl
  | cons a l ih =>
    rw [distinct]
    by_cases h : a ∈ l
    · rw [if_pos h, ih, List.mem_cons]
      exact ⟨.inr, fun hm => hm.elim (fun e => e ▸ h) id⟩
    · rw [if_neg h, List.mem_cons, ih, List.mem_cons]

theorem distinct_once (l : List Str) : (distinct l).Nodup := by
  induction l with
  | nil => exact .nil
  | cons a l ih =>
    rw [distinct]
    by_cases h : a ∈ l
    · rw [if_pos h]; exact ih
    · rw [if_neg h]
      exact List.nodup_cons.2 ⟨fun hm => h ((mem_distinct_iff l a).1 hm), ih⟩

theorem quoted_eq (m : Str) : Str.replace m c!"\"" c!"\\\"" = quoted m := replace_single _ _ _

theorem quoted_cons (c : Char) (m : Str) : quoted (c :: m) = (if c = '"' then c!"\\\"" else [c]) ++ quoted m := rfl

theorem quoted_head (m : Str) : (quoted m).head? ≠ some '"' := by
  cases m with
  | nil => simp [quoted]
  | cons c m =>
    rw [quoted_cons]
    by_cases h : c = '"'
    · rw [if_pos h]; simp
    · rw [if_neg h]; simpa using h

theorem quoted_inj : ∀ (a b : Str), quoted a = quoted b → a = b := by
  intro a
  induction a with
  | nil =>
    intro b h
    cases b with
    | nil => rfl
    | cons d b => rw [quoted_cons] at h; split at h <;> simp [quoted] at h
  | cons c a ih =>
    intro b h
    cases b with
    | nil => rw [quoted_cons] at h; split at h <;> simp [quoted] at h
    | cons d b =>
      rw [quoted_cons, quoted_cons] at h
      by_cases hc : c = '"' <;> by_cases hd : d = '"'
      · rw [if_pos hc, if_pos hd] at h
        rw [hc, hd, ih b (by simpa using h)]
      · rw [if_pos hc, if_neg hd] at h
        simp only [List.cons_append, List.nil_append, List.cons.injEq] at h
        exact absurd (by rw [← h.2]; rfl) (quoted_head b)
      · rw [if_neg hc, if_pos hd] at h
        simp only [List.cons_append, List.nil_append, List.cons.injEq] at h
        exact absurd (by rw [h.2]; rfl) (quoted_head a)
      · rw [if_neg hc, if_neg hd] at h
        simp only [List.cons_append, List.nil_append, List.cons.injEq] at h
        rw [h.1, ih b h.2]

theorem quoted_oneLine {m : Str} (h : OneLine m) : OneLine (quoted m) := by
  constructor <;>
  · intro hm
    obtain ⟨c, hc, hx⟩ := List.mem_flatMap.1 hm
    split at hx
    · exact absurd hx (by decide)
    · rw [List.mem_singleton] at hx
      subst hx
      first | exact h.1 hc | exact h.2 hc

/-- The header of the template. -/
def potHeaderLines (e : TrEnv) : List Str :=
  [c!"# " ++ e.app ++ c!" Dictionary", c!"# Copyright (C) 2022 Peter Triesberger", c!"#", c!"msgid \"\"", c!"msgstr \"\"",
   c!"\"Project-Id-Version: " ++ e.version ++ c!"\\n\"", c!"\"POT-Creation-Date: " ++ e.now ++ c!"\\n\"",
   c!"\"PO-Revision-Date: YEAR-MO-DA HO:MI+ZONE\\n\"", c!"\"Last-Translator: FULL NAME <EMAIL@ADDRESS>\\n\"", c!"\"Language: LANGUAGE\\n\"",
   c!"\"MIME-Version: 1.0\\n\"", c!"\"Content-Type: text/plain; charset=UTF-8\\n\"", c!"\"Content-Transfer-Encoding: 8bit\\n\"",
   c!"\"Generated-By: PyWriter pgettext.py 0.3\\n\"", []]

set_option maxRecDepth 100000 in
theorem potHeader_eq (e : TrEnv) : potHeader e = (potHeaderLines e).flatMap (· ++ c!"\n") := by
  have hs : Template.segs potHeaderTemplate =
      (c!"# ").map Seg.lit ++ [.var c!"app" c!"${app}"] ++
      (c!" Dictionary\n# Copyright (C) 2022 Peter Triesberger\n#\nmsgid \"\"\nmsgstr \"\"\n\"Project-Id-Version: ").map .lit ++
      [.var c!"appVersion" c!"${appVersion}"] ++ (c!"\\n\"\n\"POT-Creation-Date: ").map .lit ++ [.var c!"datetime" c!"${datetime}"] ++
      (c!"\\n\"\n\"PO-Revision-Date: YEAR-MO-DA HO:MI+ZONE\\n\"\n\"Last-Translator: FULL NAME <EMAIL@ADDRESS>\\n\"\n\"Language: LANGUAGE\\n\"\n\"MIME-Version: 1.0\\n\"\n\"Content-Type: text/plain; charset=UTF-8\\n\"\n\"Content-Transfer-Encoding: 8bit\\n\"\n\"Generated-By: PyWriter pgettext.py ").map .lit ++
      [.var c!"version" c!"${version}"] ++ (c!"\\n\"\n\n").map .lit := by
    decide +kernel
  unfold potHeader Template.subst
  rw [hs]
  have lit : ∀ (m : Dict Str) (l : Str), (l.map Seg.lit).flatMap (Template.render m) = l := by
    intro m l
    induction l with
    | nil => rfl
    | cons c l ih => exact congrArg (c :: ·) ih
  simp only [List.flatMap_append, lit]
  simp [potHeaderLines, Template.render, Dict.get?, List.flatMap_cons]

/-- The template for some messages. -/
def potFile (e : TrEnv) (ms : List Str) : PoFile := ⟨potHeaderLines e, ms.map fun m => ⟨[[]], quoted m, []⟩, []⟩

theorem potText_file (e : TrEnv) (msgs : List Str) : potText e msgs = (potFile e (sortStrs (distinct msgs))).text := by
  unfold potText PoFile.text
  rw [List.flatten_cons, potHeader_eq]
  show _ = (potHeaderLines e ++ ((sortStrs (distinct msgs)).map _).flatMap PoEntry.lines ++ []).flatMap _
  rw [List.append_nil, List.flatMap_append]
  refine congrArg (List.flatMap (· ++ c!"\n") (potHeaderLines e) ++ ·) ?_
  generalize sortStrs (distinct msgs) = ms
  induction ms with
  | nil => rfl
  | cons m ms ih =>
    rw [List.map_cons, List.flatten_cons, ih, List.map_cons, List.flatMap_cons, List.flatMap_append]
    refine congrArg (· ++ List.flatMap (· ++ c!"\n") (List.flatMap PoEntry.lines (ms.map _))) ?_
    rw [quoted_eq]
    simp [PoEntry.lines]

end Verif
