/-
C61: every message that is marked in the programs gets into the template, once, and so into the compiled translation file.
-/
import Verif.Lemmas.Pgettext
import Verif.Props.C60_Msgfmt

namespace Verif
open Spec Str

theorem potFile_regular {e : TrEnv} (he : TrEnvOk e) {ms : List Str} (hm : ∀ m ∈ ms, OneLine m ∧ m ≠ []) : (potFile e ms).Regular where
  header l hl := by
    have lit : ∀ x : Str, (x.all (fun c => c ≠ '\n' ∧ c ≠ '\r')) = true → OneLine x := by
      intro x hx
      rw [List.all_eq_true] at hx
      exact ⟨fun h => (of_decide_eq_true (hx _ h)).1 rfl, fun h => (of_decide_eq_true (hx _ h)).2 rfl⟩
    simp only [potFile, potHeaderLines, List.mem_cons, List.not_mem_nil, or_false] at hl
    rcases hl with rfl | rfl | rfl | rfl | rfl | rfl | rfl | rfl | rfl | rfl | rfl | rfl | rfl | rfl | rfl
    · exact ⟨oneLine_append (oneLine_append (lit _ (by decide)) he.app) (lit _ (by decide)), headerLine_of (by decide) (by decide)⟩
    · exact ⟨lit _ rfl, headerLine_of (by decide) (by decide)⟩
    · exact ⟨lit _ rfl, headerLine_of (by decide) (by decide)⟩
    · exact ⟨lit _ rfl, by decide⟩
    · exact ⟨lit _ rfl, by decide⟩
    · exact ⟨oneLine_append (oneLine_append (lit _ (by decide)) he.version) (lit _ (by decide)), headerLine_of (by decide) (by decide)⟩
    · exact ⟨oneLine_append (oneLine_append (lit _ (by decide)) he.now) (lit _ (by decide)), headerLine_of (by decide) (by decide)⟩
    all_goals first | exact ⟨lit _ rfl, headerLine_of (by decide) (by decide)⟩ | exact ⟨lit _ rfl, by decide⟩
  above x hx l hl := by
    obtain ⟨m, _, rfl⟩ := List.mem_map.1 hx
    rw [List.mem_singleton.1 hl]
    exact ⟨⟨by simp, by simp⟩, by decide, by decide⟩
  below l hl := by cases hl
  message x hx := by
    obtain ⟨m, h, rfl⟩ := List.mem_map.1 hx
    refine ⟨quoted_oneLine (hm m h).1, fun e => (hm m h).2 (quoted_inj m [] e), quoted_head m⟩
  translation x hx := by
    obtain ⟨m, h, rfl⟩ := List.mem_map.1 hx
    exact ⟨by simp, by simp⟩

theorem potFile_messages (e : TrEnv) (ms : List Str) : (potFile e ms).messages = ms.map quoted := by
  unfold PoFile.messages potFile
  rw [List.map_map]
  rfl

set_option maxRecDepth 100000 in
theorem potFile_creation (e e2 : TrEnv) (ms : List Str) :
    creationLine e2 (potFile e ms) = c!"\"" ++ (c!"POT-Creation-Date: " ++ e.now ++ c!"\\n") ++ c!"\"" := by
  unfold creationLine
  have hstart : (potFile e ms).start = potHeaderLines e ++ (if ms = [] then [] else [[]]) := by
    cases ms with
    | nil => rfl
    | cons m ms => rfl
  have h1 : strip (c!"# " ++ e.app ++ c!" Dictionary") = c!"# " ++ e.app ++ c!" Dictionary" := by
    have := strip_of_ends (a := '#') (l := c!" " ++ e.app ++ c!" Dictionar") (z := 'y') (by decide) (by decide)
    simpa using this
  have h2 : strip (c!"\"Project-Id-Version: " ++ e.version ++ c!"\\n\"") = c!"\"Project-Id-Version: " ++ e.version ++ c!"\\n\"" := by
    have := strip_of_ends (a := '"') (l := c!"Project-Id-Version: " ++ e.version ++ c!"\\n") (z := '"') (by decide) (by decide)
    simpa using this
  have h3 : strip (c!"\"POT-Creation-Date: " ++ e.now ++ c!"\\n\"") = c!"\"POT-Creation-Date: " ++ e.now ++ c!"\\n\"" := by
    have := strip_of_ends (a := '"') (l := c!"POT-Creation-Date: " ++ e.now ++ c!"\\n") (z := '"') (by decide) (by decide)
    simpa using this
  have hlast : (((potFile e ms).start.map strip).filter (fun l => c!"\"POT-Creation-Date".isPrefixOf l)) = [c!"\"POT-Creation-Date: " ++ e.now ++ c!"\\n\""] := by
    rw [hstart, List.map_append, List.filter_append]
    have t1 : ((potHeaderLines e).map strip).filter (fun l => c!"\"POT-Creation-Date".isPrefixOf l) = [c!"\"POT-Creation-Date: " ++ e.now ++ c!"\\n\""] := by
      unfold potHeaderLines
      rw [List.map_cons, List.map_cons, List.map_cons, List.map_cons, List.map_cons, List.map_cons, List.map_cons, h1, h2, h3]
      rfl
    have t2 : ((if ms = [] then ([] : List Str) else [[]]).map strip).filter (fun l => c!"\"POT-Creation-Date".isPrefixOf l) = [] := by
      split <;> decide
    rw [t1, t2, List.append_nil]
  rw [hlast]
  show c!"\"POT-Creation-Date: " ++ e.now ++ c!"\\n\"" = _
  simp

/-- All programs in the directory, at any depth, can be read and are regular. -/
def RegularPrograms (entries : List SrcEntry) : Prop := ∀ text, HasProgram entries text → ∃ s : Source, s.Regular ∧ text = .ok s.text

/-- The message is marked in a program of the directory. -/
def MarkedIn (entries : List SrcEntry) (p : MarkedMsg) : Prop := ∃ s : Source, s.Regular ∧ HasProgram entries (.ok s.text) ∧ ∃ code, (p, code) ∈ s.marked

theorem template_exists (e : TrEnv) (he : TrEnvOk e) (entries : List SrcEntry) (h : RegularPrograms entries) (e2 : TrEnv) :
    ∃ template : PoFile, templateText e entries = .ok template.text ∧ template.Regular ∧ template.messages.Nodup ∧
      (∀ x, x ∈ template.messages ↔ ∃ p, MarkedIn entries p ∧ x = quoted p.message) ∧ (∀ x ∈ template.entries, x.translation = []) ∧
      creationLine e2 template = c!"\"" ++ (c!"POT-Creation-Date: " ++ e.now ++ c!"\\n") ++ c!"\"" := by
  obtain ⟨_, h2⟩ := scanDir_ok entries
  obtain ⟨msgs, h3, h4⟩ := h2 fun x hx => by
    obtain ⟨s, _, hs⟩ := h _ hx
    cases hs
  have hmem : ∀ m, m ∈ sortStrs (distinct msgs) ↔ ∃ p, MarkedIn entries p ∧ m = p.message := by
    intro m
    rw [(sortStrs_perm _).mem_iff, mem_distinct_iff, h4]
    constructor
    · rintro ⟨t, ht, hm⟩
      obtain ⟨s, hs, hst⟩ := h _ ht
      cases hst
      obtain ⟨p, hp, rfl⟩ := (getMessages_source hs m).1 hm
      exact ⟨p.1, ⟨s, hs, ht, p.2, hp⟩, rfl⟩
    · rintro ⟨p, ⟨s, hs, ht, code, hp⟩, rfl⟩
      exact ⟨s.text, ht, (getMessages_source hs _).2 ⟨_, hp, rfl⟩⟩
  refine ⟨potFile e (sortStrs (distinct msgs)), ?_, potFile_regular he ?_, ?_, ?_, ?_, potFile_creation _ _ _⟩
  · unfold templateText
    rw [h3]
    exact congrArg Except.ok (potText_file e msgs)
  · intro m hm
    obtain ⟨p, ⟨s, hs, _, code, hp⟩, rfl⟩ := (hmem m).1 hm
    exact ⟨(hs.message _ hp).1, (hs.message _ hp).2.1⟩
  · rw [potFile_messages]
    have : (sortStrs (distinct msgs)).Nodup := (sortStrs_perm _).nodup_iff.2 (distinct_once msgs)
    exact List.Pairwise.map _ (fun a b hab hq => hab (quoted_inj a b hq)) this
  · intro x
    rw [potFile_messages, List.mem_map]
    constructor
    · rintro ⟨m, hm, rfl⟩
      obtain ⟨p, hp, rfl⟩ := (hmem m).1 hm
      exact ⟨p, hp, rfl⟩
    · rintro ⟨p, hp, rfl⟩
      exact ⟨p.message, (hmem _).2 ⟨p, hp, rfl⟩, rfl⟩
  · intro x hx
    obtain ⟨m, _, rfl⟩ := List.mem_map.1 hx
    rfl

/-- **C61**: the template is a regular one that contains exactly the messages marked in the programs of the directory and its subdirectories,
each of them once. -/
theorem C61_template_partial (e : TrEnv) (he : TrEnvOk e) (entries : List SrcEntry) (h : RegularPrograms entries) :
    ∃ template : PoFile, templateText e entries = .ok template.text ∧ template.Regular ∧ template.messages.Nodup ∧
      (∀ x, x ∈ template.messages ↔ ∃ p, MarkedIn entries p ∧ x = quoted p.message) ∧ ∀ x ∈ template.entries, x.translation = [] := by
  obtain ⟨t, h1, h2, h3, h4, h5, _⟩ := template_exists e he entries h e
  exact ⟨t, h1, h2, h3, h4, h5⟩

/-- **C61**: if a program, at any depth, cannot be read, no template is made. -/
theorem C61_unreadable (e : TrEnv) (entries : List SrcEntry) (x : Exc) (h : HasProgram entries (.error x)) : ∃ y, templateText e entries = .error y := by
  obtain ⟨y, hy⟩ := (scanDir_ok entries).1 ⟨x, h⟩
  exact ⟨y, by unfold templateText; rw [hy]⟩

/-! ### The file -/

open Prog in
theorem writeTemplate_ok (path t : Str) : writeTemplate path (.ok t) = writeChecked path t := rfl

open Prog in
/-- The writing if the programs cannot be read. -/
theorem writeTemplate_error (path old : Str) (x : Exc) (fs : FS) (fl : List Fault) (h : fs path = some old) :
    Intact path old (writeTemplate path (.error x) fs fl).2.1 ∧
    ((∀ f ∈ fl, f = .none) → (writeTemplate path (.error x) fs fl).1 = .ok false ∧ (writeTemplate path (.error x) fs fl).2.1 path = some old) := by
  have h0 : isfile path fs fl = (.ok true, fs, fl) := by unfold isfile; rw [h]; rfl
  have hne : path ≠ bak path := by
    intro e
    have := congrArg List.length e
    simp [bak] at this
  have hr : ∀ fs' : FS, (fs' (bak path) = some old) → ∀ fl', (replace (bak path) path fs' fl' = (.ok (), (fs'.upd (bak path) none).upd path (some old), fl'.tail)) ∨
      ((replace (bak path) path fs' fl').2.1 = fs' ∧ ((replace (bak path) path fs' fl').1 = .crashed ∨ (replace (bak path) path fs' fl').1 = .err .osError) ∧ ∃ f ∈ fl', f ≠ .none) := by
    intro fs' hb fl'
    unfold Prog.replace step
    match fl' with
    | .fail k :: r => exact .inr ⟨rfl, .inr rfl, _, List.mem_cons_self, by simp⟩
    | .crash k :: r => exact .inr ⟨rfl, .inl rfl, _, List.mem_cons_self, by simp⟩
    | [] => left; simp [hb]
    | .none :: r => left; simp [hb]
  have hf : (replace path (bak path) fs fl = (.ok (), (fs.upd path none).upd (bak path) (some old), fl.tail)) ∨
      ((replace path (bak path) fs fl).2.1 = fs ∧ ((replace path (bak path) fs fl).1 = .crashed ∨ (replace path (bak path) fs fl).1 = .err .osError) ∧ ∃ f ∈ fl, f ≠ .none) := by
    unfold Prog.replace step
    match fl with
    | .fail k :: r => exact .inr ⟨rfl, .inr rfl, _, List.mem_cons_self, by simp⟩
    | .crash k :: r => exact .inr ⟨rfl, .inl rfl, _, List.mem_cons_self, by simp⟩
    | [] => left; simp [h]
    | .none :: r => left; simp [h]
  rcases hf with hf | ⟨hf, hc, g, hg, hgn⟩
  · have hb : ((fs.upd path none).upd (bak path) (some old)) (bak path) = some old := by simp [FS.upd]
    rcases hr _ hb fl.tail with h1 | ⟨h1, h2, g, hg, hgn⟩
    · have : writeTemplate path (.error x) fs fl = (.ok false, ((((fs.upd path none).upd (bak path) (some old)).upd (bak path) none).upd path (some old)), fl.tail.tail) := by
        unfold writeTemplate
        simp only [Bind.bind, Prog.bind, h0, if_true, hf, Pure.pure, Prog.pure, tryExcept, lift, Prog.raise, h1]
      rw [this]
      refine ⟨.inl ?_, fun _ => ⟨rfl, ?_⟩⟩ <;> simp [FS.upd]
    · have : (writeTemplate path (.error x) fs fl).2.1 = (fs.upd path none).upd (bak path) (some old) := by
        unfold writeTemplate
        simp only [Bind.bind, Prog.bind, h0, if_true, hf, Pure.pure, Prog.pure, tryExcept, lift, Prog.raise]
        rcases hX : Prog.replace (bak path) path ((fs.upd path none).upd (bak path) (some old)) fl.tail with ⟨a, b, c⟩
        rw [hX] at h1 h2
        cases a with
        | ok u => rcases h2 with h2 | h2 <;> cases h2
        | err y => exact h1
        | crashed => exact h1
      rw [this]
      exact ⟨.inr hb, fun hall => absurd (hall g (List.mem_of_mem_tail hg)) hgn⟩
  · have : (writeTemplate path (.error x) fs fl).2.1 = fs := by
      unfold writeTemplate
      rcases hX : Prog.replace path (bak path) fs fl with ⟨a, b, c⟩
      rw [hX] at hf hc
      cases a with
      | ok u => rcases hc with hc | hc <;> cases hc
      | err y => simp only [Bind.bind, Prog.bind, h0, if_true, hX]; exact hf
      | crashed => simp only [Bind.bind, Prog.bind, h0, if_true, hX]; exact hf
    rw [this]
    exact ⟨.inl h, fun hall => absurd (hall g hg) hgn⟩

/-- **C61**: whatever fails and whenever the process ends, the old template is there, under its name or as backup. -/
theorem C61_old_kept (path old : Str) (text : Except Exc Str) (fs : FS) (faults : List Fault) (h : fs path = some old) :
    Intact path old (writeTemplate path text fs faults).2.1 := by
  cases text with
  | ok t => exact C58_old_kept path old t fs faults h
  | error x => exact (writeTemplate_error path old x fs faults h).1

/-- **C61**: if a program cannot be read, the old template is put back. -/
theorem C61_restored (path old : Str) (x : Exc) (fs : FS) (faults : List Fault) (h : fs path = some old) (hf : ∀ f ∈ faults, f = .none) :
    (writeTemplate path (.error x) fs faults).1 = .ok false ∧ (writeTemplate path (.error x) fs faults).2.1 path = some old :=
  (writeTemplate_error path old x fs faults h).2 hf

/-! ### From the programs to the compiled translation file -/

theorem written_denotes {q : Char} {m t : Str} (h : Written q m t) : Denotes (quoted m) t := by
  induction h with
  | nil => exact .nil
  | @plain c r t hq hc h0 _ ih =>
    rw [quoted_cons]
    by_cases e : c = '"'
    · rw [if_pos e]
      subst e
      exact .escape (c := '"') (by decide) ih
    · rw [if_neg e]
      refine .plain ?_ h0 ih
      intro hm
      rcases List.mem_cons.1 hm with hm | hm
      · exact e hm
      · exact hc hm
  | @escape c d r t hcd _ ih =>
    rw [quoted_cons, quoted_cons, if_neg (by decide), if_neg]
    · refine .escape ?_ ih
      simp only [List.mem_cons, List.not_mem_nil, or_false] at hcd ⊢
      rcases hcd with h | h | h | h | h <;> rw [h] <;> simp
    · rintro rfl
      simp at hcd

/-- A text that can stand between quotation marks. -/
def Simple (s : Str) : Prop := ∀ c ∈ s, c ∉ c!"\"\\\n\r" ∧ c ≠ Char.ofNat 0

/-- The header of the compiled file. -/
def catalogHeader (e : TrEnv) (created : Str) : Str :=
  [] ++ ((c!"Project-Id-Version: " ++ e.version ++ c!"\n") ++ ((c!"POT-Creation-Date: " ++ created ++ c!"\n") ++ ((c!"PO-Revision-Date: " ++ e.now ++ c!"\n") ++
    (c!"Last-Translator: Peter Triesberger\n" ++ (c!"Language: de\n" ++ (c!"MIME-Version: 1.0\n" ++ (c!"Content-Type: text/plain; charset=UTF-8\n" ++
      (c!"Content-Transfer-Encoding: 8bit\n" ++ []))))))))

theorem denotes_line {s : Str} (h : Simple s) : Denotes (s ++ c!"\\n") (s ++ c!"\n") := (denotes_plain h).append (.escape (c := 'n') (by decide) .nil)

theorem simple_append {a b : Str} (ha : Simple a) (hb : Simple b) : Simple (a ++ b) := fun c hc => (List.mem_append.1 hc).elim (ha c) (hb c)

instance (s : Str) : Decidable (Simple s) := by unfold Simple; infer_instance

theorem header_denotes {e : TrEnv} {created : Str} (hv : Simple e.version) (hn : Simple e.now) (hc : Simple created) :
    DenotesAll (headStrings e (c!"POT-Creation-Date: " ++ created ++ c!"\\n")) (catalogHeader e created) := by
  unfold headStrings catalogHeader
  refine .cons .nil (.cons (denotes_line (simple_append (by decide) hv)) (.cons (denotes_line (simple_append (by decide) hc))
    (.cons (denotes_line (simple_append (by decide) hn)) ?_)))
  exact .cons (denotes_line (s := c!"Last-Translator: Peter Triesberger") (by decide)) (.cons (denotes_line (s := c!"Language: de") (by decide))
    (.cons (denotes_line (s := c!"MIME-Version: 1.0") (by decide)) (.cons (denotes_line (s := c!"Content-Type: text/plain; charset=UTF-8") (by decide))
      (.cons (denotes_line (s := c!"Content-Transfer-Encoding: 8bit") (by decide)) .nil))))

/-- **C61, the whole way**: from the programs to the template, to the new translation file, to the compiled file: every message marked in a program
is found there (under what it means in the program) with its translation. -/
theorem C61_catalog_partial (charset : Str → Option Enc) (e e2 : TrEnv) (he : TrEnvOk e) (happ : '\n' ∉ e2.app)
    (hv : Simple e2.version) (hn : Simple e2.now) (hn1 : Simple e.now)
    (entries : List SrcEntry) (h : RegularPrograms entries) (dict : Dict Str) (old : Option PoFile) (ho : ∀ f, old = some f → f.Regular)
    (say : Str → Str) (hplain : ∀ p, MarkedIn entries p → ∀ c ∈ p.message, c.toNat < 128)
    (hsay : ∀ p, MarkedIn entries p → Written p.quote p.message (say (quoted p.message)))
    (hinj : ∀ p p', MarkedIn entries p → MarkedIn entries p' → say (quoted p.message) = say (quoted p'.message) → p.message = p'.message)
    (htr : ∀ p, MarkedIn entries p → Denotes (translationOf dict old (quoted p.message)) (say (translationOf dict old (quoted p.message))))
    (hcs : charset (view .latin1 (catalogHeader e2 e.now)) ≠ some .other) :
    ∃ template : PoFile, templateText e entries = .ok template.text ∧ (∀ x, x ∈ template.messages ↔ ∃ p, MarkedIn entries p ∧ x = quoted p.message) ∧
      (28 + (46 + (utf8 (catalogHeader e2 e.now)).length +
        (template.messages.map fun m => (utf8 (say m)).length + (utf8 (say (translationOf dict old m))).length + 18).sum) < 2147483648 →
      ∃ file, makeMo charset [] (utf8 (updateTranslations e2 dict template.text (old.map PoFile.text)).text) = some file ∧
        ∀ p, MarkedIn entries p → moFind file (utf8 (say (quoted p.message))) =
          if translationOf dict old (quoted p.message) = [] then none else some (utf8 (say (translationOf dict old (quoted p.message))))) := by
  obtain ⟨template, h1, h2, h3, h4, h5, hcreate⟩ : ∃ template : PoFile, templateText e entries = .ok template.text ∧ template.Regular ∧ template.messages.Nodup ∧
      (∀ x, x ∈ template.messages ↔ ∃ p, MarkedIn entries p ∧ x = quoted p.message) ∧ (∀ x ∈ template.entries, x.translation = []) ∧
      creationLine e2 template = c!"\"" ++ (c!"POT-Creation-Date: " ++ e.now ++ c!"\\n") ++ c!"\"" := template_exists e he entries h e2
  refine ⟨template, h1, h4, fun hsize => ?_⟩
  obtain ⟨file, f1, f2, _⟩ := C60_translations_partial charset e2 dict template old h2 ho happ say
    (fun m hm c hc => by
      obtain ⟨p, hp, rfl⟩ := (h4 m).1 hm
      obtain ⟨x, hx, hcx⟩ := List.mem_flatMap.1 hc
      split at hcx
      · simp only [List.mem_cons, List.not_mem_nil, or_false] at hcx
        rcases hcx with rfl | rfl <;> decide
      · rw [List.mem_singleton.1 hcx]; exact hplain p hp x hx)
    (fun m hm => by
      obtain ⟨p, hp, rfl⟩ := (h4 m).1 hm
      exact written_denotes (hsay p hp))
    (fun a ha b hb hab => by
      obtain ⟨p, hp, rfl⟩ := (h4 a).1 ha
      obtain ⟨p', hp', rfl⟩ := (h4 b).1 hb
      rw [hinj p p' hp hp' hab])
    (fun m hm => by
      obtain ⟨p, hp, rfl⟩ := (h4 m).1 hm
      exact htr p hp)
    _ _ hcreate (header_denotes hv hn hn1) hcs hsize
  exact ⟨file, f1, fun p hp => f2 _ ((h4 _).2 ⟨p, hp, rfl⟩)⟩

/-! ### An example, and what is false without the conditions -/

instance (s : Str) : Decidable (Unmarked s) := by unfold Unmarked; infer_instance

/-- A program. -/
def srcA : Source := ⟨c!"import os\nprint(", [(⟨'"', c!"Cannot open file"⟩, c!" + name)\nx = "), (⟨'\'', c!"Say \"hi\""⟩, c!"\n")]⟩

/-- Another program. -/
def srcB : Source := ⟨[], [(⟨'\'', c!"Cannot open file"⟩, c!".upper()")]⟩

/-- A directory with a subdirectory. -/
def srcTree : List SrcEntry :=
  [.file c!"readme.txt" (.error .osError), .dir c!"sub" [.file c!"b.py" (.ok srcB.text), .dir c!"empty" []], .file c!"a.py" (.ok srcA.text)]

theorem srcA_regular : srcA.Regular where
  first := by decide
  code := by decide
  quote := by decide
  message := by decide

theorem srcB_regular : srcB.Regular where
  first := by decide
  code := by decide
  quote := by decide
  message := by decide

theorem srcTree_regular : RegularPrograms srcTree := by
  intro t ht
  unfold srcTree at ht
  rcases hasProgram_cons.1 ht with h | h
  · exact absurd (hasProgram_file.1 h).1 (by decide)
  · rcases hasProgram_cons.1 h with h | h
    · rcases hasProgram_cons.1 (hasProgram_dir.1 h) with h | h
      · exact ⟨srcB, srcB_regular, (hasProgram_file.1 h).2⟩
      · have := hasProgram_dir.1 h
        cases this
    · exact ⟨srcA, srcA_regular, (hasProgram_file.1 h).2⟩

set_option maxRecDepth 100000 in
/-- The example meets the conditions; its template has two messages, the one that occurs twice and the one with quotation marks. -/
theorem C61_demo (e : TrEnv) : RegularPrograms srcTree ∧
    templateText e srcTree = .ok (potFile e [c!"Cannot open file", c!"Say \"hi\""]).text ∧
    (potFile e [c!"Cannot open file", c!"Say \"hi\""]).messages = [c!"Cannot open file", c!"Say \\\"hi\\\""] ∧
    Written '\'' c!"Say \"hi\"" c!"Say \"hi\"" := by
  refine ⟨srcTree_regular, ?_, by rw [potFile_messages]; decide, ?_⟩
  · have h : (scanDir srcTree).toOption = some [c!"Cannot open file", c!"Cannot open file", c!"Say \"hi\""] := by decide +kernel
    unfold templateText
    cases hs : scanDir srcTree with
    | error x => rw [hs] at h; cases h
    | ok msgs =>
      rw [hs] at h
      cases h
      exact congrArg Except.ok (potText_file e _)
  · have key : ∀ s : Str, (∀ c ∈ s, c ≠ '\'' ∧ c ∉ c!"\\\n\r" ∧ c ≠ Char.ofNat 0) → Written '\'' s s := by
      intro s
      induction s with
      | nil => intro _; exact .nil
      | cons c s ih =>
        intro h
        have := h c List.mem_cons_self
        exact .plain this.1 this.2.1 this.2.2 (ih fun x hx => h x (List.mem_cons_of_mem _ hx))
    exact key _ (by decide)

set_option maxRecDepth 100000 in
/-- A double quotation mark that has a backslash in the program gets a second one: the compiler of translation files cannot read the entry. -/
theorem C61_quotes :
    getMessages c!"_(\"Say \\\"hi\\\"\")" = [c!"Say \\\"hi\\\""] ∧ quoted c!"Say \\\"hi\\\"" = c!"Say \\\\\"hi\\\\\"" ∧
    ∀ charset, makeMo charset [] (poFile [c!"msgid \"Say \\\\\"hi\\\\\"\"", c!"msgstr \"\""]) = none := by
  refine ⟨by decide +kernel, by decide, fun charset => ?_⟩
  unfold makeMo poFile
  rw [byteLines_text (by decide)]
  show (do let s ← (do moLoop charset (← moLine charset (.start []) (lineBytes c!"msgid \"Say \\\\\"hi\\\\\"\"")) _); _) = none
  have : moLine charset (.start []) (lineBytes c!"msgid \"Say \\\\\"hi\\\\\"\"") = none := by rfl
  rw [this]
  rfl

set_option maxRecDepth 100000 in
/-- A message that does not end with its line is not found; a marked text that is put together swallows the next message. -/
theorem C61_missed :
    getMessages c!"_(\"One \"\n  \"message\")" = [] ∧ getMessages c!"_(\"One \" + x) + _(\"Two\")" = [c!"One \" + x) + _(\"Two"] := by
  decide +kernel

end Verif
