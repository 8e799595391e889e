/-
C58: an update of the translations keeps all translations and is complete.
-/
import Verif.Lemmas.Translations
import Verif.Props.C24_C25_Save

namespace Verif
open Spec Str

/-- The dictionary after reading. -/
def readDict (dict : Dict Str) (old : Option PoFile) : Dict Str := ((old.map PoFile.entries).getD []).foldl enter dict

theorem readDict_get (dict : Dict Str) (old : Option PoFile) (m : Str) : ((readDict dict old).get? m).getD [] = translationOf dict old m := by
  unfold readDict translationOf
  rw [enter_get]
  cases old <;> rfl

theorem po_dict {old : Option PoFile} (h : ∀ f, old = some f → f.Regular) (dict : Dict Str) :
    readPo dict (old.map PoFile.text) = readDict dict old := by
  cases old with
  | none => rfl
  | some f => exact readPo_file (h f rfl) dict

set_option maxRecDepth 100000 in
theorem poHeader_eq (e : TrEnv) (creation : Str) : poHeader e creation = (newHeader e creation).flatMap (· ++ c!"\n") := by
  have hs : Template.segs poHeaderTemplate =
      (c!"# ").map Seg.lit ++ [.var c!"app" c!"${app}"] ++
      (c!" Dictionary (English-German)\n# Copyright (C) 2022 Peter Triesberger\n#\nmsgid \"\"\nmsgstr \"\"\n\"Project-Id-Version: ").map .lit ++
      [.var c!"appVersion" c!"${appVersion}"] ++ (c!"\\n\"\n").map .lit ++ [.var c!"pot_creation" c!"${pot_creation}"] ++
      (c!"\n\"PO-Revision-Date: ").map .lit ++ [.var c!"datetime" c!"${datetime}"] ++
      (c!"\\n\"\n\"Last-Translator: Peter Triesberger\\n\"\n\"Language: de\\n\"\n\"MIME-Version: 1.0\\n\"\n\"Content-Type: text/plain; charset=UTF-8\\n\"\n\"Content-Transfer-Encoding: 8bit\\n\"\n\n\n").map .lit := by
    decide +kernel
  unfold poHeader Template.subst
  rw [hs]
  have lit : ∀ (m : Dict Str) (l : Str), (l.map Seg.lit).flatMap (Template.render m) = l := by
    intro m l
    induction l with
    | nil => rfl
    | cons c l ih => exact congrArg (c :: ·) ih
  simp only [List.flatMap_append, lit]
  simp [newHeader, Template.render, Dict.get?, List.flatMap_cons]

/-- The messages of a template, sorted. -/
def sortedMessages (e : TrEnv) (template : PoFile) : List Str := (readPotLoop true (noCreation e) [] (strippedLines template.text)).2

theorem update_text (e : TrEnv) (dict : Dict Str) (template : PoFile) (old : Option PoFile) (ht : template.Regular) (ho : ∀ f, old = some f → f.Regular) :
    (updateTranslations e dict template.text (old.map PoFile.text)).text =
      newFile e (creationLine e template) (sortedMessages e template) (translationOf dict old) := by
  obtain ⟨h1, h2, h3⟩ := readPot_file ht e
  have hdict := po_dict ho dict
  show (poHeader e _ :: _).flatten = _
  rw [hdict, h1, List.flatten_cons, poHeader_eq]
  unfold newFile sortedMessages
  rw [List.flatMap_append]
  refine congrArg (fun x => List.flatMap (· ++ c!"\n") (newHeader e (creationLine e template)) ++ x) ?_
  generalize (readPotLoop true (noCreation e) [] (strippedLines template.text)).2 = ms
  induction ms with
  | nil => rfl
  | cons m ms ih =>
    rw [List.map_cons, List.flatten_cons, ih, List.flatMap_cons, List.flatMap_append]
    refine congrArg (fun x => x ++ List.flatMap (· ++ c!"\n") (ms.flatMap _)) ?_
    unfold poEntry
    rw [readDict_get]
    simp

/-- **C58**: the new translation file consists of a header and of the messages of the template, sorted, each with its translation in the old
file, otherwise with that of the dictionary; the result tells whether all of them are translated; and the dictionary holds all known
translations, also those of messages that are not used any more. -/
theorem C58_update_partial (e : TrEnv) (dict : Dict Str) (hd : dict.keys.Nodup) (template : PoFile) (old : Option PoFile)
    (ht : template.Regular) (ho : ∀ f, old = some f → f.Regular) :
    let r := updateTranslations e dict template.text (old.map PoFile.text)
    (∃ ms, ms.Perm template.messages ∧ ms.Pairwise InOrder ∧ r.text = newFile e (creationLine e template) ms (translationOf dict old) ∧
      (r.complete = true ↔ ∀ m ∈ template.messages, translationOf dict old m ≠ [])) ∧
    ∀ m, (r.dict.get? m).getD [] = translationOf dict old m ∧ r.dict.get? m ≠ some [] := by
  intro r
  obtain ⟨h1, h2, h3⟩ := readPot_file ht e
  have hdict := po_dict ho dict
  refine ⟨⟨_, h2, h3.imp (strLe_inOrder _ _), ?_, ?_⟩, ?_⟩
  · exact update_text e dict template old ht ho
  · show List.all _ _ = true ↔ _
    rw [hdict, List.all_eq_true]
    constructor
    · intro h m hm
      have := h m (h2.mem_iff.2 hm)
      rw [readDict_get] at this
      exact of_decide_eq_true this
    · intro h m hm
      rw [readDict_get]
      exact decide_eq_true (h m (h2.mem_iff.1 hm))
  · intro m
    have hg : r.dict.get? m = ((readDict dict old).get? m).filter (fun t => decide (t ≠ [])) := by
      show Dict.get? (List.filter _ _) m = _
      rw [hdict]
      exact get?_filter (enter_nodup _ _ hd) m
    rw [hg, ← readDict_get]
    cases (readDict dict old).get? m with
    | none => exact ⟨rfl, by simp⟩
    | some t =>
      by_cases h : t = []
      · subst h
        exact ⟨rfl, by simp [Option.filter]⟩
      · simp [Option.filter, h]

/-! ### Running it again -/

/-- The new file as a file. -/
def newPo (e : TrEnv) (creation : Str) (ms : List Str) (tr : Str → Str) : PoFile :=
  ⟨(newHeader e creation).dropLast, ms.map (fun m => ⟨[[]], m, tr m⟩), [[]]⟩

theorem newPo_text (e : TrEnv) (creation : Str) (ms : List Str) (tr : Str → Str) : (newPo e creation ms tr).text = newFile e creation ms tr := by
  unfold PoFile.text newFile
  refine congrArg (fun l => List.flatMap (· ++ c!"\n") l) ?_
  show (newHeader e creation).dropLast ++ (ms.map (fun m => PoEntry.mk [[]] m (tr m))).flatMap PoEntry.lines ++ [[]] = _
  rw [show newHeader e creation = (newHeader e creation).dropLast ++ [[]] from rfl]
  rw [show ((newHeader e creation).dropLast ++ [([] : Str)]).dropLast = (newHeader e creation).dropLast from rfl]
  generalize (newHeader e creation).dropLast = h
  rw [List.append_assoc, List.append_assoc]
  refine congrArg (h ++ ·) ?_
  induction ms with
  | nil => rfl
  | cons m ms ih =>
    rw [List.map_cons, List.flatMap_cons, List.append_assoc, ih, List.flatMap_cons]
    rfl

theorem strip_head {c : Char} {l : Str} (h : isWs c = false) : ∃ l', strip (c :: l) = c :: l' := by
  unfold strip stripBy lstripBy
  rw [List.dropWhile_cons_of_neg (by simp [h])]
  unfold rstripBy
  cases hr : rstripBy isWs l with
  | nil => exact ⟨[], by simp [h]⟩
  | cons a r => exact ⟨a :: r, rfl⟩

theorem headerLine_of {c : Char} {l : Str} (h : isWs c = false) (hm : c ≠ 'm') : c!"msgid \"" <+: strip (c :: l) → c!"msgid \"\"" <+: strip (c :: l) := by
  obtain ⟨l', e⟩ := strip_head (l := l) h
  rw [e]
  rintro ⟨t, ht⟩
  injection ht with ht
  exact absurd ht.symm hm

theorem oneLine_append {a b : Str} (ha : OneLine a) (hb : OneLine b) : OneLine (a ++ b) :=
  ⟨fun h => (List.mem_append.1 h).elim ha.1 hb.1, fun h => (List.mem_append.1 h).elim ha.2 hb.2⟩

/-- The environment gives texts of one line. -/
structure Spec.TrEnvOk (e : TrEnv) : Prop where
  app : OneLine e.app
  version : OneLine e.version
  now : OneLine e.now

theorem mem_of_rstripBy {p : Char → Bool} {l : Str} {c : Char} (h : c ∈ rstripBy p l) : c ∈ l := by
  induction l with
  | nil => exact h
  | cons a l ih =>
    unfold rstripBy at h
    split at h
    · split at h
      · cases h
      · rw [List.mem_singleton] at h
        exact h ▸ List.mem_cons_self
    · rename_i heq
      rcases List.mem_cons.1 h with rfl | h
      · exact List.mem_cons_self
      · exact List.mem_cons_of_mem _ (ih (heq ▸ h))

theorem mem_of_strip {l : Str} {c : Char} (h : c ∈ strip l) : c ∈ l :=
  (List.dropWhile_sublist _).subset (mem_of_rstripBy h)

theorem oneLine_strip {l : Str} (h : OneLine l) : OneLine (strip l) :=
  ⟨fun hm => h.1 (mem_of_strip hm), fun hm => h.2 (mem_of_strip hm)⟩

theorem newPo_regular {e : TrEnv} (he : TrEnvOk e) {creation : Str} (hc : OneLine creation) (hc2 : c!"\"POT-Creation-Date" <+: creation) {ms : List Str}
    (hm : ∀ m ∈ ms, OneLine m ∧ m ≠ [] ∧ m.head? ≠ some '"') {tr : Str → Str} (ht : ∀ m ∈ ms, OneLine (tr m)) : (newPo e creation ms tr).Regular where
  header l hl := by
    have lit : ∀ x : Str, (x.all (fun c => c ≠ '\n' ∧ c ≠ '\r')) = true → OneLine x := by
      intro x hx
      rw [List.all_eq_true] at hx
      exact ⟨fun h => (of_decide_eq_true (hx _ h)).1 rfl, fun h => (of_decide_eq_true (hx _ h)).2 rfl⟩
    simp only [newPo, newHeader, List.dropLast, List.mem_cons, List.not_mem_nil, or_false] at hl
    rcases hl with rfl | rfl | rfl | rfl | rfl | rfl | rfl | rfl | rfl | rfl | rfl | rfl | rfl | rfl
    · exact ⟨oneLine_append (oneLine_append (lit _ (by decide)) he.app) (lit _ (by decide)), headerLine_of (by decide) (by decide)⟩
    · exact ⟨lit _ rfl, headerLine_of (by decide) (by decide)⟩
    · exact ⟨lit _ rfl, headerLine_of (by decide) (by decide)⟩
    · exact ⟨lit _ rfl, by decide⟩
    · exact ⟨lit _ rfl, by decide⟩
    · exact ⟨oneLine_append (oneLine_append (lit _ (by decide)) he.version) (lit _ (by decide)), headerLine_of (by decide) (by decide)⟩
    · refine ⟨hc, ?_⟩
      obtain ⟨t, rfl⟩ := hc2
      exact headerLine_of (by decide) (by decide)
    · exact ⟨oneLine_append (oneLine_append (lit _ (by decide)) he.now) (lit _ (by decide)), headerLine_of (by decide) (by decide)⟩
    all_goals first | exact ⟨lit _ rfl, headerLine_of (by decide) (by decide)⟩ | exact ⟨lit _ rfl, by decide⟩
  above x hx l hl := by
    obtain ⟨m, _, rfl⟩ := List.mem_map.1 hx
    rw [List.mem_singleton.1 hl]
    exact ⟨⟨by simp, by simp⟩, by decide, by decide⟩
  below l hl := by
    rw [List.mem_singleton.1 hl]
    exact ⟨⟨by simp, by simp⟩, by decide, by decide⟩
  message x hx := by
    obtain ⟨m, h, rfl⟩ := List.mem_map.1 hx
    exact hm m h
  translation x hx := by
    obtain ⟨m, h, rfl⟩ := List.mem_map.1 hx
    exact ht m h

theorem lastTranslation_new (tr : Str → Str) (m : Str) (ms : List Str) :
    lastTranslation m (ms.map (fun m => ⟨[[]], m, tr m⟩)) = if m ∈ ms ∧ tr m ≠ [] then some (tr m) else none := by
  induction ms with
  | nil => simp [lastTranslation]
  | cons a ms ih =>
    rw [List.map_cons]
    show (lastTranslation m _).orElse _ = _
    rw [ih]
    by_cases h : m ∈ ms ∧ tr m ≠ []
    · rw [if_pos h, if_pos (c := m ∈ a :: ms ∧ tr m ≠ []) ⟨List.mem_cons_of_mem _ h.1, h.2⟩]; rfl
    · rw [if_neg h]
      show (if a = m ∧ tr a ≠ [] then some (tr a) else none) = _
      by_cases ha : a = m
      · subst ha
        simp
      · rw [if_neg (fun x => ha x.1), if_neg (fun x => (List.mem_cons.1 x.1).elim (fun y => ha y.symm) (fun y => h ⟨y, x.2⟩))]

theorem creation_ok {e : TrEnv} (he : TrEnvOk e) {f : PoFile} (hf : f.Regular) : OneLine (creationLine e f) ∧ c!"\"POT-Creation-Date" <+: creationLine e f := by
  unfold creationLine
  cases hg : ((f.start.map Str.strip).filter (fun l => c!"\"POT-Creation-Date".isPrefixOf l)).getLast? with
  | none =>
    refine ⟨(oneLine_append (oneLine_append ⟨by decide, by decide⟩ he.now) ⟨by decide, by decide⟩), ?_⟩
    exact ⟨c!": " ++ e.now ++ c!"\\n\"", by simp⟩
  | some l =>
    have hm := List.mem_of_getLast? hg
    have ⟨h1, h2⟩ := List.mem_filter.1 hm
    obtain ⟨x, hx, rfl⟩ := List.mem_map.1 h1
    refine ⟨oneLine_strip ?_, List.isPrefixOf_iff_prefix.1 h2⟩
    rcases List.mem_append.1 hx with hx | hx
    · exact (hf.header x hx).1
    · cases hes : f.entries with
      | nil => rw [hes] at hx; exact (hf.below x hx).1
      | cons y ys => rw [hes] at hx; exact (hf.above y (hes ▸ List.mem_cons_self) x hx).1

/-- **C58**: running the update again, with the new dictionary or without a dictionary, changes nothing (but for the time). -/
theorem C58_again_partial (e : TrEnv) (he : TrEnvOk e) (dict : Dict Str) (hd : dict.keys.Nodup) (template : PoFile) (old : Option PoFile)
    (ht : template.Regular) (ho : ∀ f, old = some f → f.Regular) (hw : ∀ m ∈ template.messages, OneLine (translationOf dict old m)) :
    let r := updateTranslations e dict template.text (old.map PoFile.text)
    (updateTranslations e r.dict template.text (some r.text)).text = r.text ∧ (updateTranslations e [] template.text (some r.text)).text = r.text := by
  intro r
  have hr : r.text = newFile e (creationLine e template) (sortedMessages e template) (translationOf dict old) := update_text e dict template old ht ho
  have hdict := (C58_update_partial e dict hd template old ht ho).2
  obtain ⟨-, hp, -⟩ := readPot_file ht e
  have ⟨c1, c2⟩ := creation_ok he ht
  have hreg : (newPo e (creationLine e template) (sortedMessages e template) (translationOf dict old)).Regular := by
    refine newPo_regular he c1 c2 ?_ ?_
    · intro m hm
      have := hp.mem_iff.1 hm
      obtain ⟨x, hx, rfl⟩ := List.mem_map.1 this
      exact ht.message x hx
    · exact fun m hm => hw m (hp.mem_iff.1 hm)
  have step : ∀ d2 : Dict Str, (∀ m, (d2.get? m).getD [] = translationOf dict old m ∨ (d2.get? m).getD [] = []) →
      (updateTranslations e d2 template.text (some r.text)).text = r.text := by
    intro d2 h2
    rw [hr, ← newPo_text]
    refine (update_text e d2 template (some _) ht (fun f hf => Option.some.inj hf ▸ hreg)).trans ?_
    rw [newPo_text]
    unfold newFile
    refine congrArg (fun l => (newHeader e (creationLine e template) ++ l).flatMap (· ++ c!"\n")) ?_
    rw [List.flatMap_def, List.flatMap_def]
    refine congrArg List.flatten (List.map_congr_left ?_)
    intro m hm
    have : translationOf d2 (some (newPo e (creationLine e template) (sortedMessages e template) (translationOf dict old))) m = translationOf dict old m := by
      show ((lastTranslation m _).orElse _).getD [] = _
      show ((lastTranslation m ((sortedMessages e template).map _)).orElse _).getD [] = _
      rw [lastTranslation_new]
      by_cases h : translationOf dict old m = []
      · rw [if_neg (fun x => x.2 h)]
        show (d2.get? m).getD [] = _
        rcases h2 m with h3 | h3
        · exact h3
        · rw [h3, h]
      · rw [if_pos ⟨hm, h⟩]; rfl
    rw [this]
  exact ⟨step _ (fun m => Or.inl (hdict m).1), step [] (fun m => Or.inr rfl)⟩

/-! ### Writing -/

/-- Two runs that leave the same files and succeed in the same cases. -/
def SameFiles (x : Res Bool × FS × List Fault) (y : Res Unit × FS × List Fault) : Prop :=
  x.2.1 = y.2.1 ∧ (x.1 = .ok true ↔ y.1 = .ok ()) ∧ (x.1 ≠ .ok true → x.1 ≠ .crashed → ∃ e, y.1 = .err e)

open Prog in
theorem writeChecked_tail (path text : Str) (b : Bool) (fs : FS) (fl : List Fault) :
    SameFiles ((tryExcept (do writeFile path text; return true) fun _ => do
        if b then Prog.replace (bak path) path
        return false) fs fl)
      ((tryExcept (writeFile path text) fun _ => restoreBackup b path c!"Cannot write file") fs fl) := by
  unfold restoreBackup
  rcases hW : writeFile path text fs fl with ⟨r, fs', fl'⟩
  cases r with
  | ok a => simp [SameFiles, Bind.bind, Prog.bind, Prog.tryExcept, Pure.pure, Prog.pure, hW]
  | crashed => simp [SameFiles, Bind.bind, Prog.bind, Prog.tryExcept, Pure.pure, Prog.pure, hW]
  | err e =>
    cases b with
    | false => simp [SameFiles, Bind.bind, Prog.bind, Prog.tryExcept, Pure.pure, Prog.pure, Prog.raise, hW]
    | true =>
      rcases hR : Prog.replace (bak path) path fs' fl' with ⟨r2, fs2, fl2⟩
      cases r2 <;> simp [SameFiles, Bind.bind, Prog.bind, Prog.tryExcept, Pure.pure, Prog.pure, Prog.raise, hW, hR]

open Prog in
/-- The files are written like exported documents. -/
theorem writeChecked_files (path text : Str) (fs : FS) (fl : List Fault) : SameFiles (writeChecked path text fs fl) (exportWrite path (.ok text) fs fl) := by
  have hE : exportWrite path (.ok text) fs fl = (backUp path >>= fun b => tryExcept (writeFile path text) fun _ => restoreBackup b path c!"Cannot write file") fs fl := rfl
  rw [hE]
  unfold writeChecked backUp
  cases hp : fs path with
  | none =>
    have h0 : isfile path fs fl = (.ok false, fs, fl) := by unfold isfile; rw [hp]; rfl
    have := writeChecked_tail path text false fs fl
    simp only [Bind.bind, Prog.bind, h0, Bool.false_eq_true, if_false, Pure.pure, Prog.pure] at this ⊢
    exact this
  | some c =>
    have h0 : isfile path fs fl = (.ok true, fs, fl) := by unfold isfile; rw [hp]; rfl
    rcases hR : Prog.replace path (bak path) fs fl with ⟨r2, fs2, fl2⟩
    cases r2 with
    | ok a =>
      have := writeChecked_tail path text true fs2 fl2
      simp only [Bind.bind, Prog.bind, h0, hR, if_true, Pure.pure, Prog.pure, Prog.tryExcept] at this ⊢
      exact this
    | err e => simp [SameFiles, Bind.bind, Prog.bind, h0, hR, Prog.tryExcept, Prog.raise]
    | crashed => simp [SameFiles, Bind.bind, Prog.bind, h0, hR, Prog.tryExcept]

/-- **C58**: whatever fails and whenever the process ends, the old file is there, under its name or as backup. -/
theorem C58_old_kept (path old text : Str) (fs : FS) (faults : List Fault) (h : fs path = some old) :
    Intact path old (writeChecked path text fs faults).2.1 := by
  rw [(writeChecked_files path text fs faults).1]
  exact C24_export path old (.ok text) fs faults h

/-- **C58**: if one step fails and the file could not be written, the old file is in its place; if it could be written, the new one is. -/
theorem C58_restored (path old text : Str) (fs : FS) (faults : List Fault) (h : fs path = some old) (h1 : AtMostOneFault faults) :
    ((writeChecked path text fs faults).1 ≠ .ok true → (writeChecked path text fs faults).1 ≠ .crashed →
      (writeChecked path text fs faults).2.1 path = some old) ∧
    ((writeChecked path text fs faults).1 = .ok true → (writeChecked path text fs faults).2.1 path = some text) := by
  obtain ⟨e1, e2, e3⟩ := writeChecked_files path text fs faults
  rw [e1]
  refine ⟨?_, ?_⟩
  · intro a b
    obtain ⟨e, he⟩ := e3 a b
    exact C24_export_error path old (.ok text) fs faults e h h1 he
  · intro a
    have := (exportWrite_spec noTemp path (.ok text) fs _ id id fs faults ⟨fun _ _ => rfl, Nat.le_refl _⟩).2
    obtain ⟨t, ht, hf, _⟩ := this.done (e2.1 a)
    rw [hf, ← Except.ok.inj ht]

/-! ### A concrete case, and what is false without the conditions -/

instance (l : Str) : Decidable (OneLine l) := by unfold OneLine; infer_instance

/-- A template. -/
def trTemplate : PoFile :=
  ⟨[c!"# Template", c!"msgid \"\"", c!"msgstr \"\"", c!"\"POT-Creation-Date: 2023-01-01\\n\""],
   [⟨[[], c!"#: a.py:1"], c!"Zip", []⟩, ⟨[[], c!"#: b.py:7"], c!"Cannot write \\\"{}\\\"", []⟩, ⟨[[]], c!"New", []⟩], [[]]⟩

/-- An old translation file. -/
def trOld : PoFile := ⟨[c!"msgid \"\"", c!"msgstr \"\""], [⟨[[]], c!"Zip", c!"Archiv"⟩, ⟨[[]], c!"Gone", c!"Weg"⟩], [c!"#~ end"]⟩

theorem trTemplate_regular : trTemplate.Regular where
  header := by decide
  above := by decide
  below := by decide
  message := by decide
  translation := by decide

theorem trOld_regular : trOld.Regular where
  header := by decide
  above := by decide
  below := by decide
  message := by decide
  translation := by decide

set_option maxRecDepth 100000 in
/-- The file and the dictionary after an update: the messages are sorted, translations come from the old file and from the dictionary, one is
missing, and the dictionary keeps the translation of a message that is gone. -/
theorem C58_demo :
    let r := updateTranslations ⟨c!"App", c!"1.0", c!"now"⟩ [(c!"New", c!"Neu"), (c!"Zip", c!"?"), (c!"None", [])] trTemplate.text (some trOld.text)
    r.text = newFile ⟨c!"App", c!"1.0", c!"now"⟩ c!"\"POT-Creation-Date: 2023-01-01\\n\"" [c!"Cannot write \\\"{}\\\"", c!"New", c!"Zip"]
      (fun m => if m = c!"New" then c!"Neu" else if m = c!"Zip" then c!"Archiv" else []) ∧
    r.complete = false ∧ r.dict = [(c!"New", c!"Neu"), (c!"Zip", c!"Archiv"), (c!"Gone", c!"Weg")] := by
  refine ⟨?_, ?_, ?_⟩ <;> decide +kernel

set_option maxRecDepth 100000 in
/-- Messages and translations of several lines are lost: the message is replaced by an empty one, and its translation is not found. -/
theorem C58_lines_lost :
    let r := updateTranslations ⟨[], [], []⟩ [] c!"msgid \"\"\nmsgstr \"\"\n\nmsgid \"A\"\nmsgstr \"\"\n\nmsgid \"\"\n\"B\\n\"\n\"C\"\nmsgstr \"\"\n"
      (some c!"msgid \"\"\nmsgstr \"\"\n\nmsgid \"A\"\nmsgstr \"\"\n\"Alpha\"\n\nmsgid \"\"\n\"B\\n\"\n\"C\"\nmsgstr \"Beta\"\n")
    r.text = newFile ⟨[], [], []⟩ c!"\"POT-Creation-Date: \\n\"" [[], c!"A"] (fun m => if m = [] then c!"Beta" else []) ∧ r.complete = false := by
  refine ⟨?_, ?_⟩ <;> decide +kernel

end Verif
