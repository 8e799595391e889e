/-
C70: the sample applications, and the export of XML data files.
-/
import Verif.Lemmas.Samples3
import Verif.Props.C67_Example

namespace Verif
open Xml Elem Spec Prog Path

variable {ν : Type}

/-- A script with a converter makes exactly the document of its name. -/
theorem script_class : ∀ s ∈ scripts, ∀ e, (s.name, e) ∈ documentOf → ∃ cfg c, s.converter = some cfg ∧ (cfg = yw7Converter ∨ cfg = yw7Exporter) ∧
    cfg.targets.find? (fun c => c.suffix = some s.suffix) = some c ∧ c.suffix = some s.suffix ∧ c ∈ exportTargets ∧ c.ending = e := by
  have key : (scripts.all fun s => documentOf.all fun d => s.name != d.1 || (match exportTargets.find? (fun c => c.suffix = some s.suffix) with
      | some c => c.suffix == some s.suffix && c.ending == d.2 && exportTargets.contains c && s.converter.isSome
      | none => false)) = true := by decide +kernel
  have key2 : ∀ s ∈ scripts, ∀ cfg, s.converter = some cfg → cfg = yw7Converter ∨ cfg = yw7Exporter := by
    intro s hs cfg hc
    simp only [scripts, List.mem_cons, List.not_mem_nil, or_false] at hs
    rcases hs with h | h | h | h | h | h | h | h | h | h | h | h | h | h | h | h | h | h | h | h | h <;> subst h <;>
      first | (cases hc; done) | (injection hc with hc; exact Or.inl hc.symm) | (injection hc with hc; exact Or.inr hc.symm)
  intro s hs e he
  rw [List.all_eq_true] at key
  have := key s hs
  rw [List.all_eq_true] at this
  have := this _ he
  simp only [bne_self_eq_false, Bool.false_or] at this
  split at this
  · next c hf =>
    simp only [Bool.and_eq_true, beq_iff_eq, List.contains_iff_mem] at this
    obtain ⟨⟨⟨h1, h2⟩, h3⟩, h4⟩ := this
    obtain ⟨cfg, hcfg⟩ := Option.isSome_iff_exists.1 h4
    have h5 := key2 s hs cfg hcfg
    refine ⟨cfg, c, hcfg, h5, ?_, h1, h3, h2⟩
    rcases h5 with rfl | rfl <;> exact hf
  · cases this

theorem yw7_split {base : Str} (hn : HasName base) : splitext (base ++ c!".yw7") = (base, c!".yw7") := splitext_append hn (by decide)

theorem yw7_source {base : Str} (hn : HasName base) (hb : '\\' ∉ base) : exportSource (base ++ c!".yw7") = some ⟨yw7Class, some (base ++ c!".yw7")⟩ := by
  unfold exportSource
  rw [yw7_split hn]
  have e : slashes (base ++ c!".yw7") = base ++ c!".yw7" := slashes_id (by rw [List.mem_append]; exact fun h => h.elim hb (by decide))
  show (if yw7Class.ext = yw7Class.ext then some (mkDoc yw7Class (base ++ c!".yw7")) else none) = _
  rw [if_pos rfl, mkDoc_eq (by rw [e]; exact ⟨base, rfl⟩), e]

/-- The run of a script on a project. -/
theorem script_run (env : Env ν) {s : Script} (hs : s ∈ scripts) {e : Str} (he : (s.name, e) ∈ documentOf) {base : Str} (hn : HasName base) (hb : '\\' ∉ base) (fs : FS)
    (fl : List Fault) {t : Str} (hf : fs (base ++ c!".yw7") = some t) :
    ∃ c ∈ exportTargets, c.ending = e ∧ s.run env (base ++ c!".yw7") fs fl = exportFromYw env ⟨yw7Class, some (base ++ c!".yw7")⟩ ⟨c, some (base ++ e)⟩ fs fl := by
  obtain ⟨cfg, c, h1, _, h3, h4, h5, h6⟩ := script_class s hs e he
  refine ⟨c, h5, h6, ?_⟩
  have hp := targets_plain c h5
  rw [h6] at hp
  have e0 : slashes (base ++ e) = base ++ e := slashes_id (by rw [List.mem_append]; exact fun h => h.elim hb hp.2.1)
  have e1 : exportTarget cfg.targets (base ++ c!".yw7") (some s.suffix) = some ⟨c, some (base ++ e)⟩ := by
    unfold exportTarget
    rw [yw7_split hn, h3]
    show some (mkDoc c (base ++ s.suffix ++ c.ext)) = _
    have e2 : base ++ s.suffix ++ c.ext = base ++ e := by rw [← h6]; unfold DocClass.ending; rw [h4, List.append_assoc]; rfl
    rw [e2, mkDoc_eq (by rw [e0, h6]; exact ⟨base, rfl⟩), e0]
  unfold Script.run
  rw [h1]
  unfold Verif.run
  dsimp only
  rw [hf, if_pos Option.isSome_some]
  unfold plan
  rw [yw7_source hn hb, e1]

/-- **C70, documents**: whatever happens, a sample application that is given the project `base.yw7` changes no file but the document of its name, the backup of this
document, and the files in its own temporary directory; it raises no exception; and if it reports success, the new file is this document, and it is complete. -/
theorem C70_scripts (env : Env ν) (s : Script) (hs : s ∈ scripts) (e : Str) (he : (s.name, e) ∈ documentOf) (base : Str) (hn : HasName base) (hb : '\\' ∉ base)
    (h : Setting env (base ++ c!".yw7")) (fs : FS) (faults : List Fault) :
    (∀ q, ¬ InDir env.dir q → q ≠ base ++ e → q ≠ base ++ e ++ c!".bak" → (s.run env (base ++ c!".yw7") fs faults).2.1 q = fs q) ∧
    (∀ x, (s.run env (base ++ c!".yw7") fs faults).1 ≠ .err x) ∧
    ∀ o, (s.run env (base ++ c!".yw7") fs faults).1 = .ok o →
      (o.newFile = some (base ++ e) ∧ ∃ c ∈ exportTargets, c.ending = e ∧
        Converted env ⟨yw7Class, some (base ++ c!".yw7")⟩ ⟨c, some (base ++ e)⟩ fs (s.run env (base ++ c!".yw7") fs faults).2.1) ∨
      (o.newFile = none ∧ ∃ m, o.how = c!"FAIL: " ++ m) := by
  cases hf : fs (base ++ c!".yw7") with
  | none =>
    obtain ⟨cfg, c, h1, _⟩ := script_class s hs e he
    have h2 := C42_refused env cfg (base ++ c!".yw7") (some s.suffix) fs faults (Or.inl hf)
    have e1 : s.run env (base ++ c!".yw7") fs faults = run env cfg (base ++ c!".yw7") (some s.suffix) fs faults := by unfold Script.run; rw [h1]
    rw [e1]
    obtain ⟨h3, m, h4⟩ := h2
    refine ⟨fun q _ _ _ => by rw [h3], (by intro x hx; rw [h4] at hx; cases hx), fun o ho => ?_⟩
    rw [h4] at ho
    injection ho with ho
    subst ho
    exact Or.inr ⟨rfl, m, rfl⟩
  | some text =>
    obtain ⟨c, hc, h1, h2⟩ := script_run env hs he hn hb fs faults hf
    rw [h2]
    have hp := targets_plain c hc
    have hdir := h.dir
    rw [slashes_id (by rw [List.mem_append]; exact fun h => h.elim hb (by decide))] at hdir
    have hnt : ∀ e, '/' ∉ e → ¬ InDir env.dir (base ++ e) := fun e he' => target_not_temp (e1 := c!".yw7") (by decide) he' hdir
    rw [h1] at hp
    have hsp := conclude_spec env ⟨c, some (base ++ e)⟩ _ fs _ (Converted env ⟨yw7Class, some (base ++ c!".yw7")⟩ ⟨c, some (base ++ e)⟩ fs)
      (convert_body env ⟨yw7Class, some (base ++ c!".yw7")⟩ ⟨c, some (base ++ e)⟩ fs (faultCount faults) h.odf (by
        intro p hp'
        injection hp' with hp'
        subst hp'
        refine ⟨fun h => hnt _ hp.1 h.2, fun h => ?_⟩
        have h := h.2
        unfold bak at h
        rw [List.append_assoc] at h
        exact hnt _ (by rw [List.mem_append]; exact fun h => h.elim hp.1 (by decide)) h)) fs faults ⟨rfl, Nat.le_refl _⟩
    obtain ⟨⟨b, hB⟩, hne, ho⟩ := hsp
    refine ⟨fun q hq h3 h4 => ?_, hne, fun o hoo => ?_⟩
    · refine Decidable.byContradiction fun hch => ?_
      rcases hB.consent q hch with h5 | ⟨p, hp', ⟨rfl, _⟩ | ⟨h5, _⟩⟩
      · exact hq h5.2
      · injection hp' with hp'; exact h3 hp'.symm
      · injection hp' with hp'; subst hp'; exact h4 h5
    · rcases ho o hoo with ⟨h5, h6, _⟩ | h5
      · exact Or.inl ⟨h6, c, hc, h1, h5.good rfl⟩
      · exact Or.inr h5

/-- **C70, refuted for cnv_plotlist**: its document type does not exist; the application never makes anything of a project. -/
theorem C70_plotlist_false (env : Env ν) (s : Script) (hs : s ∈ scripts) (hname : s.name = c!"cnv_plotlist") (base : Str) (hn : HasName base) (hb : '\\' ∉ base) (fs : FS) (faults : List Fault) :
    (s.run env (base ++ c!".yw7") fs faults).2 = (fs, faults) ∧ ∃ m, (s.run env (base ++ c!".yw7") fs faults).1 = .ok { newFile := none, how := c!"FAIL: " ++ m } := by
  have e1 : s.converter = some yw7Converter ∧ s.suffix = c!"_plotlist" := by
    simp only [scripts, List.mem_cons, List.not_mem_nil, or_false] at hs
    rcases hs with h | h | h | h | h | h | h | h | h | h | h | h | h | h | h | h | h | h | h | h | h <;> subst h <;> first | exact ⟨rfl, rfl⟩ | exact absurd hname (by decide)
  have e2 : s.run env (base ++ c!".yw7") fs faults = run env yw7Converter (base ++ c!".yw7") (some c!"_plotlist") fs faults := by unfold Script.run; rw [e1.1, e1.2]
  rw [e2]
  refine C42_refused env yw7Converter _ _ fs faults (Or.inr ?_)
  refine ⟨c!"Export type is not supported: \"" ++ c!"_plotlist" ++ c!"\".", ?_⟩
  unfold plan
  rw [yw7_source hn hb]
  have : exportTarget yw7Converter.targets (base ++ c!".yw7") (some c!"_plotlist") = none := by
    unfold exportTarget
    have : yw7Converter.targets.find? (fun c => c.suffix = some c!"_plotlist") = none := by decide +kernel
    rw [this]; rfl
  rw [this]
  rfl

/-- **C70, refuted**: three of the applications do not report a failure but raise an exception if they are given an existing file that is no project. Nothing is changed. -/
theorem C70_exporters_false (env : Env ν) (s : Script) (hs : s ∈ scripts) (hname : s.name ∈ [c!"cnv_brief_synopsis", c!"cnv_data", c!"cross_reference"]) (path t : Str) (fs : FS)
    (faults : List Fault) (hy : (splitext path).2 ≠ c!".yw7") (hex : fs path = some t) : s.run env path fs faults = (.err .attributeError, fs, faults) := by
  have e1 : s.converter = some yw7Exporter ∨ s.converter = none := by
    simp only [scripts, List.mem_cons, List.not_mem_nil, or_false] at hs
    rcases hs with h | h | h | h | h | h | h | h | h | h | h | h | h | h | h | h | h | h | h | h | h <;> subst h <;> first | exact Or.inl rfl | exact Or.inr rfl | exact absurd hname (by decide)
  unfold Script.run
  rcases e1 with h | h <;> rw [h]
  · exact C42_exporter_raises env path t (some s.suffix) fs faults hy hex
  · unfold runData
    dsimp only
    rw [hex, if_pos Option.isSome_some]
    have : plan dataConverter env.contentXml env.norm fs path (some s.suffix) = .error .attributeError := by
      unfold plan exportSource
      rw [if_neg (show ¬ (splitext path).2 = yw7Class.ext from hy)]
      rfl
    rw [this]

/-! ### Data files -/

theorem data_script {s : Script} (hs : s ∈ scripts) (hname : s.name = c!"cnv_data") : s.converter = none ∧ s.suffix = c!"_data" := by
  simp only [scripts, List.mem_cons, List.not_mem_nil, or_false] at hs
  rcases hs with h | h | h | h | h | h | h | h | h | h | h | h | h | h | h | h | h | h | h | h | h <;> subst h <;> first | exact ⟨rfl, rfl⟩ | exact absurd hname (by decide)

theorem data_target {base : Str} (hn : HasName base) (hb : '\\' ∉ base) :
    exportTarget dataConverter.targets (base ++ c!".yw7") (some c!"_data") = some ⟨dataClass, some (base ++ c!"_data.xml")⟩ := by
  unfold exportTarget
  have : dataConverter.targets.find? (fun c => c.suffix = some c!"_data") = some dataClass := by decide +kernel
  rw [yw7_split hn, this]
  show some (mkDoc dataClass (base ++ c!"_data" ++ c!".xml")) = _
  have e0 : slashes (base ++ c!"_data" ++ c!".xml") = base ++ c!"_data.xml" := by
    rw [List.append_assoc]
    exact slashes_id (by rw [List.mem_append]; exact fun h => h.elim hb (by decide))
  rw [mkDoc_eq (by rw [e0]; exact ⟨base, rfl⟩), e0]

theorem data_run (env : Env ν) {s : Script} (hs : s ∈ scripts) (hname : s.name = c!"cnv_data") {base : Str} (hn : HasName base) (hb : '\\' ∉ base) (fs : FS) (fl : List Fault) :
    (∃ t, fs (base ++ c!".yw7") = some t ∧ s.run env (base ++ c!".yw7") fs fl = exportData env ⟨yw7Class, some (base ++ c!".yw7")⟩ ⟨dataClass, some (base ++ c!"_data.xml")⟩ fs fl) ∨
    (fs (base ++ c!".yw7") = none ∧ ∃ m, s.run env (base ++ c!".yw7") fs fl = (.ok { newFile := none, how := c!"FAIL: " ++ m }, fs, fl)) := by
  unfold Script.run
  rw [(data_script hs hname).1, (data_script hs hname).2]
  unfold runData
  dsimp only
  cases hf : fs (base ++ c!".yw7") with
  | none => exact Or.inr ⟨rfl, Str.strip (c!"File not found: \"" ++ env.norm (base ++ c!".yw7") ++ c!"\"."), by rw [if_neg (by simp)]; rfl⟩
  | some t =>
    refine Or.inl ⟨t, rfl, ?_⟩
    rw [if_pos Option.isSome_some]
    unfold plan
    rw [yw7_source hn hb, data_target hn hb]
    rfl

theorem data_base {base : Str} (hn : HasName base) : (splitext (base ++ c!"_data.xml")).1 = base ++ c!"_data" := by
  have := splitext_append (e := c!"xml") (hasName_append hn (e := c!"_data") (by decide)) (by decide)
  rw [List.append_assoc] at this
  exact congrArg Prod.fst this

theorem three_data (base : Str) : threePaths (base ++ c!"_data") = dataPaths base := by
  unfold threePaths dataPaths
  simp only [List.append_assoc, List.cons_append, List.nil_append]

/-- **C70, data files, frame**: whatever happens, the export of data files of the project `base.yw7` changes no file but the three data files, and raises no exception. -/
theorem C70_data_frame (env : Env ν) (s : Script) (hs : s ∈ scripts) (hname : s.name = c!"cnv_data") (base : Str) (hn : HasName base) (hb : '\\' ∉ base) (fs : FS) (faults : List Fault) :
    (∀ q, q ∉ dataPaths base → (s.run env (base ++ c!".yw7") fs faults).2.1 q = fs q) ∧ ∀ x, (s.run env (base ++ c!".yw7") fs faults).1 ≠ .err x := by
  rcases data_run env hs hname hn hb fs faults with ⟨t, _, h2⟩ | ⟨_, m, h2⟩ <;> rw [h2]
  · obtain ⟨h3, h4, _⟩ := exportData_spec env ⟨yw7Class, some (base ++ c!".yw7")⟩ ⟨dataClass, some (base ++ c!"_data.xml")⟩ _ rfl fs faults
    rw [data_base hn, three_data] at h3
    exact ⟨h3, h4⟩
  · exact ⟨fun _ _ => rfl, fun x h => by cases h⟩

/-- **C70, data files** (for a storable world; the full statement is about every project): if the application reports success for the project `base.yw7`, then there are three
well-formed data files, and whoever puts them into a project gets the characters, the locations and the items of this project. -/
theorem C70_data_partial (w : Machine) (s : Script) (hs : s ∈ scripts) (hname : s.name = c!"cnv_data") (base : Str) (hn : HasName base) (hb : '\\' ∉ base) (fs : FS) (faults : List Fault)
    (text : Str) (z : Elem) (n : Novel) (hf : fs (base ++ c!".yw7") = some text) (hz : parseXml (parserInput text) = some z) (hr : readTree w.lib z = .ok n) (hst : StorableWorld n)
    (o : Outcome) (ho : (s.run w.program (base ++ c!".yw7") fs faults).1 = .ok o) (hok : o.newFile ≠ none) :
    DataOf w.lib n base (s.run w.program (base ++ c!".yw7") fs faults).2.1 := by
  rcases data_run w.program hs hname hn hb fs faults with ⟨t, _, h2⟩ | ⟨h1, _⟩
  · rw [h2] at ho ⊢
    obtain ⟨_, _, h3⟩ := exportData_spec w.program ⟨yw7Class, some (base ++ c!".yw7")⟩ ⟨dataClass, some (base ++ c!"_data.xml")⟩ _ rfl fs faults
    rcases h3 o ho with ⟨⟨text', x, root, tr, h4, h5, h6, h7, h8, h9, h10⟩, _⟩ | ⟨h4, _⟩
    · have h4 : fs (base ++ c!".yw7") = some text' := h4
      rw [hf] at h4
      cases h4
      have e : w.program.parse yw7Class text w.program.empty = .ok ((some z, n), false) := by
        show w.parse yw7Class text w.program.empty = _
        unfold Machine.parse
        rw [if_pos rfl]
        unfold Machine.readYw7
        rw [hz]
        simp only [Machine.need, Bind.bind, Except.bind, hr]
      have h5 : w.program.parse yw7Class text w.program.empty = .ok x := h5
      rw [e] at h5
      cases h5
      obtain ⟨tc, tl, ti⟩ := tr
      obtain ⟨zc, zl, zi, a1, a2, a3, a4, a5, a6, a7⟩ := data_sections w.lib hst (show writeTree w.sysLng w.sysCtr n none = .ok root from h6) h7 (w.program.hasChapters (some z, n))
      rw [data_base hn] at h8 h9 h10
      simp only [List.append_assoc, List.cons_append, List.nil_append] at h8 h9 h10
      exact ⟨_, _, _, zc, zl, zi, h8, h9, h10, a1, a2, a3, a4, a5, a6, a7⟩
    · exact absurd h4 hok
  · rw [hf] at h1; cases h1

/-- **C70, data files, success**: if the project can be read and saved, it is not open in yWriter, no fault occurs and the user does not refuse, then the export succeeds. -/
theorem C70_data_succeeds_partial (w : Machine) (s : Script) (hs : s ∈ scripts) (hname : s.name = c!"cnv_data") (base : Str) (hn : HasName base) (hb : '\\' ∉ base) (fs : FS)
    (text : Str) (z : Elem) (n : Novel) (hf : fs (base ++ c!".yw7") = some text) (hz : parseXml (parserInput text) = some z) (hr : readTree w.lib z = .ok n)
    (hsv : Savable n) (hlang : (savedLanguages n).Nodup) (hl : fs (base ++ c!".yw7.lock") = none) (hl2 : fs (base ++ c!"_data.xml.lock") = none)
    (hk : fs (base ++ c!"_data.xml") = none ∨ w.confirm (base ++ c!"_data.xml") = true) :
    ∃ m, (s.run w.program (base ++ c!".yw7") fs []).1 = .ok { newFile := some (base ++ c!"_data.xml"), how := c!"File written: \"" ++ m } := by
  rcases data_run w.program hs hname hn hb fs [] with ⟨t, _, h2⟩ | ⟨h1, _⟩
  · rw [h2]
    obtain ⟨out, hw⟩ := C51_writable w.sysLng w.sysCtr n none hsv hlang savableTree_newRoot
    obtain ⟨tr, ht⟩ := data_exists hw
    have e : w.program.parse yw7Class text w.program.empty = .ok ((some z, n), false) := by
      show w.parse yw7Class text w.program.empty = _
      unfold Machine.parse
      rw [if_pos rfl]
      unfold Machine.readYw7
      rw [hz]
      simp only [Machine.need, Bind.bind, Except.bind, hr]
    have := exportData_ok w.program ⟨yw7Class, some (base ++ c!".yw7")⟩ ⟨dataClass, some (base ++ c!"_data.xml")⟩ _ _ ((some z, n), false) out tr fs rfl rfl hk
      ⟨fun _ => by show fs (base ++ c!".yw7" ++ c!".lock") = none; rw [List.append_assoc]; exact hl, text, hf, e⟩ hw ht (by rw [List.append_assoc]; exact hl2)
    rw [List.append_assoc] at this
    exact ⟨_, this⟩
  · rw [hf] at h1; cases h1

/-- **C70, refuted**: the success message and `newFile` name a file that is not written: if there was no file with this name before, there is none after the successful run. -/
theorem C70_message_false (env : Env ν) (s : Script) (hs : s ∈ scripts) (hname : s.name = c!"cnv_data") (base : Str) (hn : HasName base) (hb : '\\' ∉ base) (fs : FS) (faults : List Fault)
    (o : Outcome) (ho : (s.run env (base ++ c!".yw7") fs faults).1 = .ok o) (hok : o.newFile ≠ none) (hno : fs (base ++ c!"_data.xml") = none) :
    ∃ p, o.newFile = some p ∧ (s.run env (base ++ c!".yw7") fs faults).2.1 p = none := by
  have hfr := (C70_data_frame env s hs hname base hn hb fs faults).1 (base ++ c!"_data.xml") (by
    unfold dataPaths
    simp only [List.mem_cons, List.not_mem_nil, or_false, List.append_cancel_left_eq, not_or]
    decide)
  refine ⟨base ++ c!"_data.xml", ?_, hfr.trans hno⟩
  rcases data_run env hs hname hn hb fs faults with ⟨t, _, h2⟩ | ⟨_, m, h2⟩ <;> rw [h2] at ho
  · obtain ⟨_, _, h3⟩ := exportData_spec env ⟨yw7Class, some (base ++ c!".yw7")⟩ ⟨dataClass, some (base ++ c!"_data.xml")⟩ _ rfl fs faults
    rcases h3 o ho with ⟨_, _, _, h4, _⟩ | ⟨h4, _⟩
    · exact h4
    · exact absurd h4 hok
  · injection ho with ho
    subst ho
    exact absurd rfl hok

/-! ### Example -/

def dataScript : Script := ⟨c!"cnv_data", none, c!"_data"⟩

theorem storableWorld {n : Novel} (h : StorableNovel n) (hi : GoodIds n) : StorableWorld n :=
  ⟨⟨⟨hi.locations.1, fun id hid => ⟨hi.locations.2 id hid, (h.locations id hid).1⟩⟩, fun id hid => (h.locations id hid).2⟩,
   ⟨⟨hi.items.1, fun id hid => ⟨hi.items.2 id hid, (h.items id hid).1⟩⟩, fun id hid => (h.items id hid).2⟩,
   ⟨⟨hi.characters.1, fun id hid => ⟨hi.characters.2 id hid, (h.characters id hid).1⟩⟩, fun id hid => (h.characters id hid).2⟩⟩

/-- The same machine with a user who refuses to overwrite anything. -/
def refusingMachine : Machine := { tinyMachine with confirm := fun _ => false }

theorem tiny_name : HasName c!"/home/a/novel" := ⟨c!"/home/a", c!"novel", .inr rfl, by decide, 'n', by decide, by decide⟩

theorem st_savable : Savable stPrj where
  scKeys := by decide
  chapters := by
    intro id hid
    simp only [stPrj, List.mem_cons, List.not_mem_nil, or_false] at hid
    rcases hid with rfl | rfl
    · exact ⟨_, rfl, by decide⟩
    · exact ⟨_, rfl, by decide⟩
  locations := by decide
  items := by decide
  characters := by decide
  notes := by decide
  scenes := by
    intro p hp
    refine ⟨by revert p; decide, ?_⟩
    rcases (st_settled.scenes p.1 p.2 (get?_of_mem_nodup st_settled.ids.sound.scKeys hp)).start with ⟨d, t, h1, h2, _⟩ | ⟨_, h2, _⟩ | ⟨_, y, _, _, _, _, h2 | ⟨t, hh, mm, h2, h3⟩⟩
    · exact Or.inl ⟨by rw [h1]; rfl, by rw [h2]; rfl⟩
    · exact Or.inr (Or.inl h2)
    · exact Or.inr (Or.inl h2)
    · obtain ⟨g1, _, _, g2, g3, g4, _⟩ := h3
      exact Or.inr (Or.inr (Or.inr ⟨t, h2, hh, mm, _, g1, g2, g3, g4⟩))

/-- The export from a disk that has the project, and maybe other files, among them no `novel_data.xml` and no locks. -/
theorem tiny_data (w : Machine) (hw : w.lib = exLib) (s : Str) (z : Elem) (hl : loadFile exLib s = some (z, stPrj)) (fs : FS) (h1 : fs c!"/home/a/novel.yw7" = some s)
    (h2 : fs c!"/home/a/novel.yw7.lock" = none) (h3 : fs c!"/home/a/novel_data.xml.lock" = none) (h4 : fs c!"/home/a/novel_data.xml" = none) :
    (∃ o, (dataScript.run w.program c!"/home/a/novel.yw7" fs []).1 = .ok o ∧ o.newFile = some c!"/home/a/novel_data.xml") ∧
    DataOf exLib stPrj c!"/home/a/novel" (dataScript.run w.program c!"/home/a/novel.yw7" fs []).2.1 := by
  obtain ⟨a1, a2⟩ := loadFile_ok.1 hl
  have hm : dataScript ∈ scripts := by unfold scripts dataScript; simp only [List.mem_cons, true_or, or_true]
  obtain ⟨m, hm1⟩ := C70_data_succeeds_partial w dataScript hm rfl c!"/home/a/novel" tiny_name (by decide) fs s z stPrj h1 a1 (by rw [hw]; exact a2) st_savable (settled_languages st_settled) h2 h3 (Or.inl h4)
  refine ⟨⟨_, hm1, rfl⟩, ?_⟩
  have := C70_data_partial w dataScript hm rfl c!"/home/a/novel" tiny_name (by decide) fs [] s z stPrj h1 a1 (by rw [hw]; exact a2) (storableWorld st_storable st_settled.ids) _ hm1 (by intro h; cases h)
  rw [hw] at this
  exact this

/-- The hypotheses of the theorems are met: the world of the example project is exported. -/
example : ∃ s, (∃ o, (dataScript.run tinyMachine.program c!"/home/a/novel.yw7" (tinyDisk s) []).1 = .ok o ∧ o.newFile = some c!"/home/a/novel_data.xml") ∧
    DataOf exLib stPrj c!"/home/a/novel" (dataScript.run tinyMachine.program c!"/home/a/novel.yw7" (tinyDisk s) []).2.1 := by
  obtain ⟨s, z, _, h2, _⟩ := st_file
  exact ⟨s, tiny_data tinyMachine rfl s z h2 (tinyDisk s) rfl rfl rfl rfl⟩

/-- **C70, refuted**: data files are overwritten without asking: the user refuses to overwrite anything, and an existing file is lost, without a backup. -/
theorem C70_consent_false : ∃ (w : Machine) (fs : FS) (q : Str), (∀ p, w.confirm p = false) ∧ fs q = some c!"x" ∧
    ∀ p, (dataScript.run w.program c!"/home/a/novel.yw7" fs []).2.1 p ≠ some c!"x" := by
  obtain ⟨s, z, _, h2, _⟩ := st_file
  have hx : parseXml (parserInput c!"x") = none := by decide +kernel
  have hs : s ≠ c!"x" := by
    rintro rfl
    have := (loadFile_ok.1 h2).1
    rw [hx] at this
    cases this
  refine ⟨refusingMachine, (tinyDisk s).upd c!"/home/a/novel_data_Items.xml" (some c!"x"), c!"/home/a/novel_data_Items.xml", fun _ => rfl, FS.upd_self _ _ _, ?_⟩
  have key := tiny_data refusingMachine rfl s z h2 ((tinyDisk s).upd c!"/home/a/novel_data_Items.xml" (some c!"x"))
    (by rw [FS.upd_ne _ _ (by decide)]; rfl) (by rw [FS.upd_ne _ _ (by decide)]; rfl) (by rw [FS.upd_ne _ _ (by decide)]; rfl) (by rw [FS.upd_ne _ _ (by decide)]; rfl)
  have hfr := (C70_data_frame refusingMachine.program dataScript (by unfold scripts dataScript; simp only [List.mem_cons, true_or, or_true]) rfl c!"/home/a/novel" tiny_name (by decide)
    ((tinyDisk s).upd c!"/home/a/novel_data_Items.xml" (some c!"x")) []).1
  obtain ⟨_, tc, tl, ti, c, l, i, b1, b2, b3, b4, b5, b6, _⟩ := key
  have no : ∀ t x, parseXml (parserInput t) = some x → t ≠ c!"x" := by
    rintro t x h rfl
    rw [hx] at h
    cases h
  intro p hp
  by_cases hd : p ∈ dataPaths c!"/home/a/novel"
  · unfold dataPaths at hd
    simp only [List.mem_cons, List.not_mem_nil, or_false] at hd
    rcases hd with rfl | rfl | rfl
    · rw [b1] at hp; injection hp with hp; exact no _ _ b4 hp
    · rw [b2] at hp; injection hp with hp; exact no _ _ b5 hp
    · rw [b3] at hp; injection hp with hp; exact no _ _ b6 hp
  · have := hfr p hd
    have this : _ = ((tinyDisk s).upd c!"/home/a/novel_data_Items.xml" (some c!"x")) p := this
    rw [FS.upd_ne _ _ (by rintro rfl; exact hd (by decide))] at this
    have hp : (dataScript.run refusingMachine.program (c!"/home/a/novel" ++ c!".yw7") ((tinyDisk s).upd c!"/home/a/novel_data_Items.xml" (some c!"x")) []).2.1 p = some c!"x" := hp
    rw [this] at hp
    unfold tinyDisk at hp
    split at hp
    · injection hp with hp; exact hs hp
    · cases hp

/-- The scripts with documents: every name has a script. -/
example : ∀ d ∈ documentOf, ∃ s ∈ scripts, s.name = d.1 := by decide +kernel

end Verif
