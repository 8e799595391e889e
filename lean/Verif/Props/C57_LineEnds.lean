/-
C57: the line ends of project files and configuration files do not matter.
-/
import Verif.Spec.LineEnds
import Verif.Props.C37_Config
import Verif.Props.C52_Disk

namespace Verif
open Spec

/-- Reading in text mode undoes the choice of line ends. -/
theorem universalNewlines_endedBy {e : Str} (he : e ∈ lineEnds) {t : Str} (h : '\r' ∉ t) : universalNewlines (endedBy e t) = t := by
  have step : ∀ (c : Char) (r : Str), c ≠ '\r' → universalNewlines (c :: r) = c :: universalNewlines r := by
    intro c r hc
    rw [universalNewlines.eq_def]
    split
    · rename_i heq; cases heq
    · rename_i heq; exact absurd (List.cons.inj heq).1 hc
    · rename_i heq; exact absurd (List.cons.inj heq).1 hc
    · rename_i heq; rw [(List.cons.inj heq).1, (List.cons.inj heq).2]
  have cr : ∀ r : Str, r.head? ≠ some '\n' → universalNewlines ('\r' :: r) = '\n' :: universalNewlines r := by
    intro r hr
    cases r with
    | nil => rfl
    | cons d r =>
      rw [universalNewlines.eq_def]
      split
      · rename_i heq; cases heq
      · rename_i heq
        injection heq with _ h2
        injection h2 with h3 _
        rw [h3] at hr
        exact absurd rfl hr
      · rename_i heq; rw [(List.cons.inj heq).2]
      · rename_i hn heq
        exact absurd (List.cons.inj heq) (fun x => hn x.1.symm)
  have head : ∀ t : Str, (endedBy c!"\r" t).head? ≠ some '\n' := by
    intro t
    cases t with
    | nil => simp [endedBy]
    | cons c t =>
      unfold endedBy
      by_cases hc : c = '\n'
      · rw [if_pos hc]; simp
      · rw [if_neg hc]; simpa using hc
  induction t with
  | nil => rfl
  | cons c t ih =>
    have ih := ih (fun hm => h (List.mem_cons_of_mem _ hm))
    have hc : c ≠ '\r' := fun e => h (e ▸ List.mem_cons_self)
    unfold endedBy
    by_cases hn : c = '\n'
    · rw [if_pos hn]
      simp only [lineEnds, List.mem_cons, List.not_mem_nil, or_false] at he
      rcases he with rfl | rfl | rfl
      · refine (step '\n' _ (by decide)).trans ?_
        rw [hn]
        exact congrArg ('\n' :: ·) ih
      · show '\n' :: universalNewlines _ = _
        rw [hn]
        exact congrArg ('\n' :: ·) ih
      · refine (cr _ (head t)).trans ?_
        rw [hn]
        exact congrArg ('\n' :: ·) ih
    · rw [if_neg hn]
      exact (step c _ hc).trans (congrArg (c :: ·) ih)

/-- **C57**: a project file whose lines end in one of the three ways is read like the file with newline characters: the same element tree, the
same novel, or the same failure. -/
theorem C57_project (lib : PyLib) (e : Str) (he : e ∈ lineEnds) (text : Str) (h : '\r' ∉ text) :
    loadFile lib (endedBy e text) = loadFile lib text := by
  unfold loadFile parserInput
  rw [universalNewlines_endedBy he h, universalNewlines_noCR (fun c hc e => h (e ▸ hc))]

/-- **C57**: opening and saving such a project gives the same file. -/
theorem C57_resaved (lib : PyLib) (sl sc : Str) (e : Str) (he : e ∈ lineEnds) (text : Str) (h : '\r' ∉ text) :
    resaved lib sl sc (endedBy e text) = resaved lib sl sc text := by
  unfold resaved
  rw [C57_project lib e he text h]

/-- **C57**: the same for configuration files. -/
theorem C57_configuration (c : Configuration) (e : Str) (he : e ∈ lineEnds) (text : Str) (h : '\r' ∉ text) :
    c.read (some (endedBy e text)) = c.read (some text) := by
  have k : Ini.fileLines (endedBy e text) = Ini.fileLines text := by
    unfold Ini.fileLines
    rw [universalNewlines_endedBy he h, universalNewlines_noCR (fun c hc e => h (e ▸ hc))]
  unfold Configuration.read Ini.parse
  simp only [k]

open Str Ini in
theorem written_noCR {s o : Dict Str} (hs : GoodItems s) (ho : GoodItems o) :
    '\r' ∉ (if s = [] then [] else writeSection c!"SETTINGS" s) ++ (if o = [] then [] else writeSection c!"OPTIONS" o) := by
  have key : ∀ ls : List Str, (∀ l ∈ ls, ∀ c ∈ l, c ≠ '\n' ∧ c ≠ '\r') → '\r' ∉ unlines ls := by
    intro ls h hc
    unfold unlines at hc
    rw [List.mem_flatMap] at hc
    obtain ⟨l, hl, hc⟩ := hc
    rw [List.mem_append] at hc
    rcases hc with hc | hc
    · exact (h l hl _ hc).2 rfl
    · revert hc; decide
  rw [writeSection_unlines, writeSection_unlines, List.mem_append]
  rintro (h | h)
  · split at h
    · cases h
    · exact key _ (sectionLines_chars settings_ok hs) h
  · split at h
    · cases h
    · exact key _ (sectionLines_chars options_ok ho) h

open Str Ini in
theorem config_noCR {c : Configuration} (h : GoodConfig c) {t : Str} (ht : c.write = .ok t) : '\r' ∉ t := by
  have ho1 : ∀ p ∈ (c.options.map fun p => (p.1, Configuration.yesNo p.2)), GoodValue p.2 := by
    intro p hp
    simp only [List.mem_map] at hp
    obtain ⟨q, _, rfl⟩ := hp
    exact goodValue_yesNo _
  have ho2 : ∀ p ∈ (c.options.map fun p => (p.1, Configuration.yesNo p.2)), GoodKey p.1 := by
    intro p hp
    simp only [List.mem_map] at hp
    obtain ⟨q, hq, rfl⟩ := hp
    exact h.optionKeys q hq
  have ho3 : DistinctKeys (c.options.map fun p => (p.1, Configuration.yesNo p.2)) := by
    have := h.distinctOptions
    simpa [DistinctKeys, Dict.keys, Function.comp_def] using this
  have hS := goodItems_lowered h.settingKeys h.settingValues h.distinctSettings
  have hO := goodItems_lowered ho2 ho1 ho3
  have e1 := setAll_spec c.settings [] (fun p hp => acceptable_of_good (h.settingValues p hp)) h.distinctSettings
  have e2 := setAll_spec (c.options.map fun p : Str × Bool => (p.1, Configuration.yesNo p.2)) [] (fun p hp => acceptable_of_good (ho1 p hp)) ho3
  have hw := written_noCR hS hO
  unfold Configuration.write at ht
  rw [e1, e2] at ht
  have n1 : (lowered c.settings = []) ↔ c.settings = [] := by simp [lowered]
  have n2 : (lowered (c.options.map fun p => (p.1, Configuration.yesNo p.2)) = []) ↔ c.options = [] := by simp [lowered]
  simp only [Bind.bind, Except.bind, List.nil_append] at ht
  rw [← Except.ok.inj ht]
  simp only [n1, n2] at hw
  exact hw

/-- **C57**: settings that a configuration file can represent are restored, whichever line ends the system writes. -/
theorem C57_settings_partial (c : Configuration) (h : GoodConfig c) : ∃ text, c.write = .ok text ∧ '\r' ∉ text ∧
    ∀ e ∈ lineEnds, c.read (some (endedBy e text)) = (c, none) := by
  obtain ⟨t, h1, h2⟩ := C37_same c h
  have hr := config_noCR h h1
  exact ⟨t, h1, hr, fun e he => by rw [C57_configuration c e he t hr, h2]⟩

/-- **C57**: a project file that carries a tree carries it with any line ends. -/
theorem C57_file_partial (hasChapters : Bool) (x : Elem) (h : SafeTree x) (ht : BlankTail x) (e : Str) (he : e ∈ lineEnds) :
    '\r' ∉ fileText hasChapters x ∧ ∃ y, parseXml (parserInput (endedBy e (fileText hasChapters x))) = some y ∧ Reloaded x y := by
  have hs : '\r' ∉ fileText hasChapters x := by
    rw [fileText_eq hasChapters h]
    exact fun hm => (safe_render (safe_filePieces _ h) _ hm).2.1 rfl
  refine ⟨hs, ?_⟩
  obtain ⟨y, h1, h2⟩ := C21_file_partial hasChapters x h ht
  refine ⟨y, ?_, h2⟩
  rw [← h1]
  unfold parserInput
  rw [universalNewlines_endedBy he hs, universalNewlines_noCR (fun c hc e => hs (e ▸ hc))]

/-- A concrete case: the settings `demoConfig` with a value of four lines, and a project file, with Windows line ends. -/
theorem C57_demo : (∃ text, demoConfig.write = .ok text ∧ endedBy c!"\r\n" text ≠ text ∧ demoConfig.read (some (endedBy c!"\r\n" text)) = (demoConfig, none)) ∧
    endedBy c!"\r" c!"a\n\nb\n" = c!"a\r\rb\r" ∧ endedBy c!"\r\n" c!"a\n\nb\n" = c!"a\r\n\r\nb\r\n" := by
  obtain ⟨t, h1, h2, h3⟩ := C57_settings_partial demoConfig demoConfig_good
  refine ⟨⟨t, h1, ?_, h3 _ (by decide)⟩, by decide, by decide⟩
  have h4 := demoConfig_text
  rw [h1] at h4
  rw [Option.some.inj h4]
  decide

end Verif
