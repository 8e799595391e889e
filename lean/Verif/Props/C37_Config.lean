/-
C37: configuration files keep settings.
-/
import Verif.Lemmas.Ini2

namespace Verif
open Verif.Str Verif.Spec Verif.Ini

theorem goodValue_yesNo (b : Bool) : GoodValue (Configuration.yesNo b) := by
  cases b
  · exact ⟨by decide, by decide, by decide, by decide⟩
  · exact ⟨by decide, by decide, by decide, by decide⟩

theorem toBool_yesNo (b : Bool) : toBool (Configuration.yesNo b) = .ok b := by cases b <;> rfl

theorem valueOf_map {α β : Type} (d : Dict α) (g : α → β) (k : Str) : valueOf (d.map fun p => (p.1, g p.2)) k = (valueOf d k).map g := by
  unfold valueOf
  induction d with
  | nil => rfl
  | cons p r ih =>
    simp only [List.map_cons, List.find?_cons]
    by_cases h : lower p.1 = lower k
    · simp [h]
    · simp only [h, decide_false]; exact ih

theorem mem_of_valueOf {α : Type} {d : Dict α} {k : Str} {v : α} (h : valueOf d k = some v) : ∃ k', (k', v) ∈ d := by
  unfold valueOf at h
  simp only [Option.map_eq_some_iff] at h
  obtain ⟨p, hp, rfl⟩ := h
  exact ⟨p.1, List.mem_of_find?_eq_some hp⟩

/-- The file of a configuration. -/
theorem config_written {c : Configuration} (h : GoodConfig c) :
    ∃ t, c.write = .ok t ∧ parse t = .ok (iniOf (lowered c.settings) (lowered (c.options.map fun p => (p.1, Configuration.yesNo p.2)))) := by
  have ho1 : ∀ p ∈ (c.options.map fun p => (p.1, Configuration.yesNo p.2)), GoodValue p.2 := by
    intro p hp
    simp only [List.mem_map] at hp
    obtain ⟨q, _, rfl⟩ := hp
    exact goodValue_yesNo _
  have ho2 : ∀ p ∈ (c.options.map fun p => (p.1, Configuration.yesNo p.2)), GoodKey p.1 := by
    intro p hp
    simp only [List.mem_map] at hp
    obtain ⟨q, hq, rfl⟩ := hp
    exact h.optionKeys q hq
  have ho3 : DistinctKeys (c.options.map fun p => (p.1, Configuration.yesNo p.2)) := by
    have := h.distinctOptions
    simpa [DistinctKeys, Dict.keys, Function.comp_def] using this
  have hS := goodItems_lowered h.settingKeys h.settingValues h.distinctSettings
  have hO := goodItems_lowered ho2 ho1 ho3
  have e1 := setAll_spec c.settings [] (fun p hp => acceptable_of_good (h.settingValues p hp)) h.distinctSettings
  have e2 := setAll_spec (c.options.map fun p : Str × Bool => (p.1, Configuration.yesNo p.2)) [] (fun p hp => acceptable_of_good (ho1 p hp)) ho3
  refine ⟨_, ?_, parse_written hS hO⟩
  unfold Configuration.write
  rw [e1, e2]
  have n1 : (lowered c.settings = []) ↔ c.settings = [] := by simp [lowered]
  have n2 : (lowered (c.options.map fun p => (p.1, Configuration.yesNo p.2)) = []) ↔ c.options = [] := by simp [lowered]
  simp only [Bind.bind, Except.bind, List.nil_append]
  congr 2
  · by_cases hs : c.settings = []
    · rw [if_pos hs, if_pos (n1.2 hs)]
    · rw [if_neg hs, if_neg (fun x => hs (n1.1 x))]
  · by_cases hs : c.options = []
    · rw [if_pos hs, if_pos (n2.2 hs)]
    · rw [if_neg hs, if_neg (fun x => hs (n2.1 x))]

theorem lookup_settings (s o : Dict Str) (k : Str) : lookup (iniOf s o) c!"SETTINGS" k = s.get? k := by
  unfold lookup iniOf
  by_cases h1 : s = [] <;> by_cases h2 : o = [] <;> simp [h1, h2, Dict.get?]

theorem lookup_options (s o : Dict Str) (k : Str) : lookup (iniOf s o) c!"OPTIONS" k = o.get? k := by
  unfold lookup iniOf
  by_cases h1 : s = [] <;> by_cases h2 : o = [] <;> simp [h1, h2, Dict.get?]

theorem has_settings (s o : Dict Str) : Dict.has (iniOf s o) c!"SETTINGS" = !decide (s = []) := by
  unfold iniOf
  by_cases h1 : s = [] <;> by_cases h2 : o = [] <;> simp [h1, h2, Dict.has, Dict.get?]

theorem has_options (s o : Dict Str) : Dict.has (iniOf s o) c!"OPTIONS" = !decide (o = []) := by
  unfold iniOf
  by_cases h1 : s = [] <;> by_cases h2 : o = [] <;> simp [h1, h2, Dict.has, Dict.get?]

theorem updated_nil {α : Type} (d : Dict α) : updated d [] = d := by
  simp [updated, valueOf]

/-- **C37, settings survive**: a configuration `c` that an INI file can represent is written
without an error; a configuration `c2` that reads the file afterwards has the values of `c` for all
its keys that occur in `c` (case not distinguished), keeps its values for all others, and knows no
new keys. -/
theorem C37_roundtrip_partial (c c2 : Configuration) (h : GoodConfig c) :
    ∃ text, c.write = .ok text ∧
      c2.read (some text) = ({ settings := updated c2.settings c.settings, options := updated c2.options c.options }, none) := by
  obtain ⟨t, ht, hp⟩ := config_written h
  refine ⟨t, ht, ?_⟩
  simp only [Configuration.read, hp, Configuration.readIni]
  generalize ho : c.options.map (fun p => (p.1, Configuration.yesNo p.2)) = os
  have hset : Configuration.readSettings (iniOf (lowered c.settings) (lowered os)) c2.settings = (updated c2.settings c.settings, none) := by
    unfold Configuration.readSettings
    rw [has_settings]
    by_cases hs : c.settings = []
    · simp [hs, lowered, updated_nil]
    · have : lowered c.settings ≠ [] := by simpa [lowered] using hs
      rw [if_pos (by simp [this])]
      refine readLoop_spec _ (fun k v => (valueOf c.settings k).getD v) _ ?_
      intro p _
      unfold Ini.get
      rw [lookup_settings, get?_lowered]
      cases hv : valueOf c.settings p.1 with
      | none => rfl
      | some v =>
        obtain ⟨k', hk'⟩ := mem_of_valueOf hv
        exact interpolate_plain (fun hm => ((h.settingValues _ hk').chars _ hm).2 rfl) 9
  have hopt : Configuration.readOptions (iniOf (lowered c.settings) (lowered os)) c2.options = (updated c2.options c.options, none) := by
    unfold Configuration.readOptions
    rw [has_options]
    by_cases hs : c.options = []
    · have : os = [] := by rw [← ho, hs]; rfl
      simp [hs, this, lowered, updated_nil]
    · have : lowered os ≠ [] := by rw [← ho]; simpa [lowered] using hs
      rw [if_pos (by simp [this])]
      refine readLoop_spec _ (fun k v => (valueOf c.options k).getD v) _ ?_
      intro p _
      unfold Ini.getBool
      rw [lookup_options, get?_lowered, ← ho, valueOf_map]
      cases hv : valueOf c.options p.1 with
      | none => rfl
      | some v =>
        simp only [Option.map_some, Option.getD_some]
        rw [interpolate_plain (by cases v <;> decide) 9]
        exact toBool_yesNo v
  rw [hset, hopt]

/-- **C37, settings survive**, for the application itself: reading back its own file changes nothing. -/
theorem C37_same (c : Configuration) (h : GoodConfig c) : ∃ text, c.write = .ok text ∧ c.read (some text) = (c, none) := by
  obtain ⟨t, ht, hr⟩ := C37_roundtrip_partial c c h
  refine ⟨t, ht, ?_⟩
  have key : ∀ {α : Type} (d : Dict α), DistinctKeys d → updated d d = d := by
    intro α d hd
    unfold updated
    have : ∀ p ∈ d, (p.1, (valueOf d p.1).getD p.2) = p := by
      intro p hp
      have : valueOf d p.1 = some p.2 := by
        unfold valueOf DistinctKeys at *
        clear hr ht h
        induction d with
        | nil => cases hp
        | cons q r ih =>
          simp only [Dict.keys, List.map_cons, List.nodup_cons, List.map_map, List.mem_map] at hd
          simp only [List.find?_cons]
          rcases List.mem_cons.1 hp with rfl | hp
          · simp
          · have : lower q.1 ≠ lower p.1 := by
              intro e
              exact hd.1 ⟨p, hp, by simp [e]⟩
            simp only [this, decide_false]
            exact ih (by simpa [Dict.keys] using hd.2) hp
      rw [this]; rfl
    rw [List.map_congr_left this]; simp
  rw [hr, key _ h.distinctSettings, key _ h.distinctOptions]

/-! ### Reading any file -/

theorem readLoop_keys {α : Type} (f : Str → α → Except Exc α) (d : Dict α) : (Configuration.readLoop f d).1.keys = d.keys := by
  induction d with
  | nil => rfl
  | cons p r ih =>
    obtain ⟨k, v⟩ := p
    simp only [Configuration.readLoop]
    cases f k v with
    | error e => rfl
    | ok v' => simpa [Dict.keys] using ih

theorem readLoop_missing {α : Type} (f : Str → α → Except Exc α) (d : Dict α) (k : Str) (h : ∀ v, f k v = .ok v) :
    (Configuration.readLoop f d).1.get? k = d.get? k := by
  induction d with
  | nil => rfl
  | cons p r ih =>
    obtain ⟨k', v⟩ := p
    simp only [Configuration.readLoop]
    cases hf : f k' v with
    | error e => rfl
    | ok v' =>
      simp only [Dict.get?]
      by_cases hk : k' = k
      · subst hk
        rw [h v] at hf
        cases hf
        simp
      · simp [hk, ih]

/-- **C37, missing keys and unknown keys**: whatever the file contains (or if there is none), the
keys of the configuration stay the same, and a key that occurs neither in the proper section nor in
the default section of the file keeps its value. -/
theorem C37_missing (c : Configuration) (file : Option Str) :
    (c.read file).1.settings.keys = c.settings.keys ∧ (c.read file).1.options.keys = c.options.keys ∧
    (∀ k, (∀ text ini, file = some text → parse text = .ok ini → lookup ini c!"SETTINGS" (lower k) = none) →
      (c.read file).1.settings.get? k = c.settings.get? k) ∧
    (∀ k, (∀ text ini, file = some text → parse text = .ok ini → lookup ini c!"OPTIONS" (lower k) = none) →
      (c.read file).1.options.get? k = c.options.get? k) ∧
    (file = none → c.read file = (c, none)) := by
  have key : ∀ ini, ((c.readIni ini).1.settings.keys = c.settings.keys ∧ (c.readIni ini).1.options.keys = c.options.keys) ∧
      (∀ k, lookup ini c!"SETTINGS" (lower k) = none → (c.readIni ini).1.settings.get? k = c.settings.get? k) ∧
      (∀ k, lookup ini c!"OPTIONS" (lower k) = none → (c.readIni ini).1.options.get? k = c.options.get? k) := by
    intro ini
    have hs : (c.readIni ini).1.settings = (Configuration.readSettings ini c.settings).1 := by
      unfold Configuration.readIni; split <;> rfl
    have hk1 : (Configuration.readSettings ini c.settings).1.keys = c.settings.keys := by
      unfold Configuration.readSettings; split
      · exact readLoop_keys _ _
      · rfl
    have hk2 : (Configuration.readOptions ini c.options).1.keys = c.options.keys := by
      unfold Configuration.readOptions; split
      · exact readLoop_keys _ _
      · rfl
    refine ⟨⟨by rw [hs]; exact hk1, ?_⟩, ?_, ?_⟩
    · unfold Configuration.readIni; split
      · rfl
      · exact hk2
    · intro k hk
      rw [hs]
      unfold Configuration.readSettings; split
      · exact readLoop_missing _ _ _ (fun v => by simp [Ini.get, hk])
      · rfl
    · intro k hk
      unfold Configuration.readIni; split
      · rfl
      · show (Configuration.readOptions ini c.options).1.get? k = _
        unfold Configuration.readOptions; split
        · exact readLoop_missing _ _ _ (fun v => by simp [Ini.getBool, hk])
        · rfl
  cases file with
  | none =>
    refine ⟨(key []).1.1, (key []).1.2, fun k _ => (key []).2.1 k rfl, fun k _ => (key []).2.2 k rfl, fun _ => rfl⟩
  | some text =>
    simp only [Configuration.read]
    cases hp : parse text with
    | error e => exact ⟨rfl, rfl, fun _ _ => rfl, fun _ _ => rfl, fun h => by cases h⟩
    | ok ini =>
      exact ⟨(key ini).1.1, (key ini).1.2, fun k h => (key ini).2.1 k (h text ini rfl hp), fun k h => (key ini).2.2 k (h text ini rfl hp),
        fun h => by cases h⟩

/-! ### Where the statement is false -/

/-- **C37 is false of the code for arbitrary values**: an escaped percent sign loses its escape,
surrounding blanks are lost, a single percent sign makes `write` raise `ValueError`, and of two keys
that differ in case only one value survives. -/
theorem C37_false :
    (∃ t, (Configuration.mk [(c!"rate", c!"50%%")] []).write = .ok t ∧
      (Configuration.mk [(c!"rate", c!"50%%")] []).read (some t) = (Configuration.mk [(c!"rate", c!"50%")] [], none)) ∧
    (∃ t, (Configuration.mk [(c!"indent", c!"  ")] []).write = .ok t ∧
      (Configuration.mk [(c!"indent", c!"  ")] []).read (some t) = (Configuration.mk [(c!"indent", [])] [], none)) ∧
    (Configuration.mk [(c!"rate", c!"50%")] []).write = .error .valueError ∧
    (∃ t, (Configuration.mk [(c!"k", c!"1"), (c!"K", c!"2")] []).write = .ok t ∧
      (Configuration.mk [(c!"k", c!"1"), (c!"K", c!"2")] []).read (some t) = (Configuration.mk [(c!"k", c!"2"), (c!"K", c!"2")] [], none)) :=
  ⟨⟨_, rfl, by decide +kernel⟩, ⟨_, rfl, by decide +kernel⟩, rfl, ⟨_, rfl, by decide +kernel⟩⟩

/-- A file with a value that is no truth value makes `read` raise `ValueError` (the settings have
been updated, the options from there on have not). -/
theorem C37_bad_boolean :
    (Configuration.mk [(c!"a", c!"old")] [(c!"b", true), (c!"c", true)]).read (some c!"[SETTINGS]\na = new\n[OPTIONS]\nb = maybe\nc = No\n") =
      (Configuration.mk [(c!"a", c!"new")] [(c!"b", true), (c!"c", true)], some .valueError) := by
  decide +kernel

/-! ### A concrete case -/

def demoConfig : Configuration :=
  { settings := [(c!"yw_last_open", c!"C:\\My Novel.yw7"), (c!"Note", c!"two\nlines\n\n= done"), (c!"empty", [])], options := [(c!"keep_tree", true), (c!"ask", false)] }

theorem demoConfig_good : GoodConfig demoConfig where
  settingKeys := by
    intro p hp
    simp only [demoConfig, List.mem_cons, List.not_mem_nil, or_false] at hp
    rcases hp with rfl | rfl | rfl <;> exact ⟨by decide, by decide, by decide, by decide⟩
  settingValues := by
    intro p hp
    simp only [demoConfig, List.mem_cons, List.not_mem_nil, or_false] at hp
    rcases hp with rfl | rfl | rfl <;> exact ⟨by decide, by decide, by decide, by decide⟩
  optionKeys := by
    intro p hp
    simp only [demoConfig, List.mem_cons, List.not_mem_nil, or_false] at hp
    rcases hp with rfl | rfl <;> exact ⟨by decide, by decide, by decide, by decide⟩
  distinctSettings := by unfold DistinctKeys; decide
  distinctOptions := by unfold DistinctKeys; decide

theorem demoConfig_text : (demoConfig.write).toOption =
    some c!"[SETTINGS]\nyw_last_open = C:\\My Novel.yw7\nnote = two\n\tlines\n\t\n\t= done\nempty = \n\n[OPTIONS]\nkeep_tree = Yes\nask = No\n\n" := by
  decide +kernel

/-- C37: `set` replaces what is given and leaves the other part alone; what was set comes back from the file. -/
theorem C37_set (c : Configuration) (s : Dict Str) (o : Dict Bool) :
    (c.set (some s) none).settings = s ∧ (c.set (some s) none).options = c.options ∧
    (c.set none (some o)).settings = c.settings ∧ (c.set none (some o)).options = o ∧ c.set none none = c ∧
    (GoodConfig (c.set (some s) (some o)) → ∃ text, (c.set (some s) (some o)).write = .ok text ∧
      (⟨s, o⟩ : Configuration).read (some text) = (⟨s, o⟩, none)) :=
  ⟨rfl, rfl, rfl, rfl, rfl, fun h => C37_same ⟨s, o⟩ h⟩

end Verif
