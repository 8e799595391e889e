/-
Specification vocabulary for C37 (configuration files).
-/
import Verif.Model.Config

namespace Verif.Spec
open Verif Verif.Str

/-- The value a dictionary has under a key, upper and lower case not distinguished (INI files do
not distinguish them). -/
def valueOf {α : Type} (d : Dict α) (k : Str) : Option α := (d.find? fun p => lower p.1 = lower k).map (·.2)

/-- The keys are different even if case is not distinguished. -/
def DistinctKeys {α : Type} (d : Dict α) : Prop := (d.keys.map lower).Nodup

/-- A key that can stand at the beginning of a line of an INI file. -/
structure GoodKey (k : Str) : Prop where
  nonempty : k ≠ []
  stripped : strip k = k
  chars : ∀ c ∈ k, c ≠ '=' ∧ c ≠ ':' ∧ c ≠ '\n' ∧ c ≠ '\r'
  start : ∀ c, k.head? = some c → c ≠ '#' ∧ c ≠ ';' ∧ c ≠ '['

/-- A value, possibly of several lines, whose lines have no leading or trailing white space and do
not look like comments, without percent signs, and not ending with a line break. -/
structure GoodValue (v : Str) : Prop where
  chars : ∀ c ∈ v, c ≠ '\r' ∧ c ≠ '%'
  noTrailing : rstrip v = v
  lines : ∀ l ∈ split v c!"\n", strip l = l
  noComment : ∀ l ∈ (split v c!"\n").tail, ∀ c, l.head? = some c → c ≠ '#' ∧ c ≠ ';'

/-- A configuration that an INI file can represent. -/
structure GoodConfig (c : Configuration) : Prop where
  settingKeys : ∀ p ∈ c.settings, GoodKey p.1
  settingValues : ∀ p ∈ c.settings, GoodValue p.2
  optionKeys : ∀ p ∈ c.options, GoodKey p.1
  distinctSettings : DistinctKeys c.settings
  distinctOptions : DistinctKeys c.options

/-- `d` with the values `new` has for its keys. -/
def updated {α : Type} (d new : Dict α) : Dict α := d.map fun p => (p.1, (valueOf new p.1).getD p.2)

end Verif.Spec
