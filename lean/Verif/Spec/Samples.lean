/-
Specification: what the sample applications are for.
-/
import Verif.Spec.Disk
import Verif.Spec.Conversion
import Verif.Props.C23_World

namespace Verif.Spec
open Verif Elem Xml

/-- The end of the name of the document that a sample application makes of a project. -/
def documentOf : List (Str × Str) :=
  [(c!"cnv_brief_synopsis", c!"_brf_synopsis.odt"), (c!"cnv_chapters", c!"_chapters.odt"), (c!"cnv_characters", c!"_characters.odt"),
   (c!"cnv_charlist", c!"_charlist.ods"), (c!"cnv_itemlist", c!"_itemlist.ods"), (c!"cnv_items", c!"_items.odt"),
   (c!"cnv_locations", c!"_locations.odt"), (c!"cnv_loclist", c!"_loclist.ods"), (c!"cnv_manuscript", c!"_manuscript.odt"),
   (c!"cnv_notes", c!"_notes.odt"), (c!"cnv_parts", c!"_parts.odt"), (c!"cnv_proof", c!"_proof.odt"),
   (c!"cnv_scenelist", c!"_scenelist.ods"), (c!"cnv_scenes", c!"_scenes.odt"), (c!"cnv_todo", c!"_todo.odt"),
   (c!"cross_reference", c!"_xref.odt"), (c!"export_odt", c!".odt"), (c!"import_outline", c!".odt"), (c!"import_wip", c!".odt")]

/-- The files with the characters, the locations and the items of the project `base`. -/
def dataPaths (base : Str) : List Str := [base ++ c!"_data_Characters.xml", base ++ c!"_data_Locations.xml", base ++ c!"_data_Items.xml"]

/-- A project whose world a file can carry: IDs without special characters, each once, and texts that survive in a file. -/
structure StorableWorld (n : Novel) : Prop where
  locations : (n.srtLocations.Nodup ∧ ∀ id ∈ n.srtLocations, GoodId id ∧ Simple id) ∧ ∀ id ∈ n.srtLocations, ∀ w, n.locations.get? id = some w → StorableElement w
  items : (n.srtItems.Nodup ∧ ∀ id ∈ n.srtItems, GoodId id ∧ Simple id) ∧ ∀ id ∈ n.srtItems, ∀ w, n.items.get? id = some w → StorableElement w
  characters : (n.srtCharacters.Nodup ∧ ∀ id ∈ n.srtCharacters, GoodId id ∧ Simple id) ∧ ∀ id ∈ n.srtCharacters, ∀ w, n.characters.get? id = some w → StorableCharacter w

/-- `m` has the characters, the locations and the items of `n`, all of them, in the same order, and no others. -/
structure SameWorld (n m : Novel) : Prop where
  characters : m.srtCharacters = n.srtCharacters ∧ m.characters.keys = n.srtCharacters ∧
    ∀ id ∈ n.srtCharacters, ∃ w y, n.characters.get? id = some w ∧ m.characters.get? id = some y ∧ CharacterSame w y
  locations : m.srtLocations = n.srtLocations ∧ m.locations.keys = n.srtLocations ∧
    ∀ id ∈ n.srtLocations, ∃ w y, n.locations.get? id = some w ∧ m.locations.get? id = some y ∧ WorldSame w y
  items : m.srtItems = n.srtItems ∧ m.items.keys = n.srtItems ∧
    ∀ id ∈ n.srtItems, ∃ w y, n.items.get? id = some w ∧ m.items.get? id = some y ∧ WorldSame w y

/-- The project `x` has the sections `c`, `l` and `i` of data files. -/
def TakenOver (x c l i : Elem) : Prop :=
  find c!"CHARACTERS" x.kids = some c ∧ find c!"LOCATIONS" x.kids = some l ∧ find c!"ITEMS" x.kids = some i

/-- The three data files of the project `base` are well-formed, and whoever puts them into a project gets the world of `n`. -/
def DataOf (lib : PyLib) (n : Novel) (base : Str) (fs : FS) : Prop :=
  ∃ tc tl ti c l i, fs (base ++ c!"_data_Characters.xml") = some tc ∧ fs (base ++ c!"_data_Locations.xml") = some tl ∧
    fs (base ++ c!"_data_Items.xml") = some ti ∧
    parseXml (parserInput tc) = some c ∧ parseXml (parserInput tl) = some l ∧ parseXml (parserInput ti) = some i ∧
    c.tag = c!"CHARACTERS" ∧ l.tag = c!"LOCATIONS" ∧ i.tag = c!"ITEMS" ∧
    ∀ x m, TakenOver x c l i → readTree lib x = .ok m → SameWorld n m

end Verif.Spec
