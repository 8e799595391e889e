/-
The cross reference document: odt_w/odt_w_xref.py.
-/
import Verif.Model.OdtSheets
import Verif.Model.Xref

namespace Verif

/-- `list.index(x)`, `ValueError` if it is not there. -/
def listIndex : List Str → Str → Except Exc Nat
  | [], _ => .error .valueError
  | a :: r, x => if a = x then .ok 0 else do
    let i ← listIndex r x
    .ok (i + 1)

/-- `_sceneTemplate` (odt_w_xref.py 22-25). -/
def xrefScene0 : Str :=
  c!"<text:p text:style-name=\"scene_20_mark\">\n<text:a xlink:href=\"../${ProjectName}_manuscript.odt#ScID:$ID%7Cregion\">$SceneNumber</text:a> (Ch $Chapter) $Title\n</text:p>\n"

/-- `_notesSceneTemplate`, `_todoSceneTemplate`, `_unusedSceneTemplate` (odt_w_xref.py 26-37): `style` and `word` are what they differ in. -/
def xrefSceneAside (style word : Str) : Str :=
  c!"<text:p text:style-name=\"scene_20_mark_20_" ++ style ++ c!"\">\n$SceneNumber (Ch $Chapter) $Title (" ++ word ++ c!")\n</text:p>\n"

/-- `_characterTemplate` (odt_w_xref.py 38-41). -/
def xrefCharacter : Str :=
  c!"<text:p text:style-name=\"Text_20_body\">\n<text:a xlink:href=\"../${ProjectName}_characters.odt#CrID:$ID%7Cregion\">$Title</text:a> $FullName\n</text:p>\n"

/-- `_locationTemplate`, `_itemTemplate` (odt_w_xref.py 42-49). -/
def xrefWorld (doc mark : Str) : Str :=
  c!"<text:p text:style-name=\"Text_20_body\">\n<text:a xlink:href=\"../${ProjectName}_" ++ doc ++ c!".odt#" ++ mark ++ c!":$ID%7Cregion\">$Title</text:a>\n</text:p>\n"

/-- The headings (odt_w_xref.py 50-63): `what` is what is listed, `var` the placeholder. -/
def xrefHeading (what var : Str) : Str :=
  c!"<text:h text:style-name=\"Heading_20_2\" text:outline-level=\"2\">" ++ what ++ c!" $" ++ var ++ c!":</text:h>\n"

/-- `_get_sceneMapping(scId)` (odt_w_xref.py 158-171). -/
def xrefSceneMapping (e : DocEnv) (n : Novel) (x : Xref) (scId : Str) : Except Exc Mapping := do
  let i ← listIndex x.srtScenes scId
  let m ← (exporterOf e e.plainBase {}).sceneMapping n scId (i + 1) 0 0
  let ch ← x.chpPerScn.get! scId
  let c ← listIndex n.srtChapters ch
  .ok (Dict.set m c!"Chapter" (Str.ofNat (c + 1)))

/-- The template for a scene (odt_w_xref.py 184-191). -/
def xrefSceneTemplate (s : Scene) : Str :=
  if s.scType = some 1 then xrefSceneAside c!"notes" c!"Notes"
  else if s.scType = some 2 then xrefSceneAside c!"todo" c!"ToDo"
  else if s.scType = some 3 then xrefSceneAside c!"unused" c!"Unused"
  else xrefScene0

/-- `_get_scenes(scenes)` (odt_w_xref.py 173-193). -/
def xrefScenes (e : DocEnv) (n : Novel) (x : Xref) : List Str → Except Exc (List Str)
  | [] => .ok []
  | id :: r => do
    let s ← n.scenes.get! id
    let m ← xrefSceneMapping e n x id
    let rest ← xrefScenes e n x r
    .ok (Template.subst (xrefSceneTemplate s) m :: rest)

/-- The loop over a dictionary of lists (odt_w_xref.py 75-87, 89-102, 104-116, 118-131, 133-145, 147-156 and 195-206): keys with an empty
list are skipped. -/
def xrefSections (heading : Str) (mapping : Str → Except Exc Mapping) (lines : List Str → Except Exc (List Str)) : Dict (List Str) → Except Exc (List Str)
  | [] => .ok []
  | (k, ids) :: r =>
    if ids = [] then xrefSections heading mapping lines r
    else do
      let m ← mapping k
      let ls ← lines ids
      let rest ← xrefSections heading mapping lines r
      .ok (Template.subst heading m :: ls ++ rest)

/-- `_get_tagMapping(tag)` (odt_w_xref.py 208-217): the tag is not escaped. -/
def xrefTag (tag : Str) : Except Exc Mapping := .ok [(c!"Tag", tag)]

/-- `_get_text()` (odt_w_xref.py 219-236). -/
def xrefText (e : DocEnv) (n : Novel) : Except Exc Str := do
  let x ← generateXref n
  let b := e.plainBase
  let scenes := xrefScenes e n x
  let header ← getFileHeader (exporterOf e b { fileHeader := titleTemplate }) n
  let characters ← xrefSections (xrefHeading c!"Scenes with Character" c!"Title") (b.character n) scenes x.scnPerChr
  let locations ← xrefSections (xrefHeading c!"Scenes with Location" c!"Title") (b.location n) scenes x.scnPerLoc
  let items ← xrefSections (xrefHeading c!"Scenes with Item" c!"Title") (b.item n) scenes x.scnPerItm
  let sceneTags ← xrefSections (xrefHeading c!"Scenes tagged" c!"Tag") xrefTag scenes x.scnPerTag
  let characterTags ← xrefSections (xrefHeading c!"Characters tagged" c!"Tag") xrefTag (elementLines xrefCharacter (b.character n)) x.chrPerTag
  let locationTags ← xrefSections (xrefHeading c!"Locations tagged" c!"Tag") xrefTag
    (elementLines (xrefWorld c!"locations" c!"LcID") (b.location n)) x.locPerTag
  let itemTags ← xrefSections (xrefHeading c!"Items tagged" c!"Tag") xrefTag (elementLines (xrefWorld c!"items" c!"ItID") (b.item n)) x.itmPerTag
  .ok (header ++ characters ++ locations ++ items ++ sceneTags ++ characterTags ++ locationTags ++ itemTags ++ [contentFooter]).flatten

end Verif
