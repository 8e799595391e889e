/-
The data model: model/basic_element.py, world_element.py, character.py, chapter.py,
scene.py, novel.py.
-/
import Verif.Py.Dict
import Verif.Py.Re

namespace Verif
open Re

/-! ### Word and letter counting (model/scene.py 11-23, 221-230) -/

/-- `ADDITIONAL_WORD_LIMITS = '--|—|–'` (model/scene.py 14). -/
def additionalWordLimits : Matcher := alt (lit c!"--") (alt (lit c!"—") (lit c!"–"))

/-- `NO_WORD_LIMITS = '\[.+?\]|\/\*.+?\*\/|-|^\>'`, multiline (model/scene.py 17). -/
def noWordLimits : Matcher :=
  alt (between1 c!"[" c!"]") (alt (between1 c!"/*" c!"*/") (alt (lit c!"-") (bolLit c!">")))

/-- `NON_LETTERS = '\[.+?\]|\/\*.+?\*\/|\n|\r'` (model/scene.py 21). -/
def nonLetters : Matcher :=
  alt (between1 c!"[" c!"]") (alt (between1 c!"/*" c!"*/") (alt (lit c!"\n") (lit c!"\r")))

/-- The word count computed by the `sceneContent` setter (model/scene.py 225-228). -/
def wordCountOf (text : Str) : Nat :=
  (Str.words (sub noWordLimits [] (sub additionalWordLimits c!" " text))).length

/-- The letter count computed by the `sceneContent` setter (model/scene.py 229-230). -/
def letterCountOf (text : Str) : Nat := (sub nonLetters [] text).length

/-- `Scene` (model/scene.py 26-215 with basic_element.py 8-27). All attributes, defaults as in
`__init__`. Simplification: `scType` is a natural number (the code never assigns a negative one). -/
structure Scene where
  title : Option Str := none
  desc : Option Str := none
  kwVar : Dict (Option Str) := []
  sceneContent : Option Str := none
  wordCount : Nat := 0
  letterCount : Nat := 0
  scType : Option Nat := none
  doNotExport : Option Bool := none
  status : Option Int := none
  notes : Option Str := none
  tags : Option (List Str) := none
  field1 : Option Str := none
  field2 : Option Str := none
  field3 : Option Str := none
  field4 : Option Str := none
  appendToPrev : Option Bool := none
  isReactionScene : Option Bool := none
  isSubPlot : Option Bool := none
  goal : Option Str := none
  conflict : Option Str := none
  outcome : Option Str := none
  characters : Option (List Str) := none
  locations : Option (List Str) := none
  items : Option (List Str) := none
  date : Option Str := none
  time : Option Str := none
  day : Option Str := none
  lastsMinutes : Option Str := none
  lastsHours : Option Str := none
  lastsDays : Option Str := none
  image : Option Str := none
  scnArcs : Option Str := none
  scnMode : Option Int := none
  deriving DecidableEq, Repr

/-- The `sceneContent` setter (model/scene.py 221-230). Assigning `None` raises `TypeError`
in `re.sub` after `_sceneContent` was set; the modelled code only assigns strings. -/
def Scene.setContent (s : Scene) (text : Str) : Scene :=
  { s with sceneContent := some text, wordCount := wordCountOf text,
           letterCount := letterCountOf text }

/-- `Chapter` (model/chapter.py 10-83). -/
structure Chapter where
  title : Option Str := none
  desc : Option Str := none
  kwVar : Dict (Option Str) := []
  chLevel : Option Nat := none
  chType : Option Nat := none
  suppressChapterTitle : Option Bool := none
  isTrash : Option Bool := none
  suppressChapterBreak : Option Bool := none
  srtScenes : List Str := []
  deriving DecidableEq, Repr

/-- `WorldElement` (model/world_element.py 10-34): location or item. -/
structure WorldElement where
  title : Option Str := none
  desc : Option Str := none
  kwVar : Dict (Option Str) := []
  image : Option Str := none
  tags : Option (List Str) := none
  aka : Option Str := none
  deriving DecidableEq, Repr

/-- `Character` (model/character.py 10-40). -/
structure Character extends WorldElement where
  notes : Option Str := none
  bio : Option Str := none
  goals : Option Str := none
  fullName : Option Str := none
  isMajor : Option Bool := none
  deriving DecidableEq, Repr

/-- `BasicElement` (model/basic_element.py 8-27): project note. -/
structure BasicElement where
  title : Option Str := none
  desc : Option Str := none
  kwVar : Dict (Option Str) := []
  deriving DecidableEq, Repr

/-- `Novel` (model/novel.py 15-133). -/
structure Novel where
  title : Option Str := none
  desc : Option Str := none
  kwVar : Dict (Option Str) := []
  authorName : Option Str := none
  authorBio : Option Str := none
  fieldTitle1 : Option Str := none
  fieldTitle2 : Option Str := none
  fieldTitle3 : Option Str := none
  fieldTitle4 : Option Str := none
  wordTarget : Option Int := none
  wordCountStart : Option Int := none
  chapters : Dict Chapter := []
  scenes : Dict Scene := []
  languages : Option (List Str) := none
  srtChapters : List Str := []
  locations : Dict WorldElement := []
  srtLocations : List Str := []
  items : Dict WorldElement := []
  srtItems : List Str := []
  characters : Dict Character := []
  srtCharacters : List Str := []
  projectNotes : Dict BasicElement := []
  srtPrjNotes : List Str := []
  languageCode : Option Str := none
  countryCode : Option Str := none
  deriving DecidableEq, Repr

end Verif
