/-
Model of `model/cross_references.py`.
-/
import Verif.Model.Splitter

namespace Verif

/-- `CrossReferences` (cross_references.py 27-65). -/
structure Xref where
  scnPerChr : Dict (List Str) := []
  scnPerLoc : Dict (List Str) := []
  scnPerItm : Dict (List Str) := []
  scnPerTag : Dict (List Str) := []
  chrPerTag : Dict (List Str) := []
  locPerTag : Dict (List Str) := []
  itmPerTag : Dict (List Str) := []
  chpPerScn : Dict Str := []
  srtScenes : List Str := []
  deriving DecidableEq, Repr

/-- `d[k].append(v)`, which raises `KeyError` if `k` is missing (cross_references.py 120, 125, 130). -/
def pushKey (v : Str) (d : Dict (List Str)) (k : Str) : Except Exc (Dict (List Str)) :=
  if d.has k then .ok (d.modify k (· ++ [v])) else .error .keyError

/-- `if not tag in d: d[tag] = []` and `d[tag].append(v)` (cross_references.py 88-90, 97-99,
106-108, 135-137). -/
def pushTag (v : Str) (d : Dict (List Str)) (tag : Str) : Dict (List Str) :=
  (if d.has tag then d else d.set tag []).modify tag (· ++ [v])

/-- A loop body over world elements (cross_references.py 84-90, 93-99, 102-108): the pair is
(scenes per element, elements per tag). -/
def xrefElement {α : Type} (elements : Dict α) (tags : α → Option (List Str))
    (st : Dict (List Str) × Dict (List Str)) (id : Str) :
    Except Exc (Dict (List Str) × Dict (List Str)) :=
  match elements.get? id with
  | none => .error .keyError
  | some e => .ok (st.1.set id [], ((tags e).getD []).foldl (pushTag id) st.2)

/-- The body of the loop over the scenes (cross_references.py 113-137). -/
def xrefScene (n : Novel) (chId : Str) (x : Xref) (scId : Str) : Except Exc Xref :=
  let x := { x with srtScenes := x.srtScenes ++ [scId], chpPerScn := x.chpPerScn.set scId chId }
  match n.scenes.get? scId with
  | none => .error .keyError
  | some sc =>
    match foldE (pushKey scId) x.scnPerChr (sc.characters.getD []) with
    | .error e => .error e
    | .ok c =>
      match foldE (pushKey scId) x.scnPerLoc (sc.locations.getD []) with
      | .error e => .error e
      | .ok l =>
        match foldE (pushKey scId) x.scnPerItm (sc.items.getD []) with
        | .error e => .error e
        | .ok i =>
          .ok { x with scnPerChr := c, scnPerLoc := l, scnPerItm := i,
                       scnPerTag := (sc.tags.getD []).foldl (pushTag scId) x.scnPerTag }

/-- The body of the loop over the chapters (cross_references.py 111-137). -/
def xrefChapter (n : Novel) (x : Xref) (chId : Str) : Except Exc Xref :=
  match n.chapters.get? chId with
  | none => .error .keyError
  | some ch => foldE (xrefScene n chId) x ch.srtScenes

/-- `generate_xref(novel)` (cross_references.py 67-137). The previous contents of the object are
discarded first, so the result depends on the novel only. -/
def generateXref (n : Novel) : Except Exc Xref :=
  match foldE (xrefElement n.characters (·.tags)) ([], []) n.srtCharacters with
  | .error e => .error e
  | .ok (sc, ct) =>
    match foldE (xrefElement n.locations (·.tags)) ([], []) n.srtLocations with
    | .error e => .error e
    | .ok (sl, lt) =>
      match foldE (xrefElement n.items (·.tags)) ([], []) n.srtItems with
      | .error e => .error e
      | .ok (si, it) =>
        foldE (xrefChapter n) { scnPerChr := sc, scnPerLoc := sl, scnPerItm := si,
                                chrPerTag := ct, locPerTag := lt, itmPerTag := it } n.srtChapters

end Verif
