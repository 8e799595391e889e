/-
XML trees with attributes and mixed content, as needed for ODF documents: the operations of `xml.etree.ElementTree` PyWriter uses on them.
Element names are written with the usual ODF prefixes; namespace declarations are not resolved.
-/
import Verif.Py.Dict

namespace Verif

/-- An event of a SAX parser. -/
inductive Ev
  | start (tag : Str) (attrs : Dict Str)
  | stop (tag : Str)
  | chars (s : Str)
  deriving DecidableEq, Repr

/-- An element with its attributes and its content, or character data. -/
inductive XNode where
  | elem (tag : Str) (attrs : Dict Str) (kids : List XNode)
  | text (s : Str)
  deriving Repr

namespace XNode

/-- Whether this is an element with the given name. -/
def isTag (t : Str) : XNode → Bool
  | elem t' _ _ => t' = t
  | text _ => false

/-- The children. -/
def kids : XNode → List XNode
  | elem _ _ ks => ks
  | text _ => []

/-- `e.get(key)`. -/
def attr (k : Str) : XNode → Option Str
  | elem _ as _ => as.get? k
  | text _ => none

/-- `parent.findall(tag)`. -/
def sel (t : Str) (ks : List XNode) : List XNode := ks.filter (isTag t)

/-- `parent.find(tag)`. -/
def find (t : Str) (ks : List XNode) : Option XNode := ks.find? (isTag t)

mutual
/-- `''.join(e.itertext())`. -/
def itertext : XNode → Str
  | elem _ _ ks => itertextL ks
  | text s => s

/-- See `itertext`. -/
def itertextL : List XNode → Str
  | [] => []
  | k :: ks => itertext k ++ itertextL ks
end

end XNode
end Verif
