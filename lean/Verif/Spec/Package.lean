/-
Specification: OpenDocument packages (OpenDocument 1.2, part 3).
-/
import Verif.Spec.OdfMeta

namespace Verif.Spec
open XNode

/-- The parts that a package manifest lists, and their media types. -/
def manifestParts (root : XNode) : List (Str × Str) :=
  (childrenOf c!"manifest:file-entry" root).map fun e => ((e.attr c!"manifest:full-path").getD [], (e.attr c!"manifest:media-type").getD [])

/-- The manifest of a package that consists of the given files: it lists the document itself with its media type, and each file once, except
`mimetype` and the files in `META-INF` (part 3, 3.2). -/
structure ManifestOf (type : Str) (files : List Str) (root : XNode) : Prop where
  tag : isTag c!"manifest:manifest" root = true
  document : (c!"/", type) ∈ manifestParts root
  once : ((manifestParts root).map (·.1)).Nodup
  lists : ∀ f, f ∈ (manifestParts root).map (·.1) ↔ f = c!"/" ∨ (f ∈ files ∧ f ≠ c!"mimetype" ∧ ¬ c!"META-INF/" <+: f)

/-- A package with the media type `type` that consists of the given files, which `get` takes out of it: they are all there, among them the four
files a document consists of; the file `mimetype` contains nothing but the media type, and the manifest is in order. -/
structure Package (type : Str) (files : List Str) (get : Str → Option Str) : Prop where
  there : ∀ f ∈ files, ∃ t, get f = some t
  distinct : files.Nodup
  document : ∀ f ∈ [c!"content.xml", c!"styles.xml", c!"meta.xml", c!"settings.xml"], f ∈ files
  mimetype : c!"mimetype" ∈ files ∧ get c!"mimetype" = some type
  manifest : c!"META-INF/manifest.xml" ∈ files ∧ ∃ t root, get c!"META-INF/manifest.xml" = some t ∧ parseDoc t = some root ∧ ManifestOf type files root

/-- The media type of the documents with the ending `ext`. -/
def mediaType (ext : Str) : Str :=
  if ext = c!".odt" then c!"application/vnd.oasis.opendocument.text" else c!"application/vnd.oasis.opendocument.spreadsheet"

/-- The statements of an RDF/XML document in which each description has simple properties: subject, property and object. -/
def statements (root : XNode) : List (Str × Str × Str) :=
  (childrenOf c!"rdf:Description" root).flatMap fun d => d.kids.filterMap fun p => match p with
    | .elem t as _ => some ((d.attr c!"rdf:about").getD [], t, (as.get? c!"rdf:resource").getD [])
    | .text _ => none

mutual
/-- The settings in an element of a settings file: names and values. -/
def configItem : XNode → List (Str × Str)
  | .text _ => []
  | .elem t as ks => (if t = c!"config:config-item" then [((as.get? c!"config:name").getD [], plainText (.elem t as ks))] else []) ++ configItems ks
/-- The settings in a list of elements. -/
def configItems : List XNode → List (Str × Str)
  | [] => []
  | k :: ks => configItem k ++ configItems ks
end

/-- A well-formed XML document, possibly with CDATA sections. -/
def WellFormed (s : Str) : Prop := (∃ root, parseDoc s = some root) ∨ ∃ root, parseWithCdata s = some root

end Verif.Spec
