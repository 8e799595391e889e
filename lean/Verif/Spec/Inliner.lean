/-
What the joined script should contain (C59).
-/
import Verif.Model.Inliner

namespace Verif.Spec

/-- What a line of a source file stands for: the import of a module of the package, the import of another module, or any other line. -/
inductive Item where
  | needs (m : Str)
  | std (line name : Str)
  | code (line : Str)
  deriving DecidableEq

/-- A comment line that is not the first line of a script (`#!`). -/
def isComment (line : Str) : Bool := (c!"#").isPrefixOf (Str.lstrip line) && !(c!"#!").isPrefixOf (Str.lstrip line)

/-- The number of triple quotation marks. -/
def tripled (line : Str) : Nat := Str.count line c!"\"\"\""

/-- The lines without the docstrings that go over several lines. -/
def withoutDocs : Bool → List Str → List Str
  | _, [] => []
  | inside, l :: r => if tripled l = 1 then withoutDocs (!inside) r else if inside then withoutDocs inside r else l :: withoutDocs inside r

/-- The lines of a file that belong into the joined script: everything before `# do_not_inline`, without comments and docstrings; of a module of
the package, only what precedes its main program. -/
def usedLines (inPackage : Bool) (lines : List Str) : List Str :=
  let body := (lines.takeWhile fun l => !(c!"# do_not_inline").isPrefixOf l).filter fun l => !isComment l && tripled l ≠ 2
  if inPackage then (withoutDocs false body).takeWhile fun l => !Str.contains l c!"main()" && !Str.contains l c!"__main__" else body

/-- What a line stands for. -/
def itemOf (package packagePath line : Str) : Item :=
  if tripled line = 1 then .code line
  else match moduleNamed package packagePath line with
    | some m => .needs m
    | none => if (c!"import").isPrefixOf (Str.lstrip line) then .std line (Str.rstrip (Str.replace line c!"import " [])) else .code line

/-- The sources of an application. -/
structure Sources where
  files : Str → Option Str
  package : Str
  packagePath : Str

/-- The items of a file. -/
def Sources.items (s : Sources) (file : Str) : List Item :=
  (usedLines (Str.contains file s.package) (keepLines (universalNewlines ((s.files file).getD [])))).map (itemOf s.package s.packagePath)

/-- The file of a module. -/
def moduleFile (m : Str) : Str := m ++ c!".py"

/-- The files that a file needs, directly or not, itself included. -/
inductive Sources.Reaches (s : Sources) : Str → Str → Prop where
  | refl (f : Str) : s.Reaches f f
  | step {f g m : Str} : s.Reaches f g → Item.needs m ∈ s.items g → s.Reaches f (moduleFile m)

/-- The text of a sequence of items: of imports with the same name only the first. -/
def itemsText : List Str → List Item → Str
  | _, [] => []
  | seen, .needs _ :: r => itemsText seen r
  | seen, .std line name :: r => if name ∈ seen then itemsText seen r else line ++ itemsText (name :: seen) r
  | seen, .code line :: r => line ++ itemsText seen r

/-- The text joins the files that the main script needs. -/
def Sources.Joined (s : Sources) (root text : Str) : Prop :=
  ∃ parts : List (Str × Item),
    -- each file that is needed is there once, with all its lines in their order
    (∀ f, s.Reaches root f → (parts.filter (·.1 = f)).map (·.2) = s.items f) ∧
    -- there is nothing else
    (∀ p ∈ parts, s.Reaches root p.1) ∧
    -- where a file needs a module, this module is complete, unless it needs the file itself
    (∀ before after f m, parts = before ++ (f, .needs m) :: after → ¬ s.Reaches (moduleFile m) f → ∀ p ∈ after, p.1 ≠ moduleFile m) ∧
    text = itemsText [] (parts.map (·.2))

/-- No module needs the main script, and no other import is called like a module of the package. -/
structure Sources.Sound (s : Sources) (root : Str) : Prop where
  main : ∀ f m, s.Reaches root f → Item.needs m ∈ s.items f → moduleFile m ≠ root
  names : ∀ f g m line, s.Reaches root f → s.Reaches root g → Item.needs m ∈ s.items f → Item.std line m ∉ s.items g

end Verif.Spec
