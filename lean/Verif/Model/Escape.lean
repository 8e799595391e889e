/-
Text conversion to XML: `_convert_from_yw` of the ODT writer, the ODS writer and
the yw7 file.
-/
import Verif.Py.Str

namespace Verif

/-- `for a, b in reps: text = text.replace(a, b)` -/
def replaceAll (reps : List (Str × Str)) (text : Str) : Str :=
  reps.foldl (fun t p => Str.replace t p.1 p.2) text

/-- The entity replacements of odt_writer.py 380-386, odt_w_formatted.py 58-64 and
yw7_file.py 1107-1113 (the same list in all three). -/
def xmlReplacements : List (Str × Str) :=
  [(c!"&", c!"&amp;"), (c!">", c!"&gt;"), (c!"<", c!"&lt;"), (c!"'", c!"&apos;"),
   (c!"\"", c!"&quot;")]

/-- The line break replacements of odt_writer.py 389-393. -/
def odtLineBreaks : List (Str × Str) :=
  [(c!"\n\n", c!"</text:p>\r<text:p text:style-name=\"First_20_line_20_indent\" />\r<text:p text:style-name=\"Text_20_body\">"),
   (c!"\n", c!"</text:p>\r<text:p text:style-name=\"First_20_line_20_indent\">"),
   (c!"\r", c!"\n")]

/-- `OdtWriter._convert_from_yw(text, quick)` (odt_w/odt_writer.py 367-398). -/
def odtConvert (text : Option Str) (quick : Bool) : Str :=
  match text with
  | none => []
  | some [] => []
  | some t => replaceAll (if quick then xmlReplacements else xmlReplacements ++ odtLineBreaks) t

/-- The replacements of ods_writer.py 280-287. -/
def odsReplacements : List (Str × Str) :=
  [(c!"&", c!"&amp;"), (c!"\"", c!"&quot;"), (c!"'", c!"&apos;"), (c!">", c!"&gt;"),
   (c!"<", c!"&lt;"), (c!"\n", c!"</text:p>\n<text:p>")]

/-- `OdsWriter._convert_from_yw(text)` (ods_w/ods_writer.py 269-294); the `quick` argument is
ignored by the code. `None` raises `AttributeError`, which gives `''`. -/
def odsConvert (text : Option Str) : Str :=
  match text with
  | none => []
  | some t => replaceAll odsReplacements (Str.rstrip t)

/-- `Yw7File._convert_from_yw(text)` (yw/yw7_file.py 1095-1119). -/
def ywConvert (text : Option Str) : Str :=
  match text with
  | none => []
  | some [] => []
  | some t => replaceAll xmlReplacements t

end Verif
