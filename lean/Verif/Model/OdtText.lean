/-
Formatted text for ODT documents: odt_w/odt_w_formatted.py, odt_w/odt_w_export.py, odt_w/odt_w_proof.py.
-/
import Verif.Model.Export
import Verif.Model.Escape
import Verif.Model.Languages

namespace Verif
open Re

namespace Str

/-- Worker of `s.count(p)`: non-overlapping occurrences, left to right. -/
def countGo (p : Str) : Nat → Str → Nat
  | _, [] => 0
  | n + 1, _ :: cs => countGo p n cs
  | 0, c :: cs => if p.isPrefixOf (c :: cs) then countGo p (p.length - 1) cs + 1 else countGo p 0 cs

/-- `s.count(p)` for a non-empty `p`. -/
def count (s p : Str) : Nat := countGo p 0 s

end Str

namespace Re

/-- Worker of `re.sub` with a replacement function that may keep a state; the matched text is passed to it. -/
def subStGo {σ : Type} (m : Matcher) (f : σ → Str → σ × Str) : σ → Bool → Nat → Str → Str
  | _, _, _, [] => []
  | st, _, n + 1, c :: cs => subStGo m f st (c = '\n') n cs
  | st, bol, 0, c :: cs =>
    match m bol (c :: cs) with
    | some (k + 1) => (f st ((c :: cs).take (k + 1))).2 ++ subStGo m f (f st ((c :: cs).take (k + 1))).1 (c = '\n') k cs
    | _ => c :: subStGo m f st (c = '\n') 0 cs

/-- `re.sub(pattern, function, s)` for patterns without empty matches. -/
def subSt {σ : Type} (m : Matcher) (f : σ → Str → σ × Str) (st : σ) (s : Str) : Str := subStGo m f st true 0 s

end Re

/-! ### Markup reaching across line breaks (odt_w_formatted.py 73-98, odt_w_proof.py 80-105) -/

/-- `[tag]`. -/
def openTag (tag : Str) : Str := '[' :: tag ++ c!"]"

/-- `[/tag]`. -/
def closeTag (tag : Str) : Str := '[' :: '/' :: tag ++ c!"]"

/-- `while line.count(opening) > line.count(closing): line = f'{line}{closing}'; isOpen = True` (91-93), for at most `fuel`
iterations. -/
def closeLoop (op cl : Str) : Nat → Str → Bool → Str × Bool
  | 0, l, o => (l, o)
  | f + 1, l, o => if Str.count l op > Str.count l cl then closeLoop op cl f (l ++ cl) true else (l, o)

/-- `while line.count(closing) > line.count(opening): line = f'{opening}{line}'` (94-95), for at most `fuel` iterations. -/
def openLoop (op cl : Str) : Nat → Str → Str
  | 0, l => l
  | f + 1, l => if Str.count l cl > Str.count l op then openLoop op cl f (op ++ l) else l

/-- The loop body for one line and one tag (85-96); the flag tells whether the tag is open at the end of the previous line
(argument) or of this line (result). -/
def balanceTag (tag : Str) (isOpen : Bool) (line : Str) : Str × Bool :=
  let op := openTag tag
  let cl := closeTag tag
  let line1 := if isOpen then
      (if Str.startsWith line c!"&gt; " then c!"&gt; " ++ op ++ Str.lstripBy (fun c => decide (c ∈ c!"&gt; ")) line else op ++ line)
    else line
  let r := closeLoop op cl (line1.length + 1) line1 false
  let line3 := openLoop op cl (r.1.length + 1) r.1
  (Str.replace line3 (op ++ cl) [], r.2)

/-- The inner `for tag in tags` (84-96); the second list holds `isOpen[tag]` for each tag. -/
def balanceLine : List Str → List Bool → Str → Str × List Bool
  | t :: ts, o :: os, line =>
    let r := balanceTag t o line
    let r' := balanceLine ts os r.1
    (r'.1, r.2 :: r'.2)
  | _, _, line => (line, [])

/-- The outer `for line in lines` (83-97). -/
def balanceLines (tags : List Str) : List Bool → List Str → List Str
  | _, [] => []
  | os, line :: r =>
    let b := balanceLine tags os line
    b.1 :: balanceLines tags b.2 r

/-- `text = '\n'.join(newlines).rstrip()` (74-98). -/
def balanceText (tags : List Str) (text : Str) : Str :=
  Str.rstrip (Str.join c!"\n" (balanceLines tags (tags.map (fun _ => false)) (Str.split text c!"\n")))

/-! ### Conversion -/

/-- `\[\/*[h|c|r|s|u]\d*\]` (odt_w_formatted.py 106). Simplification: only ASCII digits count as `\d`. -/
def layoutTag : Matcher := fun _ s =>
  match s with
  | '[' :: r =>
    let a := r.dropWhile (· = '/')
    match a with
    | c :: b =>
      if c ∈ c!"h|crsu" then
        match b.dropWhile (fun c => '0' ≤ c && c ≤ '9') with
        | ']' :: e => some (s.length - e.length)
        | _ => none
      else none
    | [] => none
  | _ => none

/-- The replacements `\n\n`, `\n`, `\r`, `[i]`, `[b]` common to `OdtWFormatted` and `OdtWExport` (odt_w_formatted.py 142-150,
odt_w_export.py 69-78). -/
def spanReplacements : List (Str × Str) :=
  odtLineBreaks ++
  [(c!"[i]", c!"<text:span text:style-name=\"Emphasis\">"), (c!"[/i]", c!"</text:span>"),
   (c!"[b]", c!"<text:span text:style-name=\"Strong_20_Emphasis\">"), (c!"[/b]", c!"</text:span>")]

/-- The comment replacements of `OdtWFormatted._get_replacements` (odt_w_formatted.py 151-152). -/
def commentReplacements (author : Option Str) : List (Str × Str) :=
  [(c!"/*", c!"<office:annotation><dc:creator>" ++ pyStr author ++ c!"</dc:creator><text:p>"),
   (c!"*/", c!"</text:p></office:annotation>")]

/-- The replacements for the document languages, numbered from `i` (odt_w_formatted.py 68-71). -/
def langReplacements : Nat → List Str → List (Str × Str)
  | _, [] => []
  | i, l :: r =>
    (c!"[lang=" ++ l ++ c!"]", c!"<text:span text:style-name=\"T" ++ Str.ofNat i ++ c!"\">") ::
    (c!"[/lang=" ++ l ++ c!"]", c!"</text:span>") :: langReplacements (i + 1) r

/-- The tags that are balanced (odt_w_formatted.py 66-69). -/
def markupTags (languages : List Str) : List Str := c!"i" :: c!"b" :: languages.map (fun l => c!"lang=" ++ l)

/-- `OdtWFormatted._convert_from_yw(text, quick)` (odt_w_formatted.py 45-109) with the given `_get_replacements()`. Simplification:
the novel's languages are a list (`write` computes them before if they are `None`, odt_w_formatted.py 41-42). -/
def formattedConvert (reps : List (Str × Str)) (languages : List Str) (text : Option Str) (quick : Bool) : Str :=
  match text with
  | none => []
  | some [] => []
  | some t =>
    let t' := if quick then replaceAll xmlReplacements t
      else replaceAll (xmlReplacements ++ reps ++ langReplacements 1 languages) (balanceText (markupTags languages) t)
    sub layoutTag [] t'

/-- `FileExport._remove_inline_code(text)` (file/file_export.py 681-691). -/
def removeInlineCode (text : Option Str) : Str :=
  match text with
  | none => []
  | some [] => []
  | some t =>
    [c!"HTM", c!"TEX", c!"RTF", c!"epub", c!"mobi", c!"rtfimg"].foldl
      (fun t code => sub (between1 ('<' :: code ++ c!" ") ('/' :: code ++ c!">")) [] t) (Str.replace t c!"<RTFBRK>" [])

/-- `OdtWExport._convert_from_yw` (odt_w_export.py 37-51). -/
def odtExportConvert (n : Novel) (text : Option Str) (quick : Bool) : Str :=
  formattedConvert spanReplacements (n.languages.getD []) (if quick then text else some (removeInlineCode text)) quick

/-- `OdtWFormatted._convert_from_yw` with its own replacements: used by the manuscript, notes and todo writers. -/
def odtFormattedConvert (n : Novel) (text : Option Str) (quick : Bool) : Str :=
  formattedConvert (spanReplacements ++ commentReplacements n.authorName) (n.languages.getD []) text quick

/-! ### Whole documents -/

/-- Paragraphs that start with `> ` become quotations (`OdtWFormatted._get_text`, odt_w_formatted.py 166-176). -/
def quotations (text : Str) : Str :=
  if Str.contains text c!"&gt; " then
    let t1 := Str.replace text c!"\"First_20_line_20_indent\">&gt; " c!"\"Quotations\">"
    let t2 := Str.replace t1 c!"\"Text_20_body\">&gt; " c!"\"Quotations\">"
    subSt (σ := Unit) (between1 c!"\"Text_20_body\"><office:annotation>" c!"</office:annotation>&gt; ")
      (fun _ m => ((), c!"\"Quotations\">" ++ (m.drop 15).take (m.length - 15 - 5))) () t2
  else text

/-- `\/\* *@([ef]n\**) (.*?)\*\/` (odt_w_export.py 114): the length of the match and its two groups. -/
def noteMatch (s : Str) : Option (Nat × Str × Str) :=
  if c!"/*".isPrefixOf s then
    match (s.drop 2).dropWhile (· = ' ') with
    | '@' :: e :: 'n' :: r =>
      if e = 'e' ∨ e = 'f' then
        let stars := r.takeWhile (· = '*')
        match r.drop stars.length with
        | ' ' :: body =>
          (lazyTo c!"*/" body).map fun k => (s.length - (body.length - k), e :: 'n' :: stars, body.take (k - 2))
        | _ => none
      else none
    | _ => none
  else none

/-- The counters of `replace_note`: `_noteCounter`, `_noteNumber`. -/
abbrev NoteState := Nat × Nat

/-- `replace_note(match)` (odt_w_export.py 82-101). -/
def replaceNote (st : NoteState) (m : Str) : NoteState × Str :=
  match noteMatch m with
  | none => (st, m)
  | some (_, noteType, body) =>
    let counter := st.1 + 1
    let foot := Str.startsWith noteType c!"fn"
    let star := foot && Str.endsWith noteType c!"*"
    let number := if star then st.2 else st.2 + 1
    let label := if star then c!"*" else Str.ofNat (st.2 + 1)
    let cls := if foot then c!"footnote" else c!"endnote"
    let style := if foot then c!"Footnote" else c!"Endnote"
    let text := Str.replace body c!"text:style-name=\"First_20_line_20_indent\"" (c!"text:style-name=\"" ++ style ++ c!"\"")
    ((counter, number), c!"<text:note text:id=\"ftn" ++ Str.ofNat counter ++ c!"\" text:note-class=\"" ++ cls ++
      c!"\"><text:note-citation text:label=\"" ++ label ++ c!"\">*</text:note-citation><text:note-body><text:p text:style-name=\"" ++
      style ++ c!"\">" ++ text ++ c!"</text:p></text:note-body></text:note>")

/-- Comments, footnotes and endnotes of the whole document (`OdtWExport._get_text`, odt_w_export.py 103-117). Simplification: the
author's name is inserted literally (the code passes it through `re.sub`'s template syntax, which treats backslashes specially). -/
def convertNotes (author : Option Str) (text : Str) : Str :=
  if Str.contains text c!"/*" ∧ !Str.startsWith text c!"/*" then
    let t1 := Str.replace (Str.replace text c!"\r" c!"@r@") c!"\n" c!"@n@"
    let t2 := subSt (fun _ s => (noteMatch s).map (·.1)) replaceNote (0, 0) t1
    let t3 := subSt (σ := Unit) (between0 c!"/*" c!"*/")
      (fun _ m => ((), c!"<office:annotation><dc:creator>" ++ pyStr author ++ c!"</dc:creator><text:p>" ++
        (m.drop 2).take (m.length - 4) ++ c!"</text:p></office:annotation>")) () t2
    Str.replace (Str.replace t3 c!"@r@" c!"\r") c!"@n@" c!"\n"
  else text

end Verif
