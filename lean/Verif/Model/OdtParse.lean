/-
The ODT parser: odt_r/odt_parser.py. It receives the events of the XML parser and calls the reader through an interface like that of
`html.parser.HTMLParser`.
-/
import Verif.Py.XTree

namespace Verif

/-- The calls of the reader's methods `handle_starttag`, `handle_endtag`, `handle_data` and `handle_comment`. Attribute lists are lists of
pairs; the parser's "no attributes" value `[()]` is the empty list here (for both, `attrs[0][0]` raises `IndexError`). The end tag
`None` (after a heading that was already closed) is the empty tag here: both equal no tag the readers know. -/
inductive Call
  | start (tag : Str) (attrs : List (Str × Option Str))
  | stop (tag : Str)
  | data (s : Str)
  | comment (s : Str)
  deriving DecidableEq, Repr

/-- The state of `OdtParser` (odt_r/odt_parser.py 26-40). `span` has the last element first. `_comment` exists only after an annotation
has begun; no event can access it before. -/
structure OdtP where
  emTags : List Str := [c!"Emphasis"]
  strongTags : List Str := [c!"Strong_20_Emphasis"]
  blockquoteTags : List Str := [c!"Quotations"]
  languageTags : Dict Str := []
  headingTags : Dict Str := []
  heading : Option Str := none
  paragraph : Bool := false
  commentCount : Option Nat := none
  comment : Str := []
  blockquote : Bool := false
  list : Bool := false
  span : List Str := []
  style : Option Str := none
  deriving DecidableEq, Repr

namespace OdtP

/-- `characters(content)` (105-116). -/
def characters (p : OdtP) (s : Str) : OdtP × List Call :=
  match p.commentCount with
  | some k => if k = 1 then ({ p with comment := p.comment ++ s }, []) else (p, [])
  | none => if p.paragraph || p.heading.isSome then (p, [.data s]) else (p, [])

/-- `endElement(name)` (118-150). -/
def endElement (p : OdtP) (name : Str) : OdtP × List Call :=
  if name = c!"text:p" then
    match p.commentCount with
    | some _ => (p, [])
    | none =>
      let spans := p.span.map Call.stop
      if p.blockquote then ({ p with span := [], blockquote := false, paragraph := false }, spans ++ [.stop c!"blockquote"])
      else
        match p.heading with
        | some h => ({ p with span := [], heading := none, paragraph := false }, spans ++ [.stop h])
        | none => ({ p with span := [], paragraph := false }, spans ++ [.stop c!"p"])
  else if name = c!"text:span" then
    match p.span with
    | [] => (p, [])
    | t :: r => ({ p with span := r }, [.stop t])
  else if name = c!"text:section" then (p, [.stop c!"div"])
  else if name = c!"office:annotation" then ({ p with commentCount := none }, [.comment p.comment])
  else if name = c!"text:h" then ({ p with heading := none }, [.stop (p.heading.getD [])])
  else if name = c!"text:list-item" then ({ p with list := false }, [])
  else if name = c!"style:style" then ({ p with style := none }, [])
  else (p, [])

/-- `f'h{s[-1]}'`: `IndexError` for an empty string. -/
def headingOfStyle (s : Str) : Except Exc Str :=
  match s.getLast? with
  | some c => .ok ['h', c]
  | none => .error .indexError

/-- The emphasis part of `startElement` for paragraphs and spans (184-189, 191-196). -/
def emphasis (style : Str) (r : OdtP × List Call) : OdtP × List Call :=
  let r1 := if style ∈ r.1.emTags then ({ r.1 with span := c!"em" :: r.1.span }, r.2 ++ [.start c!"em" []]) else r
  if style ∈ r1.1.strongTags then ({ r1.1 with span := c!"strong" :: r1.1.span }, r1.2 ++ [.start c!"strong" []]) else r1

/-- The beginning of a paragraph without its emphasis (163-183). -/
def startParagraph (p : OdtP) (style : Str) : Except Exc (OdtP × List Call) :=
  let param : List (Str × Option Str) := match p.languageTags.get? style with | some l => [(c!"lang", some l)] | none => []
  match p.commentCount with
  | some k => .ok ({ p with commentCount := some (k + 1) }, [])
  | none =>
    if style ∈ p.blockquoteTags then
      .ok ({ p with paragraph := true, blockquote := true }, [.start c!"blockquote" param])
    else if Str.startsWith style c!"Heading" then
      match headingOfStyle style with
      | .ok h => .ok ({ p with heading := some h }, [.start h []])
      | .error e => .error e
    else
      match p.headingTags.get? style with
      | some h => .ok ({ p with heading := some h }, [.start h []])
      | none =>
        if p.list then .ok ({ p with paragraph := true }, [.start c!"li" []])
        else .ok ({ p with paragraph := true }, [.start c!"p" param])

/-- `style:text-properties` (221-233). Appending to a list under the name `None` is left out: no name of a style equals `None`. -/
def textProperties (p : OdtP) (as : Dict Str) : Except Exc OdtP :=
  match p.style with
  | none => if (as.get? c!"fo:language").getD [] ≠ [] ∧ (as.get? c!"fo:country").isNone then .error .keyError else .ok p
  | some s =>
    let p1 := if as.get? c!"fo:font-style" = some c!"italic" then { p with emTags := p.emTags ++ [s] } else p
    let p2 := if as.get? c!"fo:font-weight" = some c!"bold" then { p1 with strongTags := p1.strongTags ++ [s] } else p1
    match as.get? c!"fo:language" with
    | none | some [] => .ok p2
    | some l =>
      match as.get? c!"fo:country" with
      | none => .error .keyError
      | some ctr => .ok { p2 with languageTags := p2.languageTags.set s (if ctr ≠ c!"none" then l ++ c!"-" ++ ctr else l) }

/-- `style:style` (214-220). -/
def startStyle (p : OdtP) (as : Dict Str) : OdtP :=
  let parent := (as.get? c!"style:parent-style-name").getD []
  match as.get? c!"style:name" with
  | none => { p with style := none }
  | some s =>
    if Str.startsWith parent c!"Heading" then
      { p with style := some s, headingTags := p.headingTags.set s ('h' :: parent.getLast?.toList) }
    else if parent = c!"Quotations" then { p with style := some s, blockquoteTags := p.blockquoteTags ++ [s] }
    else { p with style := some s }

/-- `startElement(name, attrs)` (152-235). -/
def startElement (p : OdtP) (name : Str) (as : Dict Str) : Except Exc (OdtP × List Call) :=
  let style := (as.get? c!"text:style-name").getD []
  if name = c!"text:p" then
    match startParagraph p style with
    | .ok r => .ok (emphasis style r)
    | .error e => .error e
  else if name = c!"text:span" then
    let r := emphasis style (p, [])
    match r.1.languageTags.get? style with
    | some l => .ok ({ r.1 with span := c!"lang" :: r.1.span }, r.2 ++ [.start c!"lang" [(c!"lang", some l)]])
    | none => .ok r
  else if name = c!"text:section" then
    match as.get? c!"text:name" with
    | some id => .ok (p, [.start c!"div" [(c!"id", some id)]])
    | none => .error .keyError
  else if name = c!"office:annotation" then .ok ({ p with commentCount := some 0, comment := [] }, [])
  else if name = c!"text:h" then
    match as.get? c!"text:outline-level" with
    | some l => .ok ({ p with heading := some ('h' :: l) }, [.start ('h' :: l) []])
    | none =>
      match headingOfStyle style with
      | .ok h => .ok ({ p with heading := some h }, [.start h []])
      | .error e => .error e
  else if name = c!"text:list-item" then .ok ({ p with list := true }, [])
  else if name = c!"style:style" then .ok (startStyle p as, [])
  else if name = c!"style:text-properties" then
    match textProperties p as with
    | .ok p' => .ok (p', [])
    | .error e => .error e
  else if name = c!"text:s" then .ok (p, [.start c!"s" []])
  else .ok (p, [])

/-- One event of the XML parser. -/
def step (p : OdtP) : Ev → Except Exc (OdtP × List Call)
  | .start t as => startElement p t as
  | .stop t => .ok (endElement p t)
  | .chars s => .ok (characters p s)

/-- All events: the final state and the calls. -/
def run : OdtP → List Ev → Except Exc (OdtP × List Call)
  | p, [] => .ok (p, [])
  | p, e :: es => do
    let r ← step p e
    let q ← run r.1 es
    .ok (q.1, r.2 ++ q.2)

end OdtP

/-! ### Language, title, author and description (feed_file, odt_r/odt_parser.py 72-100) -/

/-- `element.text`: the character data before the first child. -/
def elemText (e : XNode) : Str := match e.kids with | .text s :: _ => s | _ => []

/-- The loop over the default styles (75-81): at most one call. -/
def styleCalls : List XNode → Except Exc (List Call)
  | [] => .ok []
  | s :: r =>
    if s.attr c!"style:family" = some c!"paragraph" then
      match XNode.find c!"style:text-properties" s.kids with
      | none => .error .attributeError
      | some t => .ok [.start c!"body" [(c!"language", t.attr c!"fo:language"), (c!"country", t.attr c!"fo:country")]]
    else styleCalls r

/-- `styles.xml` (72-81), given its root. -/
def stylesCalls (root : XNode) : Except Exc (List Call) :=
  match XNode.find c!"office:styles" root.kids with
  | none => .error .attributeError
  | some s => styleCalls (XNode.sel c!"style:default-style" s.kids)

/-- A field of `meta.xml`: the element's text, if there is any (87-100). -/
def metaField (name : Str) (m : XNode) : Option Str :=
  match XNode.find name m.kids with
  | none => none
  | some e => if elemText e = [] then none else some (elemText e)

/-- `meta.xml` (83-100), given its root. -/
def metaCalls (root : XNode) : Except Exc (List Call) :=
  match XNode.find c!"office:meta" root.kids with
  | none => .error .attributeError
  | some m =>
    .ok ((match metaField c!"dc:title" m with | some t => [.start c!"title" [], .data t, .stop c!"title"] | none => []) ++
      (match metaField c!"meta:initial-creator" m with
        | some a => [.start c!"meta" [([], some c!"author"), ([], some a)]] | none => []) ++
      (match metaField c!"dc:description" m with
        | some d => [.start c!"meta" [([], some c!"description"), ([], some d)]] | none => []))

/-- An ODT file: the roots of `styles.xml` and `meta.xml` (if present), and the events of `content.xml`. Reading the ZIP archive and the
XML parser are not modelled. -/
structure OdtFile where
  styles : XNode
  info : Option XNode
  content : List Ev

/-- The calls for `meta.xml`, which may be missing (64-68, 84). -/
def infoCalls : Option XNode → Except Exc (List Call)
  | none => .ok []
  | some r => metaCalls r

/-- `feed_file` (42-103): all calls of the reader. Simplification: the calls are collected before the reader handles them, so that an
exception of the parser comes before one of the reader (in the code they come in document order; each one ends the import). -/
def feedFile (f : OdtFile) : Except Exc (List Call) := do
  let a ← stylesCalls f.styles
  let b ← infoCalls f.info
  let c ← OdtP.run {} f.content
  .ok (a ++ b ++ c.2)

end Verif
