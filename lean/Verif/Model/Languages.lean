/-
Model of `Novel.get_languages` and `Novel.check_locale` (model/novel.py).
-/
import Verif.Model.Novel

namespace Verif
open Re

/-- `LANGUAGE_TAG.search(text)` with `LANGUAGE_TAG = re.compile(r'\[lang=(.*?)\]')`
(model/novel.py 12, 155, 159): group 1 of the first match and the text after the match. -/
def searchLang : Str → Option (Str × Str)
  | [] => none
  | c :: cs =>
    if c!"[lang=".isPrefixOf (c :: cs) then
      match lazyTo c!"]" ((c :: cs).drop 6) with
      | some k => some (((c :: cs).drop 6).take (k - 1), ((c :: cs).drop 6).drop k)
      | none => searchLang cs
    else searchLang cs

/-- The inner generator `languages(text)` (model/novel.py 147-159), run for at most `fuel` matches;
`C11_scan` shows that the fuel used below suffices. -/
def languagesLoop : Nat → Str → List Str
  | 0, _ => []
  | fuel + 1, text =>
    match searchLang text with
    | none => []
    | some (code, rest) => code :: languagesLoop fuel rest

/-- The language codes of a text, with repetitions. -/
def languagesIn (text : Str) : List Str := languagesLoop (text.length + 1) text

/-- `if not language in self.languages: self.languages.append(language)` (model/novel.py 166-167). -/
def pushNew (acc : List Str) (x : Str) : List Str := if x ∈ acc then acc else acc ++ [x]

/-- `get_languages()` (model/novel.py 138-167); the scenes are visited in dictionary order. -/
def Novel.getLanguages (n : Novel) : Novel :=
  { n with languages := some (n.scenes.foldl (fun acc p =>
      match p.2.sceneContent with
      | none => acc
      | some [] => acc
      | some text => (languagesIn text).foldl pushNew acc) []) }

/-- `check_locale()` (model/novel.py 169-199). Simplification: the system locale is given as a pair;
a system without locale (an exception) is not modelled. -/
def Novel.checkLocale (n : Novel) (sysLng sysCtr : Str) : Novel :=
  if n.languageCode = none ∨ n.languageCode = some [] then
    { n with languageCode := some sysLng, countryCode := some sysCtr }
  else
    match n.languageCode, n.countryCode with
    | some l, some c =>
      if l.length = 2 ∧ c.length = 2 then n
      else { n with languageCode := some c!"zxx", countryCode := some c!"none" }
    | _, _ => { n with languageCode := some c!"zxx", countryCode := some c!"none" }

end Verif
