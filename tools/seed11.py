L=[]
def e(file,defn,old,new,claim,note=None):
    d=dict(file='Verif/Model/'+file,defn=defn,old=old,new=new,claim=claim)
    if note: d['note']=note
    L.append(d)
O='Opening.lean'; W='MainTk.lean'; T='Translations.lean'; I='Inliner.lean'; M='Msgfmt.lean'; P='Pgettext.lean'; F='OdfMeta.lean'
e(O,'units','else 256 * a.toNat + b.toNat','else a.toNat + 256 * b.toNat','C62: big-endian files read as little-endian')
e(O,'fromUnits','if u < 0xD800 ∨ 0xE000 ≤ u','if u < 0xD800 ∨ 0xE000 < u','C62: the character U+E000 cannot be read')
e(O,'fromUnits','(0x10000 + (u - 0xD800) * 1024 + (v - 0xDC00))','((u - 0xD800) * 1024 + (v - 0xDC00))','C62: characters of pairs are wrong')
e(O,'decodeUtf16','| 0xFE :: 0xFF :: r => (units false r)','| 0xFE :: 0xFF :: r => (units true r)','C62: byte order mark ignored')
e(O,'decodeFile','| none => decodeUtf16 b','| none => none','C62: UTF-16 not tried')
e(O,'openYw7','if locked then .error','if !locked then .error','C62: opens only files that are locked')
e(O,'openYw7','| none => .error .parseError','| none => .error .unboundLocal','C62: another exception for malformed files')
e(O,'openYw7','| .ok _ => .error .unboundLocal','| .ok x => match readTree lib x with | .error e => .error e | .ok n => .ok (x, n)','C62: (a repair: files of other encodings are read)')
e(O,'openYw7','xml.fromText (parserInput s)','xml.fromText s','C62: newlines and declaration not processed')
e(W,'Window.closeProject','let s := { s with prj := none }\n  ','','C63: closing keeps the project')
e(W,'Window.closeProject','let s := { s with caption := s.app }\n  ','','C63: closing keeps the caption')
e(W,'Window.closeProject','((s.showStatus []).showPath []).disableMenu','(s.showStatus []).disableMenu','C63: closing keeps the path')
e(W,'Window.closeProject','((s.showStatus []).showPath []).disableMenu','((s.showStatus []).showPath [])','C63: closing leaves the menu entry enabled')
e(W,'Window.openProject','let s := if s.prj.isSome then s.closeProject else s\n','','C63: the old project stays on the display if the new one fails',note='If this survives: the failing branch closes the project itself, and a successful one overwrites everything; only an escaping exception shows a difference.')
e(W,'Window.openProject','(.ok false, s.closeProject.setInfoHow (\'!\' :: msg))','(.ok false, s.setInfoHow (\'!\' :: msg))','C63: a project that failed to open stays open')
e(W,'Window.openProject','s.closeProject.setInfoHow (\'!\' :: msg)','s.closeProject.setInfoHow msg','C63: the error is shown as a success')
e(W,'Window.openProject','((s.showPath (norm (path.getD []))).setTitle).enableMenu','((s.showPath (norm (path.getD []))).setTitle)','C63: menu entry not enabled')
e(W,'Window.openProject','((s.showPath (norm (path.getD []))).setTitle).enableMenu','((s.showPath (norm (path.getD [])))).enableMenu','C63: title not shown')
e(W,'Window.openProject','let s := { s with novel := some n }\n','','C63: the data are not kept')
e(W,'Window.openProject','if fileName = [] then (.ok false, s)','if fileName = [] then (.ok false, s.closeProject)','C63: cancelling closes the project')
e(W,'Window.openProject','let s := s.restoreStatus\n  let fileName','let fileName','C63: the old message stays')
e(W,'Window.setInfoHow','(message.drop 1)','message','C63: the mark is shown')
e(W,'Window.setInfoHow','{ s with bar := s.infoHowText }','s','C63: the message is not shown')
e(W,'Window.setTitle','if n.authorName.getD [] = [] then c!"Unknown author" else n.authorName.getD []','n.authorName.getD []','C63: empty author in the caption')
e(W,'Window.setTitle','titleView ++ c!" by " ++ authorView','authorView ++ c!" by " ++ titleView','C63: title and author swapped')
e(W,'selectProject','fileName = [] ∨ (w.file fileName).isNone','fileName = []','C63: a missing file is not asked for')
e(W,'Window.initDir','if d = [] then c!"./" else d','c!"./"','C63: the dialog does not start where the last project is')
e(W,'Window.act','if s.closeOn then s.closeProject else s','s','C63: a click on Close does nothing')
e(T,'readPoLoop','if t = [] then d else d.set message t','d.set message t','C58: an empty translation replaces a known one')
e(T,'readPoLoop','(extractText c!"msgid \\"" line) d r','message d r','C58: translations of the wrong message')
e(T,'extractText','line.length - 1','line.length','C58: quotation mark in messages')
e(T,'readPotLoop','msgs ++ [extractText','[extractText','C58: only the last message is kept')
e(T,'insertStr','if strLe s a then s :: a :: r','if strLe a s then s :: a :: r','C58: messages in reverse order')
e(T,'updateTranslations','d.filter (fun q => q.2 ≠ [])','d.filter (fun q => q.2 = [])','C58: the dictionary loses the translations')
e(T,'updateTranslations','let d := readPo dict po','let d := readPo [] po','C58: the dictionary is not used')
e(T,'writeChecked','if backedUp then replace (bak path) path\n    return false','return false','C58: backup not restored')
e(I,'fromGroup','if name ≠ [] ∧ Str.startsWith','if Str.startsWith','C59: empty module name')
e(I,'moduleNamed','if Str.contains name package then','if Str.startsWith name package then','C59: modules are found only if the name starts with the package',note='For names that begin with the package there is no difference; the theorems speak about modules that are imported by the code, so this may survive only if all statements are about such names.')
e(I,'inlineLoop','rec (m ++ c!".py") text (processed ++ [m])','rec (m ++ c!".py") text processed','C59: a module is inlined twice')
e(I,'inlineLoop','inlineLoop package packagePath inPackage rec inDoc text\' processed\' r','inlineLoop package packagePath inPackage rec inDoc text\' processed r','C59: nested modules forgotten, inlined twice')
e(I,'inlineLoop','if m ∈ processed then','if m ∉ processed then','C59: modules are not inlined')
e(I,'inlineLoop','(text ++ line) (processed ++ [name]) r','(text ++ line) processed r','C59: imports repeated')
e(I,'inlineLoop','else if inDoc then inlineLoop package packagePath inPackage rec inDoc text processed r','else if inDoc then inlineLoop package packagePath inPackage rec inDoc (text ++ line) processed r','C59: doc comments in the result')
e(M,'addMsg','if !fuzzy && str ≠ [] then','if str ≠ [] then','C60: fuzzy translations get in')
e(M,'addMsg','(c ++ [4] ++ id)','(c ++ id)','C60: contexts without separator')
e(M,'layoutLoop','(strs ++ v ++ [0])','(strs ++ v)','C60: translations not terminated')
e(M,'generate','[l2, o2 + valuestart]','[l2, o2 + keystart]','C60: translations at the wrong place')
e(M,'generate','[l1, o1 + keystart]','[o1 + keystart, l1]','C60: length and place swapped')
e(M,'generate','(messages.map (·.1)).mergeSort bytesLe','messages.map (·.1)','C60: keys not sorted')
e(M,'generate','7 * 4 + keys.length * 8] ++','7 * 4 + keys.length * 8 + 4] ++','C60: (bound only: the check uses a wrong number)',note='Only the overflow check changes, by four bytes; the claim fails only for files of 2 GB.')
e(M,'keyword','{ s with sect := some .id, id := [], str := [], plural := some false, messages }, l.drop 5)','{ s with sect := some .id, str := [], plural := some false, messages }, l.drop 5)','C60: messages run together')
e(M,'keyword','id := s.id ++ [0]','id := s.id','C60: plural without separator')
e(M,'literalBody','(literalBody r).map (d :: ·)','(literalBody r).map (c :: ·)','C60: escape sequences not resolved')
e(M,'moLine','sect := none, ctxt := none, fuzzy := false','sect := none, ctxt := none','C60: everything after a fuzzy entry is lost')
e(M,'makeMo','generate (if s.sect = some .str then addMsg s.ctxt s.id s.str s.fuzzy s.messages else s.messages)','generate s.messages','C60: the last message is lost')
e(P,'msgBody','if c = \'\\n\' then none\n    else if','if','C61: messages over several lines')
e(P,'findMsgs','m :: findMsgs q (m.length + 4) r','m :: findMsgs q (m.length + 5) r','C61: a message directly after another one is lost')
e(P,'getMessages','findMsgs \'"\' 0 text ++ findMsgs \'\\\'\' 0 text','findMsgs \'"\' 0 text','C61: messages in single quotation marks are lost')
e(P,'scanEntry','| .dir _ entries => scanDir entries','| .dir _ _ => .ok []','C61: subdirectories not scanned')
e(P,'scanDir','| .ok b => .ok (a ++ b)','| .ok b => .ok (if a = [] then b else a)','C61: later files lost')
e(P,'distinct','if a ∈ r then distinct r else a :: distinct r','a :: distinct r','C61: messages twice')
e(P,'potText','Str.replace m c!"\\"" c!"\\\\\\""','m','C61: quotation marks not escaped')
e(P,'writeTemplate','if backedUp then replace (bak path) path\n    return false','return false','C61: backup not restored')
e(F,'stylesText','let n := n.checkLocale sysLng sysCtr\n','','C64: the locale is not checked')
e(F,'stylesText','(c!"Country", strOrNone n.countryCode)','(c!"Country", strOrNone n.languageCode)','C64: language as country')
e(F,'metaText','(c!"Author", strOrNone n.authorName)','(c!"Author", strOrNone n.title)','C64: title as author')
e(F,'metaText','c!"<![CDATA[" ++ strOrNone n.desc ++ c!"]]>"','strOrNone n.desc','C64: the description is not protected')
e(F,'strOrNone','v.getD c!"None"','v.getD []','C64: (a repair: missing values are empty)')
e(F,'metaAuthor','<meta:initial-creator>','<dc:creator>','C64: author not in its element')
import json
json.dump(L,open('/tmp/gen/seed11.json','w'))
