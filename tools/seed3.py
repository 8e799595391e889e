L=[]
def e(file,defn,old,new,claim,**k): L.append(dict(file='Verif/'+file,defn=defn,old=old,new=new,claim=claim,**k))
X='Model/Export.lean'; T='Model/OdtText.lean'; W='Model/OdtWriters.lean'; C='Model/Config.lean'; P='Model/Purge.lean'; R='Model/OdsRead.lean'; I='Py/Ini.lean'; Y='Py/Template.lean'
e(X,'sceneTemplate','else if s.scType = some 3 ∨ chType = some 3 then opt x.unusedScene','else if s.scType = some 3 then opt x.unusedScene','C29: scenes of unused chapters exported')
e(X,'sceneTemplate','else if s.doNotExport = some true ∨ notExported = true then opt x.notExportedScene','else if notExported = true then opt x.notExportedScene','C29: single not-exported scenes leak')
e(X,'sceneTemplate','if s.scType = some 2 then opt x.todoScene','if s.scType = some 2 ∧ first = true then opt x.todoScene','C29: todo scenes leak unless first')
e(X,'sceneTemplate','else if s.scType = some 1 then opt x.notesScene','else if s.scType = some 4 then opt x.notesScene','C29: notes scenes leak')
e(X,'sceneTemplate','x.appendedScene ≠ [] then some (x.appendedScene, true)','x.appendedScene ≠ [] then none','C30: appended scenes dropped')
e(X,'scenesLoop','let (rest, k\'\') ← scenesLoop x n chType notExported false k\' r','let (rest, k\'\') ← scenesLoop x n chType notExported false k\' r.tail','C30: every second scene skipped')
e(X,'scenesLoop','words := k.words + s.wordCount','words := k.words + s.letterCount','C30: words total counts letters')
e(X,'scenesLoop','let m ← x.sceneMapping n scId (if counted','let m ← x.sceneMapping n (r.headD scId) (if counted','C30: text of the next scene')
e(X,'chaptersLoop','    let (scenes, k\') ← scenesLoop x n ch.chType notExported true k ch.srtScenes','    let (scenes, k\') ← scenesLoop x n ch.chType notExported true {} ch.srtScenes','C30: counters restart in every chapter')
e(X,'chaptersLoop','    .ok (head ++ scenes ++ tail ++ rest)','    .ok (head ++ tail ++ scenes ++ rest)','C30: chapter end before the scenes')
e(X,'chaptersLoop','let rest ← chaptersLoop x n chNumber\' k\' r','let rest ← chaptersLoop x n chNumber k\' r','C30: chapter number not advanced')
e(X,'getChapters','chaptersLoop x n 0 {} n.srtChapters','chaptersLoop x n 0 {} n.srtChapters.reverse','C30: reverse order')
e(X,'chapterNotExported','.ok (l ≠ [] && l.all id)','.ok (l ≠ [] && l.any id)','C29/C30: one hidden scene hides the chapter')
e(X,'chapterTemplate','else if ch.chType = some 3 then (opt x.unusedChapter, false)','else if ch.chType = some 3 then (some x.chapter, false)','C29: unused chapter headings exported')
e(X,'chapterEndTemplate','else if ch.chType = some 1 then opt x.notesChapterEnd','else if ch.chType = some 1 then opt x.chapterEnd','C29: end of a notes chapter exported')
e(X,'Base.scene','(c!"Desc", b.conv n s.desc false), (c!"WordCount", Str.ofNat s.wordCount), (c!"WordsTotal", Str.ofNat words)','(c!"Desc", b.conv n s.title false), (c!"WordCount", Str.ofNat s.wordCount), (c!"WordsTotal", Str.ofNat words)','C30: title in place of the description')
e(X,'Base.chapter','(c!"ChapterNumber", dispNumber number)','(c!"ChapterNumber", dispNumber (number + 1))','C30: chapter number off by one')
e(W,'chapterSuppressed','if ch.suppressChapterTitle = some true then','if ch.suppressChapterTitle ≠ some true then','C30: suppression inverted')
e(W,'manuscriptTemplates','    chapterEnd := sectionEnd\n    fileFooter := contentFooter }\n\n/-- `OdtWManuscript._get','    chapterEnd := sectionEnd\n    unusedChapterEnd := sectionEnd\n    fileFooter := contentFooter }\n\n/-- `OdtWManuscript._get','C29: manuscript emits a line for unused chapters')
e(W,'synopsisTemplates','scene := c!"<text:p text:style-name=\\"Text_20_body\\">$Title</text:p>\\n"','scene := c!"<text:p text:style-name=\\"Text_20_body\\">$Title</text:p>\\n", unusedScene := c!"$Title"','C29: synopsis lists unused scenes')
e(C,'readLoop','((k, v\') :: (readLoop f r).1, (readLoop f r).2)','((k, v) :: (readLoop f r).1, (readLoop f r).2)','C37: values not updated')
e(C,'readSettings','if ini.has c!"SETTINGS" then','if ini.has c!"OPTIONS" then','C37: wrong section checked')
e(C,'readOptions','Ini.getBool ini c!"OPTIONS" k v','Ini.getBool ini c!"SETTINGS" k v','C37: options looked up in the settings')
e(C,'yesNo','if b then c!"Yes" else c!"No"','if b then c!"No" else c!"Yes"','C37: inverted booleans')
e(C,'write','if c.options = [] then []','if c.settings = [] then []','C37: options dropped without settings')
e(C,'setAll','setAll (d.set (lower k) v) r','setAll (d.set k v) r','C37: key case (reader lowers)')
e(C,'set','options := options.getD c.options','options := options.getD []','C37: set() with missing options clears them')
e(I,'writeSection','replace p.2 c!"\\n" c!"\\n\\t"','p.2','C37: multi-line values not indented')
e(I,'optionLine','strip r)','r)','C37: blank after = kept')
e(I,'isDelim',"c = '=' || c = ':'","c = '='",'C37: files with colons not understood')
e(I,'isComment',' || startsWith (strip line) c!";"','','C37: semicolon comments')
e(I,'get','| none => .ok fallback\n  | some v => interpolate (lookup ini section_) 10 v\n\n/-- `_convert','| none => .ok []\n  | some v => interpolate (lookup ini section_) 10 v\n\n/-- `_convert','C37: missing key resets the setting')
e(I,'toBool','c!"yes", ','','C37: Yes not recognised')
e(P,'resetVars','((resetVars r (kw.set f (some []))).1, true)','((resetVars r (kw.set f (some []))).1, (resetVars r (kw.set f (some []))).2)','C41: change not reported')
e(P,'resetVars','kw.set f (some [])','kw.set f none','C41: variable becomes None',edit='kw.set f (some []) ==> kw.set f none') if False else None
e(P,'resetCustomVariables','items := itm.1 },','items := n.items },','C41: items not reset')
e(P,'yw7KwVars','crt := [c!"Field_Link", c!"Field_BirthDate", c!"Field_DeathDate"]','crt := [c!"Field_Link", c!"Field_BirthDate"]','C41: death date kept')
e(P,'languageTag','.map (· + (k + 6))','.map (· + (k + 5))','C41: closing bracket left')
e(P,'languageTag',"let k := (r.takeWhile (· = '/')).length","let k := 0",'C41: closing tags kept')
e(P,'purgeScene','if text ≠ t then (s.setContent t, true)','if text ≠ t then (s, true)','C41: text not stored')
e(P,'removeLanguageTags','n.scenes.any fun p','n.scenes.all fun p','C41: wrong report')
e(R,'charFromRow','fullName := putCell c.fullName (cellAt row 2) (cellAt row 2)','fullName := putCell c.fullName (cellAt row 3) (cellAt row 2)','C33: wrong column tested')
e(R,'charFromRow','bio := putCell c.bio (cellAt row 5) (Str.rstrip (cellAt row 5))','bio := putCell c.bio (cellAt row 6) (Str.rstrip (cellAt row 6))','C33: goals imported as bio')
e(R,'charFromRow','isMajor := some (Str.contains (cellAt row 7) c!"Major")','isMajor := c.isMajor','C33: importance not imported')
e(R,'worldFromRow','desc := putCell e.desc (cellAt row 2) (Str.rstrip (cellAt row 2))','desc := putCell e.desc (cellAt row 3) (Str.rstrip (cellAt row 3))','C33: aka imported as description')
e(R,'putCell','if isSetCell old ∨ cell ≠ [] then some value else old','if isSetCell old ∧ cell ≠ [] then some value else old','C33: new values ignored')
e(R,'putCellTags','stringToList (some cell) exportDivider','stringToList (some cell) c!";"','C33: tags not split')
e(R,'rowsLoop','let d := if st.1.has id then st.1 else st.1.set id new','let d := st.1.set id new','C33: existing elements replaced')
e(R,'rowsLoop','(d.modify id (upd row), st.2 ++ [id])','(d.modify id (upd row), id :: st.2)','C33: reverse order')
e(R,'searchId','((c :: cs).drop mark.length).takeWhile Str.isDig ≠ [] then','true then','C33: empty IDs accepted')
e(R,'readTable','row.length = k','row.length ≤ k','C32/C33: short rows accepted')
e(R,'readItemList','.ok { n with items := r.1, srtItems := r.2 }','.ok { n with items := r.1 }','C33: item order not imported')
e(R,'readLocList','rowsLoop c!"LcID:" {} worldFromRow rows (n.locations, [])','rowsLoop c!"LcID:" {} worldFromRow rows (n.locations, n.srtLocations)','C33: IDs doubled')
e(R,'sceneFromRow','notes := putCell s.notes (cellAt row 4) (Str.rstrip (cellAt row 4))','notes := some (Str.rstrip (cellAt row 4))','C33: notes always set')
e(R,'sceneFromRow','field3 := ratingOf (cellAt row 13)','field3 := ratingOf (cellAt row 12)','C33: rating from the wrong column')
e(R,'statusIndex','(i + 1 : Nat)','(i : Nat)','C33: status off by one')
e(R,'ratingOf','else c!"1")','else cell)','C33: invalid ratings stored')
e(Y,'segsGo',"segsGo ((ident r).length + 2) cs","segsGo ((ident r).length + 1) cs",'C30: brace left after placeholder')
e(Y,'render','(m.get? name).getD raw','(m.get? name).getD []','C30: unknown placeholders vanish')
L=[x for x in L if x]
