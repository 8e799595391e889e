L=[]
def e(file,defn,old,new,claim,note=None,tightened=None):
    d=dict(file='Verif/'+file,defn=defn,old=old,new=new,claim=claim)
    if note: d['note']=note
    if tightened: d['tightened']=tightened
    L.append(d)
R='Model/OdtRead.lean'; O='Model/OdsRead.lean'
e(R,'ensureScene','if r.novel.scenes.has id then .ok r else Rd.listScene { r with','if r.novel.scenes.has id then Rd.listScene r id else Rd.listScene { r with','C78_manuscript: a known scene is listed once more at each import')
e(R,'ensureChapter','if r.novel.chapters.has id then r\n  else','if r.novel.chapters.has id then { r with novel := { r.novel with srtChapters := r.novel.srtChapters ++ [id] } }\n  else','C78_manuscript: a known chapter is listed once more')
e(R,'msStop','s.setContent (Str.rstrip (r.cleanupScene r.text))','s.setContent (s.sceneContent.getD [] ++ Str.rstrip (r.cleanupScene r.text))','C78_manuscript: texts are appended')
e(R,'sdStop','desc := some (sdSplit r.text).2 })','desc := some (s.desc.getD [] ++ (sdSplit r.text).2) })','C78_sceneDesc: descriptions are appended')
e(R,'cdStop','{ ch with desc := some (Str.rstrip r.text) }','{ ch with desc := some (ch.desc.getD [] ++ Str.rstrip r.text) }','C78_chapterDesc: descriptions are appended')
e(R,'cdStop','if isBlankField ch.title then { ch with title := some r.text } else ch','{ ch with title := some (ch.title.getD [] ++ r.text) }','C78_chapterDesc: titles are appended')
e(R,'sdData','if isBlankField ch.title then r.onChapter id (fun ch => { ch with title := some (Str.strip s) }) else .ok r','r.onChapter id (fun ch => { ch with title := some (ch.title.getD [] ++ Str.strip s) })','C78_sceneDesc: titles are appended')
e(R,'msData','if ch.title.isNone then r.onChapter id (fun ch => { ch with title := some (Str.strip s) }) else .ok r','r.onChapter id (fun ch => { ch with title := some (ch.title.getD [] ++ Str.strip s) })','C78_manuscript: titles are appended')
e(R,'crStart','let n := if n.characters.has id then n\n            else','let n := if n.characters.has id then { n with srtCharacters := n.srtCharacters ++ [id] }\n            else','C78_characters: a known character is listed once more')
e(R,'setSection','{ c with bio := some text }','{ c with bio := some (c.bio.getD [] ++ text) }','C78_characters: the biography is appended')
e(R,'setSection','if sect = c!"goals" then { c with goals := some text }','if sect = c!"goals" then { c with goals := some text, notes := some (c.notes.getD [] ++ text) }','C78_characters: goals are appended to the notes')
e(O,'readCharList','rowsLoop c!"CrID:" {} charFromRow rows (n.characters, [])','rowsLoop c!"CrID:" {} charFromRow rows (n.characters, n.srtCharacters)','C78_charList: the list grows')
e(O,'readItemList','rowsLoop c!"ItID:" {} worldFromRow rows (n.items, [])','rowsLoop c!"ItID:" {} worldFromRow rows (n.items, n.srtItems)','C78_itemList: the list grows')
e(O,'putCell','if isSetCell old ∨ cell ≠ [] then some value else old','if isSetCell old ∨ cell ≠ [] then some (old.getD [] ++ value) else old','C78: cells are appended')
e(O,'putCellTags','then some (stringToList (some cell) exportDivider) else old','then some (old.getD [] ++ stringToList (some cell) exportDivider) else old','C78: tags are appended')
e(O,'charFromRow','isMajor := some (Str.contains (cellAt row 7) c!"Major")','isMajor := some (Str.contains (cellAt row 7) c!"Major" != c.isMajor.getD false)','C78_charList: the status of a character is toggled')
e(O,'sceneFromRow','match statusIndex (cellAt row 17) with | some i => some i | none => s.status','match statusIndex (cellAt row 17) with | some i => some i | none => s.status.map (· + 1)','C78_sceneList: the status grows')
e(O,'sceneFromRow','isReactionScene := some (Str.contains (Str.lower (cellAt row 5)) c!"r")','isReactionScene := s.isReactionScene.map (fun b => b != Str.contains (Str.lower (cellAt row 5)) c!"r")','C78_sceneList: toggled')
e(R,'weStart','if (w.get r.novel).has id then r.novel else','if (w.get r.novel).has id then w.add r.novel id else','C78_locations: a known location is listed once more')
e(R,'weStop','{ e with desc := some (Str.rstrip r.text) }','{ e with desc := some (e.desc.getD [] ++ Str.rstrip r.text) }','C78_locations: descriptions are appended')
