L=[]
def e(file,defn,old,new,claim,note=None,tightened=None):
    d=dict(file=('Verif/' if '/' in file else 'Verif/Model/')+file,defn=defn,old=old,new=new,claim=claim)
    if note: d['note']=note
    if tightened: d['tightened']=tightened
    L.append(d)
W='OdtWriters.lean'
e(W,'synopsisTemplates','    scene := c!"<text:p text:style-name=\\"Text_20_body\\">$Title</text:p>\\n"','    scene := c!"<text:p text:style-name=\\"Text_20_body\\">$Desc</text:p>\\n"','C71: descriptions instead of titles')
e(W,'synopsisTemplates','    part := c!"<text:h text:style-name=\\"Heading_20_1\\" text:outline-level=\\"1\\">$Title</text:h>\\n"\n    chapter := c!"<text:h text:style-name=\\"Heading_20_2\\" text:outline-level=\\"2\\">$Title</text:h>\\n"\n    scene := c!"<text:p text:style-name=\\"Text_20_body\\">$T','    part := c!"<text:h text:style-name=\\"Heading_20_2\\" text:outline-level=\\"2\\">$Title</text:h>\\n"\n    chapter := c!"<text:h text:style-name=\\"Heading_20_2\\" text:outline-level=\\"2\\">$Title</text:h>\\n"\n    scene := c!"<text:p text:style-name=\\"Text_20_body\\">$T','C71: part headings of the wrong level')
e(W,'synopsisTemplates','    chapter := c!"<text:h text:style-name=\\"Heading_20_2\\" text:outline-level=\\"2\\">$Title</text:h>\\n"\n    scene := c!"<text:p text:style-name=\\"Text_20_body\\">$T','    scene := c!"<text:p text:style-name=\\"Text_20_body\\">$T','C71: no chapter headings')
e(W,'odtSynopsis','exporterOf e e.plainBase synopsisTemplates','exporterOf e e.plainBase { synopsisTemplates with notExportedScene := synopsisTemplates.scene }','C71: scenes that are not for export are shown')
e(W,'odtSynopsis','exporterOf e e.plainBase synopsisTemplates','exporterOf e e.plainBase { synopsisTemplates with unusedChapter := synopsisTemplates.chapter }','C71: unused chapters are shown')
e(W,'odtSynopsis','exporterOf e e.plainBase synopsisTemplates','{ exporterOf e e.plainBase synopsisTemplates with chapterMapping := chapterSuppressed e.plainBase }','C71: suppressed titles are not shown')
e(W,'odtSynopsis','exporterOf e e.plainBase synopsisTemplates','exporterOf e e.plainBase { synopsisTemplates with appendedScene := c!" $Title" }','C71: appended scenes are not in paragraphs')
X='Export.lean'
e(X,'sceneTemplate','if s.scType = some 3 ∨ chType = some 3 then','if s.scType = some 3 then','C71: scenes of unused chapters')
e(X,'sceneTemplate','if s.doNotExport = some true ∨ notExported = true then','if notExported = true then','C71: scenes that are not for export')
e(X,'chapterTemplate','(opt x.unusedChapter, false)','(some x.chapter, false)','C71: unused chapters')
R='Yw7Read.lean'
e(R,'readChapter','desc := textOf c!"Desc" ks, kwVar := [],','desc := some [Char.ofNat 13], kwVar := [],','C72: a carriage return in the description')
e(R,'readHM','some (zfill2 s)','some (Char.ofNat 0 :: s)','C72/C22: an illegal character in the time')
e(R,'readCharacter','notes := textOf c!"Notes" ks,','notes := some c!"\\r",','C72: a carriage return in the notes')
e(R,'readWorld','aka := textOf c!"AKA" ks','aka := some [Char.ofNat 0xFFFF]','C72: an illegal character')
e(R,'readScene','notes := textOf c!"Notes" ks','notes := (textOf c!"Notes" ks).map (c!"\\r" ++ ·)','C72: line ends of another system')
