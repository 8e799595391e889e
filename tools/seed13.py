L=[]
def e(file,defn,old,new,claim,note=None,tightened=None):
    d=dict(file='Verif/Model/'+file,defn=defn,old=old,new=new,claim=claim)
    if note: d['note']=note
    if tightened: d['tightened']=tightened
    L.append(d)
P='Program.lean'
e(P,'Novel.withLanguages','if n.languages = none then n.getLanguages else n','n.getLanguages','C67: languages are determined again',note='the text is the same for projects whose languages are registered')
e(P,'odtContent','else if s = c!"_manuscript" then formattedText (odtManuscript (formattedEnv w.name w.path)) n.withLanguages','else if s = c!"_manuscript" then exportText (formattedEnv w.name w.path) n.withLanguages','C67: a manuscript without sections is exported')
e(P,'odtContent','formattedText (odtNotes (formattedEnv w.name w.path)) n.withLanguages','formattedText (odtTodo (formattedEnv w.name w.path)) n.withLanguages','C67: the to-do lists instead of the notes are exported')
e(P,'odtContent','formattedText (odtManuscript (formattedEnv w.name w.path)) n.withLanguages','formattedText (odtManuscript (formattedEnv w.name w.path)) n','C67: languages not determined before the export')
e(P,'odtContent','getText (odtItems (plainEnv w.name w.path)) n','getText (odtLocations (plainEnv w.name w.path)) n','C67: locations instead of items')
e(P,'odsContent','getText (odsLocList (plainEnv w.name w.path)) n','getText (odsItemList (plainEnv w.name w.path)) n','C67: items instead of locations')
e(P,'content','if c.ext = c!".odt" then','if c.ext = c!".ods" then','C67: spreadsheets and text documents exchanged')
e(P,'otherFiles','(stylesText odtStylesXml w.sysLng w.sysCtr n) (metaText w.now n) w.rdf','(stylesText odtStylesXml w.sysCtr w.sysLng n) (metaText w.now n) w.rdf','C67: language and country exchanged',note='only visible for projects without a language')
e(P,'otherFiles','(stylesText odtStylesXml w.sysLng w.sysCtr n) (metaText w.now n) w.rdf','(metaText w.now n) (stylesText odtStylesXml w.sysLng w.sysCtr n) w.rdf','C67: styles and metadata exchanged')
e(P,'odtFile','w.unzip archive c!"styles.xml"','w.unzip archive c!"meta.xml"','C67: wrong member of the archive is read')
e(P,'odtFile','if m = [] then .ok none else (need .parseError (parseWithCdata m)).map some','(need .parseError (parseDoc m)).map some','C67: CDATA sections not read')
e(P,'readText','then readFormatted (manuscriptReader 1) f n','then readFormatted (manuscriptReader 0) f n','C67: notes become normal scenes')
e(P,'readText','else if s = c!"_scenes" then plain sceneDescReader','else if s = c!"_scenes" then plain chapterDescReader','C67: wrong reader for scene descriptions')
e(P,'readText','then plain (worldReader itemKind)','then plain (worldReader locationKind)','C67: items become locations')
e(P,'readText','if s = c!"_proof" then readFormatted proofReader f n','if s = c!"_proof" then readFormatted (manuscriptReader 0) f n','C67: proofs read as manuscripts')
e(P,'readText','(readOdt h f n).map fun m => (m, false)','(readOdt h f {}).map fun m => (m, false)','C67: the project is replaced')
e(P,'readText','else if s = c!"_todo" then readFormatted (manuscriptReader 2) f n','else if s = c!"_todo" then (readOdt (manuscriptReader 2) f n).map fun m => (m, false)','C67: documents are not prepared and split')
e(P,'readSheet','if s = c!"_charlist" then readCharList root n','if s = c!"_charlist" then readCharList root {}','C67: the project is replaced')
e(P,'readSheet','else if s = c!"_itemlist" then readItemList root n','else if s = c!"_itemlist" then readLocList root n','C67: items become locations')
e(P,'readYw7','.ok ((some x, n), false)','.ok ((none, n), false)','C67: the tree is not kept')
e(P,'readYw7','.ok ((some x, n), false)','.ok ((some x, n), true)','C67: warning without a reason')
e(P,'parse','.ok ((n.1, r.1), r.2)','.ok ((none, r.1), r.2)','C67: the tree is lost')
e(P,'parse','.ok ((n.1, r.1), r.2)','.ok ((n.1, r.1), true)','C67: warning without a reason')
e(P,'program','tree := fun old n => writeTree w.sysLng w.sysCtr n.2 (old.bind (·.1))','tree := fun _ n => writeTree w.sysLng w.sysCtr n.2 none','C67: elements unknown to PyWriter are lost')
e(P,'program','tree := fun old n => writeTree w.sysLng w.sysCtr n.2','tree := fun old n => writeTree w.sysCtr w.sysLng n.2','C67: language and country exchanged',note='only visible for projects without a language')
e(P,'program','comps := fun c => if c.ext = c!".odt" then odtComponents else odsComponents','comps := fun _ => odsComponents','C67: member of the archive missing')
e(P,'program','hasChapters := fun n => !n.2.chapters.isEmpty','hasChapters := fun n => n.2.chapters.isEmpty','C67: CDATA sections are not made')
