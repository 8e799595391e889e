L=[]
def e(file,defn,old,new,claim,note=None,tightened=None):
    d=dict(file='Verif/Model/'+file,defn=defn,old=old,new=new,claim=claim)
    if note: d['note']=note
    if tightened: d['tightened']=tightened
    L.append(d)
O='DocOpen.lean'
e('MainTk.lean','Window.initDir','if d = [] then c!"./" else d','c!"./"','C63: the dialog starts in the wrong directory',tightened=['C63_dialog'])
e('Msgfmt.lean','addMsg','(c ++ [4] ++ id)','(c ++ id)','C60: messages with contexts are not found',tightened=['C60_context_spreads'])
e('Msgfmt.lean','keyword','id := s.id ++ [0]','id := s.id','C60: messages with plurals are not found',tightened=['C60_plural'])
e(O,'normComps','comp = [] ∨ comp = c!"."','comp = []','C65: dots stay')
e(O,'normComps','comp = [] ∨ comp = c!"."','comp = c!"."','C65: double slashes stay')
e(O,'normComps','(absolute = false ∧ new = [])','(absolute = true ∧ new = [])','C65: relative paths lose their first ..')
e(O,'normComps',' ∨ new.getLast? = some c!".."','','C65: ../.. becomes empty')
e(O,'normComps','normComps absolute new.dropLast r','normComps absolute new r','C65: a/../b becomes a/b')
e(O,'initialSlashes','then 2 else 1','then 1 else 2','C65: number of slashes at the beginning')
e(O,'initialSlashes',' && !Str.startsWith p c!"///"','','C65: three slashes become two')
e(O,'normPath','if p = [] then c!"."','if p = [] then []','C65: the empty path')
e(O,'normPath','if text = [] then c!"." else text','text','C65: a/.. becomes empty')
e(O,'normalPath','normPath (p.getD [])','p.getD []','C65: not normalised')
e(O,'openDocument','if (startfile.map (· p)).getD false then .windows p\n  else ','','C65: Windows ignored')
e(O,'openDocument','.shell (c!"xdg-open \\"" ++ p ++ c!"\\"")','.shell (c!"xdg-open " ++ p)','C65: path not quoted')
e(O,'openDocument','(startfile.map (· p)).getD false','(startfile.map (· p)).getD true','C65: nothing opened on other systems')
e(O,'passable','decide (Char.ofNat 0 ∉ command)','true','C65: exception escapes (model of os.system)')
W='OdtWriters.lean'
e(W,'noteSceneTemplate','text:outline-level=\\"3\\">$Title</text:h>\\n" ++ scSection ++\n  c!"<text:p text:style-name=\\"Text_20_body\\">$SceneContent</text:p>\\n" ++ sectionEnd\n\n/-- The templates of `OdtWNotes`','text:outline-level=\\"3\\">$Title</text:h>\\n" ++ chSection ++\n  c!"<text:p text:style-name=\\"Text_20_body\\">$SceneContent</text:p>\\n" ++ sectionEnd\n\n/-- The templates of `OdtWNotes`','C66: scenes marked as chapters')
e(W,'notesTemplates','notesScene := noteSceneTemplate\n    notesChapterEnd := sectionEnd','notesScene := noteSceneTemplate','C66: chapter sections not closed')
e(W,'notesTemplates','notesScene := noteSceneTemplate','todoScene := noteSceneTemplate','C66: to-do lists in the notes')
e(W,'notesTemplates','notesPart := chSection ++ ','notesPart := ','C66: parts of notes are not marked')
e(W,'todoTemplates','todoChapter := chSection','todoChapter := scSection','C66: chapters marked as scenes')
e(W,'todoTemplates','todoScene := noteSceneTemplate','todoScene := noteSceneTemplate\n    scene := noteSceneTemplate','C66: normal scenes in the to-do document')
e(W,'odtTodo','withSummary e e.formattedBase todoTemplates','withSummary e e.formattedBase notesTemplates','C66: to-do document contains the notes')
e('Export.lean','chapterTemplate','(if ch.chLevel = some 1 then opt x.notesPart else opt x.notesChapter, false)','(if ch.chLevel = some 1 then opt x.notesPart else opt x.notesPart, false)','C66: chapters written as parts',note='the document remains readable: heading level only')
e('Export.lean','sceneTemplate','else if s.scType = some 1 then opt x.notesScene','else if s.scType = some 1 ∨ chType = some 1 then opt x.notesScene','C66: other scenes in chapters of notes are exported as notes')
