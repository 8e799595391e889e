L=[]
def e(file,defn,old,new,claim,note=None,tightened=None):
    d=dict(file='Verif/Model/'+file,defn=defn,old=old,new=new,claim=claim)
    if note: d['note']=note
    if tightened: d['tightened']=tightened
    L.append(d)
P='Samples.lean'
e(P,'dataClass','some c!"_data", c!".xml"','some c!"_data", c!".yw7"','C70: the data files get another ending')
e(P,'dataSections','| some c, some l, some i => .ok (c, l, i)','| some c, some l, some i => .ok (l, c, i)','C70: characters and locations exchanged')
e(P,'dataSections','find c!"ITEMS" root.kids with','find c!"SCENES" root.kids with','C70: scenes instead of items')
e(P,'writeData','(splitext p).1','p','C70: the names of the files have the extension in the middle')
e(P,'writeData','(splitext p).1','[]','C70: all projects write the same files')
e(P,'writeData','env.tree none n','env.tree (some n) n',"C70: the tree of the project is changed, not a new one",note='the object has no tree; with the tree of the project the sections would be equal in most cases')
e(P,'exportData','    check env source target\n','','C70: no check of the source')
e(P,'exportData','writeData env target n.1','writeData env source n.1','C70: files are named after the source')
e(P,'exportData','    writeData env target n.1\n','','C70: nothing is written, but success reported')
e(P,'dataConverter','exportTargets ++ [dataClass]','exportTargets','C70: the class is not registered')
e(P,'runData','if t.cls = dataClass then exportData env s t fs fl else exportFromYw env s t fs fl','exportFromYw env s t fs fl','C70: a document is written')
e(P,'runData','.error e => (.err e, fs, fl)','.error e => (.err e, fun _ => none, fl)','C70: files are lost')
e(P,'scripts','⟨c!"cnv_chapters", some yw7Converter, c!"_chapters"⟩','⟨c!"cnv_chapters", some yw7Converter, c!"_parts"⟩','C70: wrong document')
e(P,'scripts','⟨c!"cnv_brief_synopsis", some yw7Exporter','⟨c!"cnv_brief_synopsis", some yw7Importer','C70: wrong converter')
e(P,'scripts','c!"_charlist"','c!"_characters"','C70: wrong document')
e(P,'scripts','⟨c!"export_odt", some yw7Converter, c!""⟩','⟨c!"export_odt", some yw7Converter, c!"_odt"⟩','C70: nothing is exported')
e(P,'Script.run','(some s.suffix)','none','C70: the suffix is not used')
S='Save.lean'
e(S,'dataFilesWrite','  writeDataFile (base ++ c!"_Items.xml") t.2.2\n','  writeDataFile (base ++ c!"_Items.xml") t.2.1\n','C70: locations as items')
e(S,'dataFilesWrite','  writeDataFile (base ++ c!"_Locations.xml") t.2.1\n','','C70: no locations')
e(S,'dataFilesWrite','  postprocessFile (base ++ c!"_Items.xml") hasChapters','  pure ()','C70: items without CDATA',note='if still read back')
e(S,'dataFilesWrite','  writeDataFile (base ++ c!"_Characters.xml") t.1\n','  writeDataFile (base ++ c!".yw7") t.1\n','C70: the project is overwritten')
e(S,'writeDataFile','fun _ => raise (fileError c!"File is write protected" path)','fun _ => pure ()','C70: failures are not reported')
