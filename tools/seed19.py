L=[]
def e(file,defn,old,new,claim,note=None,tightened=None):
    d=dict(file='Verif/'+file,defn=defn,old=old,new=new,claim=claim)
    if note: d['note']=note
    if tightened: d['tightened']=tightened
    L.append(d)
S='Props/C24_C25_Save.lean'; K='Model/OdfPackage.lean'; P='Model/Program.lean'; O='Model/OdtProof.lean'; R='Model/OdtRead.lean'; W='Model/OdtWriters.lean'
e(S,'odtComponents','[c!"manifest.rdf", c!"content.xml", c!"meta.xml", c!"mimetype", c!"settings.xml"','[c!"content.xml", c!"meta.xml", c!"mimetype", c!"settings.xml"','C76: the manifest lists a file that is not packed')
e(S,'odsComponents','[c!"content.xml", c!"meta.xml", c!"mimetype", c!"settings.xml", c!"styles.xml", c!"META-INF/manifest.xml"]\n\n/-- The files','[c!"mimetype", c!"content.xml", c!"meta.xml", c!"settings.xml", c!"styles.xml", c!"META-INF/manifest.xml"]\n\n/-- The files','C76_mimetype_not_first: the finding would be wrong')
e(P,'Machine.otherFiles','else odsFiles odsMimetype odsSettingsXml','else odsFiles odtMimetype odsSettingsXml','C76: spreadsheets with the media type of text documents')
e(P,'Machine.otherFiles','odtFiles odtMimetype odtSettingsXml odtManifestXml','odtFiles odtMimetype odtManifestXml odtSettingsXml','C76: settings and manifest swapped')
e(P,'Machine.otherFiles','else odsFiles odsMimetype odsSettingsXml odsManifestXml','else odsFiles odsMimetype odsSettingsXml odtManifestXml','C76: the manifest of the wrong type')
e(K,'odtManifestXml','manifest:full-path=\\"settings.xml\\" manifest:version=\\"1.2\\" />\\n','manifest:full-path=\\"Settings.xml\\" manifest:version=\\"1.2\\" />\\n','C76: a wrong name in the manifest')
e(K,'odsManifestXml',' <manifest:file-entry manifest:media-type=\\"text/xml\\" manifest:full-path=\\"meta.xml\\"/>\\n','','C76: a file is not listed')
e(K,'odsMimetype','c!"application/vnd.oasis.opendocument.spreadsheet"\n','c!"application/vnd.oasis.opendocument.spreadsheet\\n"\n','C76: a line end in mimetype')
e(K,'odtManifestRdf','<rdf:Description rdf:about=\\"content.xml\\">','<rdf:Description rdf:about=\\"contents.xml\\">','C76: RDF names a wrong file')
e(K,'odsSettingsXml4','config:name=\\"AutoCalculate\\" config:type=\\"boolean\\">true</config:config-item>','config:name=\\"AutoCalculate\\" config:type=\\"boolean\\">true</config:item>','C76: settings are not well-formed')
e(O,'proofConvert','Re.sub layoutTag [] (replaceAll (xmlReplacements ++ proofReplacements','Re.sub layoutTag [] (replaceAll (proofReplacements','C31/C54: markup is not escaped in proof reading documents')
e(O,'proofConvert','      (balanceText (markupTags (n.languages.getD [])) t))','      t)','C31_proof: overlapping tags are not balanced in proof reading documents')
e(O,'proofReplacements','[(c!"[/i]", c!"</text:span>"), (c!"[/b]", c!"</text:span>")]','[(c!"[/i]", c!"</text:span>"), (c!"[/b]", [])]','C31_proof: bold is not closed')
e(O,'proofTemplates','c!"<text:p text:style-name=\\"scene_20_mark\\">[/ScID]</text:p>\\n"','c!"<text:p text:style-name=\\"scene_20_mark\\">[/ScID]</text:h>\\n"','C31_proof: the mark is closed wrongly')
e(O,'proofStyles','italicStyle (languages.length + 1), boldStyle (languages.length + 2)','italicStyle (languages.length + 2), boldStyle (languages.length + 1)','C54/C73: bold and italic styles swapped')
e(W,'todoTemplates','    todoChapterEnd := sectionEnd\n    fileFooter := contentFooter }\n\n/-- `OdtWTodo`','    fileFooter := contentFooter }\n\n/-- `OdtWTodo`','C31_notes: chapter sections of to-do lists are not closed')
e(R,'Rd.cleanupTags','(c ++ c!"\\n" ++ o) c!"\\n")','(c ++ c!"\\n" ++ o) [])','C43: line ends between paragraphs of the same format are lost')
e(R,'Rd.cleanupScene','(c!"i" :: c!"b" ::','(c!"i" ::','C43: bold over several paragraphs is not joined')
e(R,'msComment','      | none => r\n    else r.push (c!"/*" ++ Str.strip s ++ c!"*/")\n','      | none => r\n    else r.push (c!"/*" ++ s ++ c!"*/")\n','C31/C43: comments are not stripped')
