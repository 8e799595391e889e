L=[]
def e(file,defn,old,new,claim,note=None):
    d=dict(file='Verif/Model/'+file,defn=defn,old=old,new=new,claim=claim)
    if note: d['note']=note
    L.append(d)
P='OdtProof.lean'; X='OdtXref.lean'; T='OdtText.lean'; W='OdtWriters.lean'
e(P,'proofReplacements','Str.ofNat (languages.length + 2)','Str.ofNat (languages.length + 1)','C54: strong emphasis comes back as emphasis')
e(P,'italicStyle','fo:font-style=\\"italic\\" ','fo:font-style=\\"normal\\" ','C54: emphasis lost on import')
e(P,'proofStyles','italicStyle (languages.length + 1), boldStyle (languages.length + 2)','italicStyle (languages.length + 2), boldStyle (languages.length + 1)','C54: emphasis and strong emphasis swapped')
e(P,'proofStyles','languageStyles 1 languages ++\n    [','languageStyles 1 languages.tail ++\n    [','C54: a language style is missing')
e(P,'proofTemplates','[/ScID]','[ScID]','C54: end mark of a scene is a start mark')
e(P,'proofText','.ok (h ++ c ++ [x.fileFooter]).flatten\n','.ok (h ++ c).flatten\n','C54: document without end')
e(X,'xrefSceneMapping','sceneMapping n scId (i + 1) 0 0','sceneMapping n scId i 0 0','C55: scene numbers start at 0')
e(X,'xrefSceneMapping','(Str.ofNat (c + 1))','(Str.ofNat c)','C55: chapter numbers start at 0')
e(X,'xrefSceneTemplate','else if s.scType = some 3 then xrefSceneAside c!"unused" c!"Unused"\n','','C55: unused scenes look like normal ones')
e(X,'xrefScenes','.ok (Template.subst (xrefSceneTemplate s) m :: rest)','.ok (rest ++ [Template.subst (xrefSceneTemplate s) m])','C55: scenes in reverse order')
e(X,'xrefSections','if ids = [] then xrefSections heading mapping lines r','if ids.length ≤ 1 then xrefSections heading mapping lines r','C55: elements that occur in one scene only have no section')
e(X,'xrefText','scenes x.scnPerLoc','scenes x.scnPerItm','C55: locations listed with scenes of items')
e(X,'xrefText','(xrefWorld c!"items" c!"ItID")','(xrefWorld c!"items" c!"LcID")','C55: items linked to locations')
e(X,'xrefCharacter','$Title</text:a> $FullName','$FullName</text:a> $Title','C55: names swapped')
e(X,'listIndex','.ok (i + 1)','.ok i','C55: numbers wrong')
e(T,'closeLoop','closeLoop op cl f (l ++ cl) true','closeLoop op cl f (l ++ cl) o','C56/C43: formatting does not reach over line breaks')
e(T,'balanceTag','if isOpen then\n','if !isOpen then\n','C56/C43')
e(T,'balanceTag','(Str.replace line3 (op ++ cl) [], r.2)','(line3, r.2)','C43/C31: empty formattings stay',note='may be harmless')
e(T,'layoutTag','c ∈ c!"h|crsu"','c ∈ c!"h|crsui"','C56/C43: emphasis marks removed')
e(T,'spanReplacements','(c!"[b]", c!"<text:span text:style-name=\\"Strong_20_Emphasis\\">")','(c!"[b]", c!"<text:span text:style-name=\\"Emphasis\\">")','C56: strong emphasis shown as emphasis')
e(T,'langReplacements','langReplacements (i + 1) r','langReplacements i r','C56: all languages get the style of the first one')
e(T,'formattedConvert','replaceAll (xmlReplacements ++ reps ++ langReplacements 1 languages)','replaceAll (reps ++ xmlReplacements ++ langReplacements 1 languages)','C56/C43: the markup is escaped')
e(T,'removeInlineCode','c!"epub", c!"mobi", ','','C28/C56: code for e-books is exported',note='outside the texts C56 speaks about')
e(T,'odtExportConvert','(if quick then text else some (removeInlineCode text))','text','C56: inline code is exported')
e(T,'quotations','let t2 := Str.replace t1 c!"\\"Text_20_body\\">&gt; " c!"\\"Quotations\\">"','let t2 := t1','C56: quotations at the beginning of a text body are not marked')
e(T,'noteMatch','e = \'e\' ∨ e = \'f\'','e = \'f\'','C56: endnotes are shown as comments')
e(T,'replaceNote','let counter := st.1 + 1','let counter := st.2','C56: notes have wrong numbers')
e(T,'replaceNote','let cls := if foot then c!"footnote" else c!"endnote"','let cls := if foot then c!"endnote" else c!"footnote"','C56: footnotes and endnotes swapped')
e(T,'replaceNote','let label := if star then c!"*" else Str.ofNat (st.2 + 1)','let label := if star then Str.ofNat (st.2 + 1) else Str.ofNat (st.2 + 1)','C56: footnotes without number are numbered',note='notes with a star are not in the texts C56 speaks about')
e(T,'convertNotes','(m.drop 2).take (m.length - 4)','(m.drop 2).take (m.length - 3)','C56: comments have an additional letter')
e(T,'convertNotes','Str.replace (Str.replace t3 c!"@r@" c!"\\r") c!"@n@" c!"\\n"','t3','C56: line breaks come out as @n@')
e(W,'exportTemplates','appendedScene := c!"<text:p text:style-name=\\"First_20_line_20_indent\\">$SceneContent</text:p>\\n"\n    sceneDivider := starsDivider\n    fileFooter := contentFooter }\n\n/-- `OdtWExport`','appendedScene := c!"<text:p text:style-name=\\"Text_20_body\\">$SceneContent</text:p>\\n"\n    sceneDivider := starsDivider\n    fileFooter := contentFooter }\n\n/-- `OdtWExport`','C56: appended scenes begin like new ones')
e(W,'odtExport','{ exporterOf e e.exportBase exportTemplates with chapterMapping := chapterSuppressed e.exportBase }','exporterOf e e.exportBase exportTemplates','C56: suppressed titles are shown')
e('Yw7Text.lean','universalNewlines',"| '\\r' :: r => '\\n' :: universalNewlines r","| '\\r' :: r => universalNewlines r",'C57: lines that end with a carriage return run together')
L[-1]['tightened']=['C57_project','C57_configuration']
