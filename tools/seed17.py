L=[]
def e(file,defn,old,new,claim,note=None,tightened=None):
    d=dict(file=('Verif/' if '/' in file else 'Verif/Model/')+file,defn=defn,old=old,new=new,claim=claim)
    if note: d['note']=note
    if tightened: d['tightened']=tightened
    L.append(d)
X='Export.lean'
W='OdtWriters.lean'
S='OdtSheets.lean'
e(X,'statusName','else if -6 ≤ i then','else if -5 ≤ i then','C73: another number has no name')
e(X,'statusNames','c!"2nd Edit", c!"Done"]','c!"2nd Edit"]','C73: the last state has no name')
e(X,'statusName','match (if 0 ≤ i then statusNames[i.toNat]? else if -6 ≤ i then statusNames[(i + 6).toNat]? else none) with','match (if 0 ≤ i then statusNames[i.toNat]? else none) with','C73: negative numbers fail')
e(X,'Base.scene','let status ← statusName s.status','let status := (statusName s.status).toOption.getD []','C73: unknown states do not block an export')
e(W,'sceneDescTemplates','c!"<text:p text:style-name=\\"First_20_line_20_indent\\">$Desc</text:p>\\n" ++ sectionEnd','c!"<text:p text:style-name=\\"Text_20_body\\">$Desc</text:p>\\n" ++ sectionEnd','C74: appended scenes begin a block')
e(W,'sceneDescTemplates','c!"<text:p text:style-name=\\"Text_20_body\\">$Desc</text:p>\\n" ++ sectionEnd\n    appendedScene','c!"<text:p text:style-name=\\"Text_20_body\\">$Notes</text:p>\\n" ++ sectionEnd\n    appendedScene','C74: notes instead of descriptions')
e(W,'sceneDescTemplates','chapter := chSection ++ linkedHeading c!"2"\n    scene','chapter := chSection ++ linkedHeading c!"1"\n    scene','C74: level of the chapter headings')
e(W,'linkedHeading','#ChID:$ID%7Cregion','#ChID:$ID','C74: link targets')
e(W,'linkedHeading','#ChID:$ID%7Cregion\\">$Title</text:a>','#ChID:$ID%7Cregion\\">$Title','C74: link not closed')
e(W,'chapterDescTemplates','chapter := chSection ++ linkedHeading c!"2" ++ c!"<text:p text:style-name=\\"Text_20_body\\">$Desc</text:p>\\n" ++ sectionEnd','chapter := chSection ++ linkedHeading c!"2" ++ c!"<text:p text:style-name=\\"Text_20_body\\">$Desc</text:p>\\n"','C74: section not closed')
e(W,'partDescTemplates','part := chSection ++ linkedHeading c!"1" ++','part := chSection ++ linkedHeading c!"2" ++','C74: level of the part headings')
e(W,'starsDivider','def starsDivider : Str := c!"<text:p text:style-name=\\"Heading_20_4\\">* * *','def starsDivider : Str := c!"<text:p text:style-name=\\"Heading_20_4\\">***','C74: divider')
e(S,'elementSheet','$Title$AKA</text:h>','$AKA$Title</text:h>','C74: names swapped')
e(S,'akaText','c!" (\\"" ++ aka ++ c!"\\")"','c!" (" ++ aka ++ c!")"','C74: alternate name without quotation marks')
e(S,'personSheet','personPart c!"Bio" c!"bio" c!"Bio"','personPart c!"Bio" c!"bio" c!"Goals"','C74: goals instead of bio')
e(S,'personSheet',' ++ personPart c!"Notes" c!"notes" c!"Notes" ++ sectionEnd',' ++ sectionEnd','C74: notes missing')
e(S,'withFullName','c!"/" ++ name.getD []','name.getD []','C74: slash missing')
e(S,'odtCharacters','.ok (withFullName c.fullName (withAka c.aka m))','.ok (withAka c.aka m)','C74: full name without slash')
e(S,'odtItems','.ok (withAka l.aka m) }\n\n/-- A section','.ok m }\n\n/-- A section','C74: item alternate names')
e('Escape.lean','odtConvert','replaceAll (if quick then xmlReplacements else xmlReplacements ++ odtLineBreaks) t','replaceAll (xmlReplacements ++ odtLineBreaks) t','C74: line breaks in headings')
e('Escape.lean','odtConvert','replaceAll (if quick then xmlReplacements else xmlReplacements ++ odtLineBreaks) t','replaceAll (if quick then xmlReplacements else odtLineBreaks ++ xmlReplacements) t','C74: tags escaped')
