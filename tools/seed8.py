L=[]
def e(file,defn,old,new,claim,**k): L.append(dict(file='Verif/'+file,defn=defn,old=old,new=new,claim=claim,**k))
R='Model/OdtRead.lean'; W='Model/OdtWriters.lean'
e(R,'startScene','let r\' ← ensureScene { r with scId := some id } id','let r\' ← ensureScene r id','C50: scene section not entered, descriptions lost')
e(R,'startScene','r\'.onScene id (fun s => { s with scType := some type })','r\'.onScene id (fun s => { s with scType := some type, desc := none })','C50: description deleted before reading (others of the project unaffected)', note='may be masked: description is overwritten at the end of the section')
e(R,'ensureScene','if r.novel.scenes.has id then .ok r else','if false then .ok r else','C50: existing scene replaced by a new one')
e(R,'ensureChapter','if r.novel.chapters.has id then r\n','if False then r\n','C50: existing chapter replaced')
e(R,'startChapter','{ ch with chType := some type })','{ ch with chType := some type, srtScenes := [] })','C50: scenes of the chapter lost')
e(R,'baseStart','if Str.startsWith (v.getD []) c!"ScID" then startScene','if Str.startsWith (v.getD []) c!"ScId" then startScene','C50: scene sections not recognised')
e(R,'baseStart','else if tag = c!"s" then .ok (r.push c!" ")','else if tag = c!"s" then .ok r','C50: repeated blanks lost (no s elements are written)')
e(R,'sdData','if r.scId.isSome then .ok (r.push s)','if r.scId.isSome then .ok (r.push (Str.strip s))','C50: blanks at line ends lost in scene descriptions')
e(R,'sdData','if isBlankField ch.title then r.onChapter','if !isBlankField ch.title then r.onChapter','C50: chapter titles overwritten')
e(R,'sdSplit','  else (none, Str.rstrip text)\n','  else (none, Str.strip text)\n','C50: leading white space of scene descriptions lost')
e(R,'sdSplit','if Str.startsWith text c!"/*" then','if Str.contains text c!"/*" then','C50: descriptions with a comment inside are split')
e(R,'sdStop','.ok { r\' with lines := [], scId := none }\n    else if tag = c!"p" then .ok (r.push c!"\\n")\n    else .ok r\n  | none => if r.chId.isSome','.ok { r\' with scId := none }\n    else if tag = c!"p" then .ok (r.push c!"\\n")\n    else .ok r\n  | none => if r.chId.isSome','C50: text of previous scenes repeated')
e(R,'sdStop','desc := some (sdSplit r.text).2 })\n      .ok','notes := some (sdSplit r.text).2 })\n      .ok','C50: descriptions stored as notes')
e(R,'cdStop','let r\' ← r.onChapter id (fun ch => { ch with desc := some (Str.rstrip r.text) })\n      .ok { r\' with lines := [], chId := none }','let r\' ← r.onChapter id (fun ch => { ch with desc := some (Str.rstrip r.text) })\n      .ok { r\' with chId := none }','C50: descriptions accumulate')
e(R,'cdStop','else if tag = c!"h1" ∨ tag = c!"h2" then do','else if tag = c!"h1" then do','C50: chapter title becomes part of the description')
e(R,'cdStop','if isBlankField ch.title then { ch with title := some r.text } else ch)','{ ch with title := some r.text })','C50: chapter title rewritten')
e(R,'chapterDescReader','.ok (if r.chId.isSome then r.push (Str.strip s) else r)','.ok (if r.chId.isSome then r.push s else r)','C50: none (stripping dropped makes the text more faithful)',note='survival possible only if the claim is up to blanks')
e(W,'linkedHeading','$Title</text:a></text:h>\\n"','$Title</text:a></text:p>\\n"','C50: malformed document')
e(W,'linkedHeading','xlink:href=\\"../${ProjectName}_manuscript.odt#ChID:$ID%7Cregion\\">$Title','xlink:href=\\"../${ProjectName}_manuscript.odt#ChID:$ID%7Cregion\\">$Desc','C50: description in the heading')
e(W,'sceneDescTemplates','c!"<text:p text:style-name=\\"Text_20_body\\">$Desc</text:p>\\n" ++ sectionEnd\n    appendedScene','c!"<text:p text:style-name=\\"Text_20_body\\">$SceneContent</text:p>\\n" ++ sectionEnd\n    appendedScene','C50: scene content exported as description')
e(W,'sceneDescTemplates','c!"<text:p text:style-name=\\"First_20_line_20_indent\\">$Desc</text:p>\\n" ++ sectionEnd\n    sceneDivider','c!"<text:p text:style-name=\\"First_20_line_20_indent\\">$Title</text:p>\\n" ++ sectionEnd\n    sceneDivider','C50: description of appended scenes replaced by the title')
e(W,'sceneDescTemplates','sceneDivider := starsDivider\n    chapterEnd := sectionEnd\n    fileFooter := contentFooter }\n\n/-- `OdtWSceneDesc`','sceneDivider := starsDivider\n    fileFooter := contentFooter }\n\n/-- `OdtWSceneDesc`','C50: chapter section not closed')
e(W,'sceneDescTemplates','part := chSection ++ c!"<text:h text:style-name=\\"Heading_20_1\\" text:outline-level=\\"1\\">$Title</text:h>\\n"\n    chapter := chSection ++ linkedHeading','part := c!"<text:h text:style-name=\\"Heading_20_1\\" text:outline-level=\\"1\\">$Title</text:h>\\n"\n    chapter := chSection ++ linkedHeading','C50: part section not opened')
e(W,'chapterDescTemplates','chapter := chSection ++ linkedHeading c!"2" ++','chapter := scSection ++ linkedHeading c!"2" ++','C50: chapter descriptions marked as scenes')
e(W,'partDescTemplates','part := chSection ++ linkedHeading c!"1" ++ c!"<text:p text:style-name=\\"Text_20_body\\">$Desc','part := chSection ++ linkedHeading c!"1" ++ c!"<text:p text:style-name=\\"Text_20_body\\">$Title','C50: part description replaced by the title')
e(W,'partDescTemplates','    part := chSection ++ linkedHeading c!"1" ++','    chapter := chSection ++ linkedHeading c!"1" ++','C50: chapters exported instead of parts')
