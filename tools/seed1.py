G='Verif/Model/Globals.lean'; E_='Verif/Model/Escape.lean'; N='Verif/Model/Novel.lean'; S='Verif/Model/Splitter.lean'; X='Verif/Model/Xref.lean'; LA='Verif/Model/Languages.lean'; T='Verif/Model/Yw7Tree.lean'; W='Verif/Model/Yw7Write.lean'; R='Verif/Model/Yw7Read.lean'
L=[]
def b(file,defn,old,new,claim,**k): L.append(dict(file=file,defn=defn,old=old,new=new,claim=claim,**k))
b(G,'stringToListLoop','if e ≠ [] ∧ e ∉ acc then','if e ∉ acc then','C02: no empty element')
b(G,'stringToListLoop','if e ≠ [] ∧ e ∉ acc then','if e ≠ [] then','C02: no repeated element')
b(G,'stringToListLoop','stringToListLoop (acc ++ [e]) r','stringToListLoop (e :: acc) r','C02: order of first occurrence')
b(G,'stringToListLoop','let e := Str.strip e\n','let e := Str.rstrip e\n','C02: elements are stripped')
b(G,'createIdLoop','createIdLoop elements fuel (i + 1)','createIdLoop elements fuel (i + 2)','C01: smallest unused ID')
b(G,'createId','(elements.length + 1) 1).getD','(elements.length + 1) 0).getD','C01: IDs start at 1')
b(G,'listToString','Str.join divider l','Str.join (divider ++ c!" ") l','C03: list survives text form')
b(E_,'xmlReplacements','[(c!"&", c!"&amp;"), (c!">", c!"&gt;"), (c!"<", c!"&lt;"), (c!"\'", c!"&apos;"),\n   (c!"\\"", c!"&quot;")]','[(c!">", c!"&gt;"), (c!"<", c!"&lt;"), (c!"\'", c!"&apos;"),\n   (c!"\\"", c!"&quot;"), (c!"&", c!"&amp;")]','C04: ampersand escaped last')
b(E_,'odsReplacements','(c!"\'", c!"&apos;"), (c!">", c!"&gt;"),','(c!"\'", c!"&apos;"),','C04: > not escaped in ODS')
b(E_,'odsConvert','(Str.rstrip t)','t','C04/C32: trailing space kept in ODS cells')
b(N,'wordCountOf','additionalWordLimits c!" " text','additionalWordLimits [] text','C05: dashes separate words',note='word count semantics of dashes')
b(N,'noWordLimits','(alt (lit c!"-") (bolLit c!">"))','(bolLit c!">")','C05: hyphens do not separate',note='only changes words consisting of hyphens')
b(N,'nonLetters','(alt (lit c!"\\n") (lit c!"\\r"))','(lit c!"\\r")','C05: line breaks are no letters')
b(N,'Scene.setContent','wordCount := wordCountOf text,','','C05: word count updated')
b(S,'markWarning','if Str.startsWith s c!"(!)" then some s else','','C09/C08: metadata marked once',note='repeated marking')
b(S,'splitAtScene','newLines := [], splitCount := count, sceneId','splitCount := count, sceneId','C06: text of the first part repeated in the next')
b(S,'splitAtScene','srtScenes := st.srtScenes ++ [sceneId], scenesSplit := true, inScene := true }','scenesSplit := true, inScene := true }','C08: new scene listed')
b(S,'splitAtChapter','srtChapters := st.srtChapters ++ [chapterId] }','srtChapters := st.srtChapters }','C08: new chapter listed')
b(S,'splitLine','| .ok st => .ok { st with scenesSplit := true }','| .ok st => .ok st','C07: chapter split reported')
b(S,'splitLine','if Str.startsWith line c!"###" then','if Str.startsWith line c!"####" then','C06/C09: ### starts a scene')
b(S,'splitLine','if title = [] then c!"New Part" else title) desc 1','if title = [] then c!"New Part" else title) desc 0','C08: part level')
b(S,'splitScene','if st.inScene then storeLines st else .ok st','.ok st','C06: last part of the text stored')
b(S,'splitChapter','chapterId := chId, srtScenes := [] }','chapterId := chId }','C08: scenes of the previous chapter listed again')
b(S,'createScene','((scenes.modify parentId markParent).set','(scenes.set','C08: parent metadata marked')
b(S,'newSplitScene','scType := p.scType\n','','C08: new scene inherits the type')
b(X,'pushKey','(· ++ [v])) else','(fun l => if v ∈ l then l else l ++ [v])) else','C10: multiplicity',note='set semantics is harmless unless the claim counts')
b(X,'xrefScene','foldE (pushKey scId) x.scnPerLoc (sc.locations.getD [])','foldE (pushKey scId) x.scnPerLoc (sc.characters.getD [])','C10: locations from characters')
b(X,'generateXref','foldE (xrefElement n.items (·.tags)) ([], []) n.srtItems','foldE (xrefElement n.items (·.tags)) ([], lt) n.srtItems','C10: item tags mixed with location tags')
b(LA,'searchLang','| none => searchLang cs\n','| none => none\n','C11: search goes on after an unclosed tag',note='without a closing bracket nothing follows: equivalent')
b(LA,'languagesLoop','| some (code, rest) => code :: languagesLoop fuel rest','| some (code, _) => [code]','C11: all tags found')
b(LA,'pushNew','if x ∈ acc then acc else acc ++ [x]','acc ++ [x]','C11: no duplicates')
b(LA,'checkLocale','if l.length = 2 ∧ c.length = 2 then n','if l.length = 2 ∨ c.length = 2 then n','C12: both codes checked')
b(T,'putText','else if v = [] then ks else ks ++ [leaf t (some v)]','else ks','C15: new value written when the element is missing')
b(T,'putFlag','else removeFirst t ks','else ks','C13/C15: flag removed')
b(T,'putIds','if ids = [] then removeFirst t ks\n','if ids = [] then ks\n','C15: emptied list removed')
b(T,'putCustom','| some [] => onFields (removeFirst field) ks','| some [] => ks','C23/C41: emptied custom field removed')
b(T,'indent','node t (if blank x then some (indentStr level ++ c!"  ") else x)','node t (some (indentStr level ++ c!"  "))','C36: text of elements kept')
b(T,'indent','node t x (if level ≠ 0 ∧ blank y then','node t (x.map Str.strip) (if level ≠ 0 ∧ blank y then','C36: leaf text unchanged')
b(W,'scTypeEncoding','(true, some c!"2"), (true, some c!"0")]','(true, some c!"0"), (true, some c!"2")]','C13: todo and unused swapped')
b(W,'putExport','removeFirst c!"ExportWhenRTF" (addMissing c!"ExportCondSpecific" none ks)','addMissing c!"ExportCondSpecific" none ks','C13: stale export flag')
b(W,'putStart','ks ++ [leaf c!"SpecificDateTime" (some dateTime)] ++\n        [leaf c!"SpecificDateMode" (some c!"-1")]))))','ks ++ [leaf c!"SpecificDateTime" (some d)] ++\n        [leaf c!"SpecificDateMode" (some c!"-1")]))))','C17: time lost')
b(W,'putStart','let ks := putAlways c!"Day" day\n        (removeFirst c!"SpecificDateMode" (removeFirst c!"SpecificDateTime" ks))','let ks := putAlways c!"Day" day ks','C17: stale specific date')
b(W,'chTypeEncoding','(true, c!"1", c!"1"), (true, c!"1", c!"2"), (true, c!"1", c!"0")]','(true, c!"1", c!"1"), (true, c!"1", c!"2"), (true, c!"0", c!"0")]','C14: <Type> of unused chapters',note='Type is only a fallback for reading; the reader result is the same')
b(W,'putSection','if level = some 0 then removeFirst','if level = some 1 then removeFirst','C14: level')
b(W,'putTrash','else onFields (removeFirst c!"Field_IsTrash") ks','else ks','C14: trash flag cleared')
b(W,'finishScene','modFirst c!"SceneContent" (setText (some c)) ks','ks','C15: changed text saved')
b(W,'buildProject','|> putAlways c!"Bio" n.authorBio','|> putAlways c!"Bio" n.authorName','C20/project data: author bio',note='needs a theorem about the project node')
b(W,'buildProject','|> removeFirst c!"SavedOn"','|> removeFirst c!"SavedOn" |> removeFirst c!"LastFullSummary"','C18: foreign project element kept')
b(W,'buildCharacter','|> putNew c!"Goals" c.goals','|> putNew c!"Goals" c.bio','C23: goals')
b(W,'buildWorld','|> putNew c!"AKA" w.aka','','C23: aka')
b(W,'buildVars','if st.hasCtr then p else addVar c!"Country" ctr p','if st.hasLng then p else addVar c!"Country" ctr p','C38: country variable',note='project variables')
b(W,'rebuildSection','.ok (ks.filter (fun e => e.tag ≠ tag) ++ es)','.ok (ks ++ es)','C22: removed elements stay in the file')
b(W,'buildChapters','match mapE (fun id =>\n        match n.chapters.get? id with','match mapE (fun id =>\n        match n.chapters.get? (id ++ []) with','none (equivalent control)',note='control: semantically equal edit')
b(W,'syncScene','some a => s.kwVar.set c!"Field_SceneArcs" (some a)','some _ => s.kwVar','C20: arcs saved',note='custom variables of scenes')
b(R,'readSceneType','fieldSceneType (sel c!"Fields" ks) = 0 then 3','fieldSceneType (sel c!"Fields" ks) = 0 then 0','C13: unused type read')
b(R,'readDoNotExport','&& !hasTag c!"ExportWhenRTF" ks','','C13: export flag')
b(R,'readChapterType','if e.text = some c!"2" then 2 else if','if e.text = some c!"2" then 1 else if','C14: todo chapters')
b(R,'readChapter','some (if hasTag c!"SectionStart" ks then 1 else 0)','some (if hasTag c!"SectionStart" ks then 0 else 1)','C14: level')
b(R,'readChapter','((sel c!"ScID" e.kids).filterMap Elem.text).filter (fun i => i ∈ scenes) }','((sel c!"ScID" e.kids).filterMap Elem.text) }','C22/C45: unknown scenes filtered',note='written scenes are always known in sound novels')
b(R,'readScene','outcome := textOf c!"Outcome" ks','outcome := textOf c!"Goal" ks','C15: outcome')
b(R,'readScene','| some t => s.setContent t)','| some t => { s with sceneContent := some t })','C05/C15: counts after reading')
b(R,'readCharacter','isMajor := some (hasTag c!"Major" ks)','isMajor := some false','C23: importance')
b(R,'readVars','if title = c!"Country" then\n          readVars (match find c!"Desc" e.kids with\n            | some d => (acc.1, d.text, acc.2.2)','if title = c!"Country" then\n          readVars (match find c!"Desc" e.kids with\n            | some d => (d.text, acc.2.1, acc.2.2)','C38: country read',note='project variables')
b(R,'adjustSceneTypes','if c.chType = some 0 then .ok n','if c.chType = some 1 then .ok n','C39: notes chapters')
b(R,'readRoot','readSection c!"ITEMS" (fun ks => .ok (readWorld ks)) n.items rk','readSection c!"LOCATIONS" (fun ks => .ok (readWorld ks)) n.items rk','C22/C23: items')
