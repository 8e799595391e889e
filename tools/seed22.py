L=[]
def e(file,defn,old,new,claim,note=None,tightened=None):
    d=dict(file='Verif/'+file,defn=defn,old=old,new=new,claim=claim)
    if note: d['note']=note
    if tightened: d['tightened']=tightened
    L.append(d)
R='Model/OdtRead.lean'; O='Model/OdsRead.lean'; S='Model/Splitter.lean'
e(O,'readCharList','(n.characters, [])','(n.characters, n.srtCharacters)','C82: a list of characters lists those again which were listed')
e(S,'newSplitScene','date := p.date, time := p.time, day := p.day','date := none, time := p.title, day := p.day','C80: a part of a scene gets a time that cannot be saved')
e(S,'storeLines','(fun s => s.setContent (Str.join c!"\\n" st.newLines))','(fun s => { s with sceneContent := some (Str.join c!"\\n" st.newLines) })','C80: the counts do not belong to the text')
e(S,'createChapter','chLevel := some level, chType := some 0 }','chLevel := some level, chType := some 4 }','C80: a new chapter gets a type that does not exist')
e(S,'splitAtChapter','.ok { st with srtScenes := [], chapterId := chapterId,','.ok { st with chapterId := chapterId,','C80: scenes are listed in two chapters')
e(R,'crStart','{ n with srtCharacters := n.srtCharacters ++ [id], characters := n.characters.set id {} }','{ n with srtCharacters := n.srtCharacters ++ [id] }','C80: a character is listed that does not exist')
e(R,'weStart','w.put (w.add r.novel id) ((w.get r.novel).set id {})','w.add r.novel id','C80: a location is listed that does not exist')
e(O,'rowsLoop','let d := if st.1.has id then st.1 else st.1.set id new\n','let d := st.1\n','C80: a row without an element is listed')
e(O,'readLocList','{ n with locations := r.1, srtLocations := r.2 }','{ n with locations := r.1, srtItems := r.2 }','C79/C80: the IDs of locations are listed as items')
e(O,'sceneFromRow','    title := some (Str.rstrip (cellAt row 1))\n    desc := some (Str.rstrip (cellAt row 2))','    title := some (Str.rstrip (cellAt row 1))\n    time := some (cellAt row 9)\n    desc := some (Str.rstrip (cellAt row 2))','C80: a cell becomes the time of the scene')
e(R,'startLanguage','languages := some (if l ∈ ls then ls else ls ++ [l])','languages := some (ls ++ [l])','C80: languages are listed twice')
e(R,'startScene','{ s with scType := some type }','{ s with scType := some (type + 1) }','C80: a type that does not exist')
e(R,'startChapter','{ ch with chType := some type }','{ ch with chType := some (type + 4) }','C80: a type that does not exist')
e(R,'ensureChapter','chapters := r.novel.chapters.set id {}, srtChapters','srtChapters','C80: a chapter is listed that does not exist')
e(R,'imNewScene','{ status := some 1, scType := some 0, title :=','{ status := some 1, scType := some 0, time := some c!"now", title :=','C81: a new scene has a time that cannot be saved')
e(R,'olNewScene','with status := some 1, scType := some 0 } } }','with status := some 1, scType := some 0, time := some c!"now" } } }','C81: a new scene has a time that cannot be saved')
e(R,'addChapter','srtChapters := r0.novel.srtChapters ++ [id] } }','srtChapters := r0.novel.srtChapters ++ [id], srtItems := r0.novel.srtItems ++ [id] } }','C81: the chapter is listed as an item')
e(R,'startMeta','{ r with novel := { r.novel with authorName := v } }','{ r with novel := { r.novel with authorName := v, srtCharacters := [c!"1"] } }','C81: the author is listed as a character')
e(R,'imStore','{ s.setContent text with status','{ s with sceneContent := some text, status','C81: the counts do not belong to the text')
e(R,'readFormatted','readOdt h f { n with languages := some [] }\n  splitScenes n\'','readOdt h f { n with languages := some [] }\n  splitScenes { n\' with languages := n\'.languages.map (fun l => l ++ l) }','C80: languages are listed twice')
