L=[]
def e(file,defn,old,new,claim,**k): L.append(dict(file='Verif/'+file,defn=defn,old=old,new=new,claim=claim,**k))
R='Model/OdtRead.lean'
e(R,'imComment','if r.lines = [] then\n      { r with novel := { r.novel with scenes','if True then\n      { r with novel := { r.novel with scenes','C44: every comment sets the title and vanishes')
e(R,'imComment','else r.push (c!"/*" ++ Str.strip s ++ c!"*/")\n\n/-- `handle_data` (odt_r_import','else r\n\n/-- `handle_data` (odt_r_import','C44: comments lost')
e(R,'imData','if r.scId.isSome ∧ Str.contains s c!"* * *" then { r with scId := none } else r.push s','r.push s','C44: dividers are not recognised')
e(R,'imData','if r.scId.isSome ∧ Str.contains s c!"* * *" then { r with scId := none }','if r.scId.isSome ∧ Str.contains s c!"*" then { r with scId := none }','C44: any star divides scenes')
e(R,'imStore','.wordCount < 10 then 1 else 2','.wordCount ≤ 10 then 1 else 2','C44: status of a scene with ten words (boundary)')
e(R,'imStop','if tag = c!"p" ∨ tag = c!"blockquote" then\n    let r := r0.stopLanguage.push c!"\\n"','if tag = c!"p" ∨ tag = c!"blockquote" then\n    let r := r0.stopLanguage','C44: paragraphs run together')
e(R,'imStop','| some id => r.onScene id (imStore (r.cleanupScene (Str.rstrip r.text)))','| some id => r.onScene id (imStore (r.cleanupScene (Str.rstrip r0.text)))','C44: last line break missing (harmless after rstrip)')
e(R,'imStop','(fun ch => { ch with title := some r0.text })\n      .ok { r with lines := [], heading := false }','(fun ch => { ch with title := some r0.text })\n      .ok { r with heading := false }','C44: heading text in the first scene if it has a comment')
e(R,'imStop','.ok { r with lines := [], heading := false }','.ok { r with lines := [] }','C44: emphasis not recognised after a heading')
e(R,'imStop','if tag = c!"em" ∧ r0.heading = false then .ok (r0.push c!"[/i]")','if tag = c!"em" ∧ r0.heading = false then .ok (r0.push c!"[/b]")','C44: emphasis ended by the wrong mark')
e(R,'imNewScene','lines := [], scCount := k, scId := some id\n    novel := { r0.novel with scenes := r0.novel.scenes.set id { status','scCount := k, scId := some id\n    novel := { r0.novel with scenes := r0.novel.scenes.set id { status','C44: text of the previous scene repeated')
e(R,'imNewScene','r.onChapter ch (fun c => { c with srtScenes := c.srtScenes ++ [id] })','r.onChapter ch (fun c => { c with srtScenes := id :: c.srtScenes })','C44: scenes in reverse order')
e(R,'imNewScene','r.onChapter ch (fun c => { c with srtScenes := c.srtScenes ++ [id] })','.ok r','C44: scenes not listed')
e(R,'imNewScene','let k := r0.scCount + 1\n  let id := Str.ofNat k\n  let r := { r0 with\n    lines := [], scCount := k, scId := some id\n    novel := { r0.novel with scenes := r0.novel.scenes.set id { status','let k := r0.scCount\n  let id := Str.ofNat k\n  let r := { r0 with\n    lines := [], scCount := k + 1, scId := some id\n    novel := { r0.novel with scenes := r0.novel.scenes.set id { status','C44: scene IDs begin with 0')
e(R,'imNewScene','title := some (c!"Scene " ++ id) }','title := some c!"Scene" }','C44: scenes have no number in their titles')
e(R,'addChapter','let k := r0.chCount + 1\n  let id := Str.ofNat k\n  { r0 with\n    scId := none, lines := [], chCount := k','let k := r0.chCount + 1\n  let id := Str.ofNat k\n  { r0 with\n    scId := none, lines := [], chCount := r0.chCount','C44: every chapter has the ID 1')
e(R,'addChapter','scId := none, lines := [], chCount','lines := [], chCount','C44: text after a heading belongs to the last scene of the previous chapter')
e(R,'addChapter','chType := some 0, chLevel := some level','chType := some 0, chLevel := some 0','C44: parts are lost')
e(R,'addChapter','srtChapters := r0.novel.srtChapters ++ [id]','srtChapters := id :: r0.novel.srtChapters','C44: chapters in reverse order')
e(R,'startMeta','if k = some c!"author" then { r with novel := { r.novel with authorName := v } }','if k = some c!"author" then { r with novel := { r.novel with desc := v } }','C44: author stored as the description')
e(R,'imParagraph','| none, some ch => do\n    let r ← imNewScene r0 ch\n    .ok (r.startLanguage as)\n  | _, _ => .ok (r0.startLanguage as)','| _, some ch => do\n    let r ← imNewScene r0 ch\n    .ok (r.startLanguage as)\n  | _, _ => .ok (r0.startLanguage as)','C44: a scene per paragraph')
e(R,'imStart','else if tag = c!"h2" then .ok { addChapter r0 0 with heading := true }','else if tag = c!"h2" then .ok r0','C44: headings of the second level ignored')
e(R,'imStart','else if tag = c!"h1" then .ok { addChapter r0 1 with heading := true }','else if tag = c!"h1" then .ok { addChapter r0 0 with heading := true }','C44: parts become chapters')
e(R,'imStart','else if tag = c!"strong" ∧ r0.heading = false then .ok (r0.push c!"[b]")\n  else if tag = c!"lang" ∧ r0.heading = false then .ok (r0.startLanguage as)\n  else if tag = c!"h1"','else if tag = c!"strong" ∧ r0.heading = true then .ok (r0.push c!"[b]")\n  else if tag = c!"lang" ∧ r0.heading = false then .ok (r0.startLanguage as)\n  else if tag = c!"h1"','C44: strong emphasis lost')
e(R,'olStop','let text := Str.strip r.text ++ c!"\\n"','let text := Str.strip r.text','C44: paragraphs of a description run together')
e(R,'olStop','let r\' := { r with lines := [text] }','let r\' := { r with lines := [] }','C44: only the last paragraph of a description is kept')
e(R,'olStop','| some id, _ => r\'.onScene id (fun s => { s with desc := some text })','| some id, _ => r\'.onScene id (fun s => { s with title := some text })','C44: description stored as the title')
e(R,'olStop','let r\' ← r.onScene id (fun s => { s with title := some (Str.strip r.text) })\n      .ok { r\' with lines := [] }','let r\' ← r.onScene id (fun s => { s with title := some (Str.strip r.text) })\n      .ok r\'','C44: scene title in its description')
e(R,'olStop','(fun ch => { ch with title := some (Str.strip r.text) })\n      .ok { r\' with lines := [] }','(fun ch => { ch with title := some r.text })\n      .ok { r\' with lines := [] }','C44: chapter titles not trimmed')
e(R,'olNewScene','  r.listScene id\n','  .ok r\n','C44: scenes of an outline not listed')
e(R,'olNewScene','lines := [], scCount := k, scId := some id\n    novel := { r0.novel with\n      scenes','lines := [], scCount := k\n    novel := { r0.novel with\n      scenes','C44: descriptions of scenes go to the chapter')
e(R,'olStart','else if tag = c!"h3" then olNewScene r0','else if tag = c!"h3" then .ok r0','C44: scene headings ignored')
e(R,'olStart','if tag = c!"h1" then .ok (addChapter r0 1)\n  else if tag = c!"h2" then .ok (addChapter r0 0)','if tag = c!"h1" then .ok (addChapter r0 0)\n  else if tag = c!"h2" then .ok (addChapter r0 1)','C44: parts and chapters swapped')
