L=[]
def e(file,defn,old,new,claim,**k): L.append(dict(file='Verif/'+file,defn=defn,old=old,new=new,claim=claim,**k))
P='Model/OdtParse.lean'; R='Model/OdtRead.lean'; T='Model/OdtText.lean'; H='Model/OdtHeader.lean'; W='Model/OdtWriters.lean'
e(T,'balanceTag','let line3 := openLoop op cl (r.1.length + 1) r.1','let line3 := r.1','C31: surplus ends are not completed')
e(T,'balanceTag','let r := closeLoop op cl (line1.length + 1) line1 false','let r := (line1, false)','C31: open formattings are not closed at the end of the line')
e(T,'closeLoop','closeLoop op cl f (l ++ cl) true','closeLoop op cl f (l ++ op) true','C31: begins instead of ends appended')
e(T,'closeLoop','closeLoop op cl f (l ++ cl) true','(l ++ cl, true)','C31: only one end appended')
e(T,'markupTags','c!"i" :: c!"b" :: languages.map','c!"i" :: languages.map','C31: strong emphasis is not balanced')
e(T,'balanceTag','else op ++ line)\n    else line','else line)\n    else line','C31: a formatting is not continued in the next line (no nesting error, but the text after it loses the format)')
e(T,'balanceTag','(Str.replace line3 (op ++ cl) [], r.2)','(Str.replace line3 (cl ++ op) [], r.2)','C31/C43: wrong pair removed')
e(T,'openLoop','openLoop op cl f (op ++ l) else l','openLoop op cl f (l ++ op) else l','C31: begins appended instead of prefixed')
e(T,'spanReplacements','(c!"[/b]", c!"</text:span>")]','(c!"[/b]", c!"")]','C31/C43: end of strong emphasis lost')
e(T,'commentReplacements','(c!"*/", c!"</text:p></office:annotation>")]','(c!"*/", c!"</office:annotation>")]','C31: paragraph of a comment not closed')
e(T,'langReplacements','langReplacements (i + 1) r','langReplacements i r','C43: all languages have the first style')
e(T,'langReplacements','(c!"[/lang=" ++ l ++ c!"]", c!"</text:span>") :: lang','(c!"[/lang=" ++ l ++ c!"]", c!"</text:p>") :: lang','C31: end of a language closes the paragraph')
e(T,'quotations','Str.replace t1 c!"\\"Text_20_body\\">&gt; " c!"\\"Quotations\\">"','t1','C43: the first paragraph is no quotation')
e(T,'quotations','Str.replace text c!"\\"First_20_line_20_indent\\">&gt; " c!"\\"Quotations\\">"','Str.replace text c!"\\"First_20_line_20_indent\\">&gt; " c!"\\"Quotations\\">&gt; "','C43: mark of quotations doubled')
e(R,'msStop','if tag = c!"p" ∨ tag = c!"blockquote" then .ok (r.stopLanguage.push c!"\\n")','if tag = c!"p" then .ok (r.stopLanguage.push c!"\\n")','C43/C35: quotations run into the next line')
e(R,'msStop','else if tag = c!"em" then .ok (r.push c!"[/i]")\n    else if tag = c!"strong" then .ok (r.push c!"[/b]")\n    else if tag = c!"lang" then .ok r.stopLanguage\n    else if tag = c!"div" then do\n      let r\' ← r.onScene id (fun s => s.setContent (Str.rstrip','else if tag = c!"em" then .ok (r.push c!"[i]")\n    else if tag = c!"strong" then .ok (r.push c!"[/b]")\n    else if tag = c!"lang" then .ok r.stopLanguage\n    else if tag = c!"div" then do\n      let r\' ← r.onScene id (fun s => s.setContent (Str.rstrip','C43: end of emphasis read as a begin')
e(R,'msStop','.ok { r\' with lines := [], scId := none }\n    else if tag = c!"h1"','.ok { r\' with scId := none }\n    else if tag = c!"h1"','C43/C48/C35: text of a scene added to the next one')
e(R,'msStop','.ok { r\' with lines := [], scId := none }\n    else if tag = c!"h1"','.ok { r\' with lines := [] }\n    else if tag = c!"h1"','C35: text after a scene section belongs to the scene')
e(R,'startScene','r\'.onScene id (fun s => { s with scType := some type })','.ok r\'','C43/C35: scene type not set')
e(R,'startChapter','onChapter id (fun ch => { ch with chType := some type })','onChapter id (fun ch => ch)','C43: chapter type not set')
e(R,'firstNumber','.ok ((c :: cs).takeWhile Str.isDig)','.ok ((c :: cs).take 1)','C43/C35: only the first digit of the ID')
e(R,'msData','.ok (if isSpaceStr s then r else r.push s)','.ok (r.push s)','C43: blanks kept (more than the claim needs)')
e(R,'msData','.ok (if isSpaceStr s then r else r.push s)','.ok (if isSpaceStr s then r else r.push (Str.strip s))','C43: white space at tags is lost')
e(R,'msComment','| none => r\n    else r.push (c!"/*" ++ Str.strip s ++ c!"*/")\n\n/-- `data.isspace','| none => r\n    else r.push (c!"/*" ++ s)\n\n/-- `data.isspace','C43: comment not ended')
e(R,'msComment','| none => r\n    else r.push (c!"/*" ++ Str.strip s ++ c!"*/")\n\n/-- `data.isspace','| none => r\n    else r\n\n/-- `data.isspace','C43: comments are dropped')
e(R,'cleanupTags','(c ++ o) [])','(o ++ c) [])','C43: cleanup of the wrong pair')
e(R,'stopLanguage','(c!"[/lang=" ++ r.language ++ c!"]") with language := [] }','(c!"[/lang=" ++ r.language ++ c!"]") with language := r.language }','C43: language is ended twice')
e(R,'startLanguage','if l ∈ ls then ls else ls ++ [l]','[l]','C43: document languages overwritten')
e(R,'msStart','else if tag = c!"blockquote" then .ok ((r.push c!"> ").startLanguage as)\n    else .ok r\n  else if tag = c!"body"','else if tag = c!"blockquote" then .ok ((r.push c!">").startLanguage as)\n    else .ok r\n  else if tag = c!"body"','C43: blank after the quotation mark lost')
e(R,'readFormatted','splitScenes n\'','.ok (n\', false)','C08/C34: scenes are not split after the import')
e(P,'characters','if k = 1 then ({ p with comment := p.comment ++ s }, [])','if k = 0 then ({ p with comment := p.comment ++ s }, [])','C43: text of comments is lost')
e(P,'characters','{ p with comment := p.comment ++ s }','{ p with comment := s }','C34/C43: only the last piece of a comment')
e(P,'endElement','({ p with span := [], blockquote := false, paragraph := false }','({ p with span := [], paragraph := false }','C43: all paragraphs after a quotation are quotations')
e(P,'endElement','({ p with commentCount := none }, [.comment p.comment])','(p, [.comment p.comment])','C43: everything after a comment is lost')
e(P,'endElement','| t :: r => ({ p with span := r }, [.stop t])','| t :: _ => ({ p with span := [] }, [.stop t])','C43: nested formattings not ended')
e(P,'textProperties','(if ctr ≠ c!"none" then l ++ c!"-" ++ ctr else l)','l','C43: country of a language lost')
e(P,'startElement','c!"office:annotation" then .ok ({ p with commentCount := some 0, comment := [] }, [])','c!"office:annotation" then .ok ({ p with commentCount := some 0 }, [])','C43: comments accumulate')
e(P,'OdtP','strongTags : List Str := [c!"Strong_20_Emphasis"]','strongTags : List Str := [c!"Strong_Emphasis"]','C43: strong emphasis is not recognised')
e(P,'OdtP','blockquoteTags : List Str := [c!"Quotations"]','blockquoteTags : List Str := []','C43: quotations are not recognised')

e(H,'languageStyles','languageStyles (i + 1) r','languageStyles i r','C43: all language styles have the same name')
e(H,'languageParts','| [a, b] => (a, b)','| [a, b] => (b, a)','C43: language and country swapped')
e(H,'automaticStyles','languageStyles 1 languages','languageStyles 0 languages','C43: styles numbered from 0')
e(H,'automaticStyles','++ [c!" </office:automatic-styles>"]','++ []','C31: automatic styles not closed')
e(W,'manuscriptTemplates','c!"<text:p text:style-name=\\"First_20_line_20_indent\\">$SceneContent</text:p>\\n" ++ sectionEnd','c!"<text:p text:style-name=\\"First_20_line_20_indent\\">$SceneContent</text:p>\\n"','C31: section of an appended scene not closed')
e(W,'chSection','text:name=\\"ChID:$ID\\">','text:name=\\"ScID:$ID\\">','C35/C48: chapter sections marked as scenes')
