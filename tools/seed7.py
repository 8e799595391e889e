L=[]
def e(file,defn,old,new,claim,**k): L.append(dict(file='Verif/'+file,defn=defn,old=old,new=new,claim=claim,**k))
R='Model/OdtRead.lean'; S='Model/OdtSheets.lean'
e(R,'crStart','if Str.startsWith v c!"CrID_desc" then do','if Str.startsWith v c!"CrID_bio" then do','C49: description lost, biography stored as description')
e(R,'crStart','else if Str.startsWith v c!"CrID_goals" then .ok { r with sect := some c!"goals" }','else if Str.startsWith v c!"CrID_goals" then .ok { r with sect := some c!"bio" }','C49: goals overwrite the biography')
e(R,'crStart','else if Str.startsWith v c!"CrID_notes" then .ok { r with sect := some c!"notes" }\n        else .ok r','else .ok r','C49: notes are not read')
e(R,'setSection','else if sect = c!"goals" then { c with goals := some text }\n  else { c with notes := some text }','else if sect = c!"goals" then { c with notes := some text }\n  else { c with goals := some text }','C49: goals and notes swapped')
e(R,'crStop','lines := [], sect := none }\n        else .error .keyError','sect := none }\n        else .error .keyError','C49: text of the previous section repeated')
e(R,'crStop','(setSection s (Str.rstrip r.text))','(setSection s (Str.strip r.text))','C49: leading empty lines lost')
e(R,'crStop','else if tag = c!"p" then .ok (r.push c!"\\n")\n    else .ok r\n\n/-- The character','else .ok r\n\n/-- The character','C49: paragraphs run together')
e(R,'crStart','{ n with srtCharacters := n.srtCharacters ++ [id], characters := n.characters.set id {} }\n          .ok','{ n with characters := n.characters.set id {} }\n          .ok','C49/C35: created character not listed')
e(R,'weStart','if (w.get r.novel).has id then r.novel else w.put','if (w.get r.novel).has id then w.put r.novel ((w.get r.novel).set id {}) else w.put','C49: existing element replaced by a new one (title and tags lost)')
e(R,'weStop','lines := [], elId := none }\n      else .error .keyError\n    else if tag = c!"p" then','elId := none }\n      else .error .keyError\n    else if tag = c!"p" then','C49: descriptions accumulate')
e(R,'weStop','else if tag = c!"p" then .ok (r.push c!"\\n")\n    else .ok r\n\n/-- The location','else .ok r\n\n/-- The location','C49: paragraphs run together')
e(R,'weStop','fun e => { e with desc := some (Str.rstrip r.text) }','fun e => { e with desc := some (Str.rstrip r.text), aka := none }','C49: alternate name lost')
e(S,'withAka','if aka.getD [] = [] then m else','if aka.getD [] = [] then m else if True then Dict.set m c!"Desc" (akaText (aka.getD [])) else','C49: alternate name written as description')
e(S,'elementSheet','c!":$ID\\">\\n" ++\n  c!"<text:p text:style-name=\\"Text_20_body\\">$Desc</text:p>','c!":$ID\\">\\n" ++\n  c!"<text:p text:style-name=\\"Text_20_body\\">$Title</text:p>','C49: title written as description')
e(S,'odtLocations','location := elementSheet c!"LcID"','location := elementSheet c!"ItID"','C49: location sheets marked as items')
e(S,'odtItems','item := elementSheet c!"ItID"','location := elementSheet c!"ItID"','C49: locations written instead of items')
e(S,'personSheet','personPart c!"Bio" c!"bio" c!"Bio"','personPart c!"Bio" c!"bio" c!"Goals"','C49: goals written as biography')
e(S,'personSheet','personPart c!"Goals" c!"goals" c!"Goals"','personPart c!"Goals" c!"notes" c!"Goals"','C49: goals marked as notes')
e(S,'personPart','c!"</text:p>\\n" ++ sectionEnd','c!"</text:p>\\n"','C49: section not closed: malformed document')
e(S,'withFullName','c!"FullName" (c!"/" ++ name.getD [])','c!"Notes" (c!"/" ++ name.getD [])','C49: full name written as notes')
e('Model/OdtText.lean','odtLineBreaks',None,None,'')
L.pop()
