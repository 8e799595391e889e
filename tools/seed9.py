L=[]
def e(file,defn,old,new,claim,**k): L.append(dict(file='Verif/'+file,defn=defn,old=old,new=new,claim=claim,**k))
W='Model/Yw7Write.lean'; R='Model/Yw7Read.lean'; T='Model/Yw7Text.lean'; X='Model/Yw7Tree.lean'
e(W,'putStart','if dateTime.count \':\' < 2 then dateTime ++ c!":00" else dateTime','dateTime ++ c!":00"','C20: seconds are appended to a complete time, the date gets lost on the next read')
e(W,'putStart','(removeFirst c!"SpecificDateMode" (removeFirst c!"SpecificDateTime" ks))\n      match','(removeFirst c!"SpecificDateMode" ks)\n      match','C17/C20: an old date hides the day')
e(W,'putStart','.ok (putAlways c!"Minute" (some minutes) (putAlways c!"Hour" (some hours) ks))','.ok (putAlways c!"Minute" (some hours) (putAlways c!"Hour" (some minutes) ks))','C17: hours and minutes swapped')
e(W,'putStart','| none => .ok ks\n      | some t =>\n        match','| none => .error .typeError\n      | some t =>\n        match','C51: a scene with a day but without time cannot be saved')
e(W,'syncScene','(if m = 0 then none else some (Str.ofInt m))','(some (Str.ofInt m))','C20: mode 0 is written')
e(W,'syncScene','| some a => s.kwVar.set c!"Field_SceneArcs" (some a)','| some a => s.kwVar.set c!"Field_SceneArcs" none','C20/C52: arcs are lost on saving')
e(R,'readTags','(stringToList (some t) c!";").map Str.strip','(stringToList (some t) c!",").map Str.strip','C20: tags are not separated')
e(X,'putCustom','| none => onFields (removeFirst field) ks\n  | some [] =>','| none => onFields (removeFirst c!"Field_SceneArcs") ks\n  | some [] =>','C20/C38: custom field not removed / arcs removed')
e(X,'putCustom','onFields (putAlways field (some (ywConvert (some v)))) (ensureFields ks)','onFields (putNew field (some (ywConvert (some v)))) (ensureFields ks)','C20: a new custom field on each save')
e(R,'readChFields','some (decide (textOf c!"Field_IsTrash" f.kids = some c!"1"))','some (decide (textOf c!"Field_IsTrash" f.kids = some c!"-1"))','C22: trash flag not recognised')
e(W,'putChField','else onFields (fun fs => if hasTag field fs then modFirst field (setText (some c!"0")) fs else fs) ks','else ks','C20: a chapter flag cannot be cleared')
e(W,'putTrash','else onFields (removeFirst c!"Field_IsTrash") ks','else ks','C22: trash flag not cleared')
e(W,'buildProjectVars','if (n.languages.getD []) = [] ∧ falsy n.languageCode ∧ falsy n.countryCode then .ok rk','if (n.languages.getD []) = [] then .ok rk','C38: locale not saved without languages')
e(W,'scTypeEncoding','(true, some c!"0")]','(true, some c!"1")]','C20/C18: unused scenes become notes')
e(W,'scTypeEncoding','[(false, none), (true, some c!"1"), (true, some c!"2"), (true, some c!"0")]','[(false, none), (true, some c!"1"), (true, some c!"2")]','C51: unused scenes cannot be saved')
e(W,'chTypeEncoding','(true, c!"1", c!"2"), (true, c!"1", c!"0")]','(true, c!"1", c!"2"), (true, c!"0", c!"0")]','C22: none visible (Type of an unused chapter is not read when ChapterType exists)',note='Type is not read back if ChapterType exists; survival expected unless the encoding itself is stated')
e(W,'chTypeEncoding','(true, c!"1", c!"2"), (true, c!"1", c!"0")]','(true, c!"1", c!"1"), (true, c!"1", c!"0")]','C22: todo chapters become notes chapters')
e(W,'finishScene','| some c => modFirst c!"SceneContent" (setText (some c)) ks)','| some c => modFirst c!"SceneContent" (setText (some (Str.strip c))) ks)','C20/C52: white space around the content lost')
e(W,'finishScene','|> removeFirst c!"BelongsToChID"','|> removeFirst c!"Desc"','C20: scene descriptions lost')
e(W,'finishScenes','if s.sceneContent ≠ none ∧ hasTag','if hasTag','C51: scenes without content element')
e(W,'buildNotes','if n.srtPrjNotes = [] then .ok (removeFirst c!"PROJECTNOTES" rk)','if n.srtPrjNotes = [] then .ok rk','C39: deleted notes come back')
e(W,'buildNotes','(if hasTag c!"PROJECTNOTES" rk then rk else rk ++ [node c!"PROJECTNOTES" none none []])','rk','C51: saving notes to a tree without notes section raises an exception')
e(W,'buildProjectVars','(if hasTag c!"PROJECTVARS" rk then rk else rk ++ [node c!"PROJECTVARS" none none []])','rk','C51: saving a project with languages raises an exception if there is no section')
e(T,'postprocess','let text := Str.replace text c!"\\n]]" c!"]]"','let text := Str.replace text c!"]]" c!"]"','C52: malformed file')
e(T,'postprocess','  unescape text\n','  text\n','C21/C52: escapes remain in CDATA sections')
e(T,'unescapeGo','then \'<\' :: unescapeGo 3 cs','then \'<\' :: unescapeGo 4 cs','C21/C52: the character after an escaped < is swallowed')
e(T,'etWrite','if x.getD [] = [] ∧ ks.isEmpty then','if ks.isEmpty then','C21/C52: texts lost')
e(T,'etWrite','c!">") ++\n    etEscape (y.getD [])','c!">")','C21: text between elements lost')
e(T,'dropped','(14 ≤ c.toNat && c.toNat ≤ 31)','(14 ≤ c.toNat && c.toNat ≤ 32)','C19/C52: blanks removed')
e(T,'universalNewlines',"| '\\r' :: r => '\\n' :: universalNewlines r","| '\\r' :: r => universalNewlines r",'C19: single carriage returns lost')
e(X,'cdataTags','c!"Goals",\n   c!"Notes"','c!"Goals",\n   c!"Notes", c!"Fields"','C52: custom fields are written inside a CDATA section')
e(X,'indent','node t (if blank x then some (indentStr level ++ c!"  ") else x)','node t (some (indentStr level ++ c!"  "))','C21/C52: text before children lost')
e(X,'indent','node t x (if level ≠ 0 ∧ blank y then some (indentStr level) else y) []','node t (if blank x then some (indentStr level) else x) (if level ≠ 0 ∧ blank y then some (indentStr level) else y) []','C21/C52: empty texts become line breaks')
e(X,'setElement','if hasTag t p.1 then (modFirst t (setText (some v)) p.1, p.2 + 1)','if false then (modFirst t (setText (some v)) p.1, p.2 + 1)','C20/C22: an old title remains beside the new one')
e(X,'putIds','else removeFirst t ks ++ [node','else ks ++ [node','C20: old ID list remains')
e(X,'putFlag','else removeFirst t ks','else ks','C20: flags cannot be cleared')
e(R,'readDay','some (if (lib.int s).isSome then s else [])','some (if (lib.int s).isSome then [] else s)','C17/C20: day lost')
e(R,'zfill2','[\'0\', c]','[c, \'0\']','C17: hour 8 read as 80')
e(R,'readStatus','| none => .error .valueError\n      | some i => .ok (some i)','| none => .error .valueError\n      | some i => .ok (some (i+1))','C20: status changes with each cycle')
