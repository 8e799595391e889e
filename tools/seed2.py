L=[]
def e(file,defn,old,new,claim,**k): L.append(dict(file='Verif/Model/'+file,defn=defn,old=old,new=new,claim=claim,**k))
T='Yw7Text.lean'; S='Save.lean'; C='Converter.lean'
e(T,'etEscape','(c!"&", c!"&amp;"), (c!"<", c!"&lt;"), (c!">", c!"&gt;")]','(c!"<", c!"&lt;"), (c!"&", c!"&amp;"), (c!">", c!"&gt;")]','C21: escaping order')
e(T,'etEscape',', (c!">", c!"&gt;")]',']','C21/C19: > not escaped')
e(T,'cdataTag','''    ('<' :: '/' :: t ++ c!">") (c!"]]></" ++ t ++ c!">")''','''    ('<' :: '/' :: t ++ c!">") (c!"]]>" ++ '<' :: '/' :: t)''','C21: closing tag of the CDATA element damaged')
e(T,'cdataLine','cdataTags.foldl (fun l t => cdataTag t l) line','cdataTags.tail.foldl (fun l t => cdataTag t l) line','C21: first CDATA tag left out')
e(T,'unescapeGo',"'&' :: unescapeGo 4 cs","'&' :: unescapeGo 3 cs",'C21: unescape skips too little')
e(T,'postprocess','  unescape text\n','  text\n','C21: unescape dropped')
e(T,'postprocess','c!"\\n]]" c!"]]"','c!"\\n\\n]]" c!"]]"','C21: newline before ]] kept')
e(T,'postprocess','c!"[CDATA[ \\n" c!"[CDATA["','c!"[CDATA[\\n" c!"[CDATA["','C21: leading newline of a field lost')
e(T,'dropped',"14 ≤ c.toNat && c.toNat ≤ 31","14 ≤ c.toNat && c.toNat ≤ 32",'C19: blanks deleted')
e(T,'dropped',"c.toNat ≤ 8 ||","c.toNat ≤ 9 ||",'C19: tabs deleted')
e(T,'dropped',"c.toNat = 11 || ","",'C19: vertical tab kept')
e(T,'universalNewlines',"  | '\\r' :: r => '\\n' :: universalNewlines r\n","",'C21: bare carriage returns')
e(S,'backUp','    tryExcept (replace path (bak path))','    tryExcept (replace (bak path) path)','C24: backup swapped')
e(S,'backUp','    return true\n','    return false\n','C24: no restore after failure')
e(S,'restoreBackup','if backedUp then replace (bak path) path','if backedUp then replace path (bak path)','C24: restore swapped')
e(S,'exportWrite','''  let backedUp ← backUp path
  tryExcept (writeFile path t)''','''  let backedUp := false
  tryExcept (writeFile path t)''','C24: export without backup')
e(S,'odfWrite','''  let backedUp ← backUp path
  tryExcept (do
      openW path
      other''','''  openW path
  let backedUp ← backUp path
  tryExcept (do
      openW path
      other''','C24: truncated before backup')
e(S,'yw7Write','if ← isLocked path then raise lockedError\n  let root','let root','C25: lock not checked')
e(S,'isLocked','isfile (path ++ c!".lock")','isfile (path ++ c!".lck")','C25: wrong lock file')
e(S,'writeElementTree','let backedUp ← backUp path\n  tryExcept (writeFile path (etWrite root))','let backedUp ← backUp (path ++ c!"~")\n  tryExcept (writeFile path (etWrite root))','C24: backup of another file')
e(S,'postprocessFile','  let text ← readFile path\n','  let _ ← backUp path\n  let text ← readFile (bak path)\n','C24: postprocessor overwrites the backup')
e(S,'zipAll','    append path (entry name c)\n','    append path (entry name [])\n','C24/C28: empty components in the archive')
e(C,'check','if (← isfile t) && !env.confirm t then','if (← isfile t) && env.confirm t then','C26: answer inverted')
e(C,'check','if (← isfile t) && !env.confirm t then','if (← isfile s) && !env.confirm s then','C26: wrong file confirmed')
e(C,'check','if !(← isfile s) then','if (← isfile s) then','C28: missing source accepted')
e(C,'createYw7','if ← isfile (target.filePath.getD []) then','if ← isfile (source.filePath.getD [] ++ c!"x") then','C26: existing project replaced by create')
e(C,'exportFromYw','    writeDoc env target none n.1\n    return false\n\n/-- `create_yw7`','    writeDoc env source none n.1\n    return false\n\n/-- `create_yw7`','C28: export writes the source')
e(C,'conclude','pure { newFile := none, how := infoHow (\'!\' :: env.describe e) }','pure { newFile := target.filePath, how := infoHow (\'!\' :: env.describe e) }','C28: newFile set after failure')
e(C,'conclude','infoHow (\'!\' :: env.describe e)','infoHow (env.describe e)','C28: error not marked')
e(C,'infoHow','c!"FAIL: " ++ Str.strip (message.drop 1)','Str.strip (message.drop 1)','C28: error not marked')
e(C,'importToYw','let old ← readDoc env target env.empty','let old ← readDoc env source env.empty','C28: project not read before the update')
e(C,'importToYw','let n ← readDoc env source old.1\n','let n ← readDoc env source env.empty\n','C28: old project data dropped on import')
e(C,'ywBasis','e.dropLast else e','e.take 1 else e','C27')
e(C,'ywBasis','if e.length > 1 then e.dropLast else e','e','C27: nothing removed from the name')
e(C,'exportTarget','(splitext path).1 ++ suffix.getD [] ++ c.ext','path ++ suffix.getD [] ++ c.ext','C27: extension not removed')
e(C,'importTarget','if (fs p).isSome then some','if (fs path).isSome then some','C42/C27: target need not exist')
e(C,'Doc.setPath','{ d with filePath := some path } else d','{ d with filePath := some path } else { d with filePath := none }','C40: rejected path clears the old one')
e(C,'Doc.setPath','Str.endsWith (Str.lower path) (Str.lower d.cls.ending)','Str.endsWith path d.cls.ending','C40: case sensitive')
e(C,'Doc.setPath','let path := slashes path\n','','C40: backslashes kept')
e(C,'DocClass.ending','c.suffix.getD [] ++ c.ext','c.ext','C40/C42: suffix ignored')
e(C,'newProject','Str.endsWith fileName c!"_xref" || ','','C42: xref imported')
e(C,'plan','| none => if cfg.newProjects then .ok (newProject contentXml norm fs path) else .error .attributeError','| none => .ok (newProject contentXml norm fs path)','C42 finding (exporter) would be gone')
e(C,'readDoc','if ← isLocked p then raise lockedError','pure ()','C28/C25: locked project read')
e(C,'run','if (fs path).isSome then\n    match plan','if true then\n    match plan','C42: missing source')
