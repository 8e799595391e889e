L=[]
def e(file,defn,old,new,claim,note=None,tightened=None):
    d=dict(file='Verif/'+file,defn=defn,old=old,new=new,claim=claim)
    if note: d['note']=note
    if tightened: d['tightened']=tightened
    L.append(d)
S='Props/C24_C25_Save.lean'; K='Model/OdfPackage.lean'; P='Model/Program.lean'; O='Model/OdtProof.lean'; R='Model/OdtRead.lean'; W='Model/OdtWriters.lean'
B='Model/BulkPo.lean'; T='Model/OdtText.lean'
e(B,'bulkUpdate','    bulkProject (now name) parse root name\n    bulkUpdate now parse root r','    bulkProject (now name) parse root name\n    bulkUpdate now parse name r','C77: the relative path after changing the directory is wrong')
e(B,'bulkProject','let _ ← writeChecked (poPath root name) (bulkText now pot po json)','let _ ← writeFile (poPath root name) (bulkText now pot po json)','C77_kept: the translation file is written without backup')
e(B,'bulkProject','let _ ← writeChecked (poPath root name) (bulkText now pot po json)','let _ ← writeChecked (potPath root name) (bulkText now pot po json)','C77_only: the template is overwritten')
e(B,'mergeJson','| some j => j.foldl (fun d p => d.set p.1 p.2) d','| some j => d.foldl (fun d p => d.set p.1 p.2) j','C77_updated: the old translations win over JSON entries')
e(B,'bulkEnv','⟨[], c!"unknown", now⟩','⟨c!"PyWriter", c!"unknown", now⟩','C77_lost: the header would have a name')
e(B,'bulkProject','    let pot ← readFile (potPath root name)\n    let po','    let pot ← tryExcept (readFile (potPath root name)) (fun _ => return [])\n    let po','C77_stops: a missing template does not stop the run, but empties the file')
e(B,'readJsonFile','    | none => raise .valueError) fun _ => return none','    | none => raise .valueError) fun x => raise x','C77_updated: an unreadable JSON dictionary stops the run')
e(B,'translateDe','if (← writeChecked po r.text) && r.complete then','if ← writeChecked po r.text then','C77_incomplete: incomplete translations are compiled')
e(B,'translateDe','    makeFile compile po mo\n    copyFile mo copy','    makeFile compile pot mo\n    copyFile mo copy','C77_compiled: the template is compiled')
e(B,'translateDe','    makeFile compile po mo\n    copyFile mo copy','    makeFile compile po mo\n    copyFile copy mo','C77_compiled: the old copy overwrites the new catalogue')
e(B,'makeFile','tryExcept (writeFile mo c) fun _ => return ()','writeFile mo c','C77_damaged: the finding would be wrong')
e(T,'balanceTag','  let line3 := openLoop op cl (r.1.length + 1) r.1\n','  let line3 := r.1\n','C56_mended: missing opening tags are not added')
e(T,'balanceTag','  (Str.replace line3 (op ++ cl) [], r.2)','  (line3, r.2)','C56_mended: empty spans stay (harmless?)',note='empty spans do not change what the document shows')
e(T,'balanceTag','  let line1 := if isOpen then','  let line1 := if false then','C56: a span over several lines is lost on the later lines')
e(T,'balanceText','Str.rstrip (Str.join c!"\\n" (balanceLines','Str.strip (Str.join c!"\\n" (balanceLines','C56_mended: blanks at the beginning are dropped')
e(T,'balanceText','(Str.split text c!"\\n"))','(Str.split text c!"\\n\\n"))','C56_mended: spans are closed only at blank lines')
e(T,'odtExportConvert','(if quick then text else some (removeInlineCode text))','text','C56: raw code stays in the document')
e(T,'convertNotes','Str.replace (Str.replace t3 c!"@r@" c!"\\r") c!"@n@" c!"\\n"','Str.replace t3 c!"@r@" c!"\\r"','C56: line ends after a comment are lost')
