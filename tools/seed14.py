L=[]
def e(file,defn,old,new,claim,note=None,tightened=None):
    d=dict(file='Verif/Model/'+file,defn=defn,old=old,new=new,claim=claim)
    if note: d['note']=note
    if tightened: d['tightened']=tightened
    L.append(d)
P='Links.lean'
e(P,'hexUpper','55 + n','87 + n','C68: lower-case digits',note='still read back; the quoted text differs from that of urllib')
e(P,'quoteByte','hexUpper (b.toNat / 16), hexUpper (b.toNat % 16)','hexUpper (b.toNat % 16), hexUpper (b.toNat / 16)','C68: digits exchanged')
e(P,'quoteByte','Char.ofNat b.toNat ∈ alwaysSafe ∨ Char.ofNat b.toNat ∈ safe','Char.ofNat b.toNat ∈ alwaysSafe ∨ b.toNat = 37 ∨ Char.ofNat b.toNat ∈ safe','C68: percent signs not quoted')
e(P,'alwaysSafe','0123456789_.-~"','0123456789_.-~#"','C68: # not quoted')
e(P,'alwaysSafe','0123456789_.-~"','0123456789_.-~&"','C68: & not quoted, the document is broken')
e(P,'quote','(utf8 s).flatMap (quoteByte safe)','s.flatMap fun c => quoteByte safe (UInt8.ofNat c.toNat)','C68: latin-1 instead of UTF-8')
e(P,'pathSplit','let tail := (p.reverse.takeWhile (· ≠ \'/\')).reverse','let tail := (p.reverse.takeWhile (fun c => c ≠ \'/\' && c ≠ \'.\')).reverse','C68: the name is cut at a point')
e(P,'projectNames','quote (Path.slashes p.1) c!"/:"','quote (Path.slashes p.1) c!"/:?"','C68: ? not quoted in the path')
e(P,'projectNames','quote (Str.replace p.2 c.ending []) c!"/"','Str.replace p.2 c.ending []','C68: the name is not quoted')
e(P,'projectNames','quote (Str.replace p.2 c.ending []) c!"/"','quote (Str.replace p.2 c.ext []) c!"/"','C68: the suffix is kept in the name')
e(P,'projectNames','quote (Str.replace p.2 c.ending []) c!"/"','quote p.2 c!"/"','C68: the ending is kept in the name')
e(P,'projectNames','pathSplit ((realpath path).getD path)','pathSplit path','C68: the path in the scene list is not the real one')
X='OdtXref.lean'
F='Facade.lean'
e(F,'answer','| .silent => true','| .silent => false','C69: the silent mode refuses')
e(F,'answer','Str.lower (user.types (consolePrompt text)) == c!"y"','user.types (consolePrompt text) == c!"y"','C69: Y is no consent')
e(F,'answer','Str.lower (user.types (consolePrompt text)) == c!"y"','Str.startsWith (Str.lower (user.types (consolePrompt text))) c!"y"','C69: other texts are consent')
e(F,'answer','| _ => user.clicks text','| _ => !user.clicks text','C69: No is consent')
e(F,'ask','shown := s.shown ++ [.box .question s.title text]','shown := s.shown ++ [.box .warning s.title text]','C69: a warning instead of a question')
e(F,'setInfoHow','{ s with shown := s.shown ++ [.err message], infoHowText := message }','{ s with infoHowText := message }','C69: the failure is not written to stderr')
e(F,'setInfoHow','{ s with shown := s.shown ++ [.err message], infoHowText := message }','{ s with shown := s.shown ++ [.err message] }','C69: the failure is not buffered')
e(F,'setInfoHow','[.box .error s.title (unmarked message)]','[.box .info s.title (unmarked message)]','C69: a failure looks like a success')
e(F,'setInfoHow','{ s with color := .red, infoHowText := unmarked message } else','{ s with color := .green, infoHowText := unmarked message } else','C69: a failure looks like a success')
e(F,'setInfoHow','{ s with processInfo := s.infoHowText }','s','C69: the label is not updated')
e(F,'setInfoHow','{ s with infoHowText := message, shown := s.shown ++ [.out message] }','{ s with infoHowText := message }','C69: the console does not show the result')
e(F,'setInfoWhat','| .console => { s with shown := s.shown ++ [.out message] }','| .console => { s with infoWhatText := message }','C69: the console does not show the announcement')
e(F,'showWarning','[.box .warning s.title message]','[.box .error s.title message]','C69: a warning looks like an error')
e(F,'talkCheck','if ← io (isfile t) then','if !(← io (isfile t)) then','C69: questions about new files only')
e(F,'talkCheck','(overwriteQuestion (env.norm t))','(overwriteQuestion (env.norm s))','C69: the question names the source')
e(F,'talkCheck','if !(← askYesNo answer','if (← askYesNo answer','C69: No is consent')
e(F,'talkConclude',"    say (.how ('!' :: env.describe e))\n    return none","    say (.how (env.describe e))\n    return none",'C69: a failure looks like a success')
e(F,'talkConclude',"    say (.how ('!' :: env.describe e))\n    return none","    return none",'C69: no result')
e(F,'talkConclude',"    say (.how ('!' :: env.describe e))\n    return none","    say (.how ('!' :: env.describe e))\n    return target.filePath",'C69: failure, but newFile is set')
e(F,'talkConclude','if split then say (.warn','if !split then say (.warn','C69: warning without a reason')
e(F,'talkConclude',"    return target.filePath","    return none",'C69: success, but newFile is not set')
e(F,'talkCreate','if ← io (isfile (target.filePath.getD [])) then','if false then','C69: existing projects are replaced by new ones after a question')
e(F,'talkCreate','!File already exists','File already exists','C69: a failure looks like a success')
e(F,'talkExport','  say (.what (inputOutput env description source target))\n  talkConclude env target do\n    talkCheck env answer source target\n    let n ←','  say (.what (inputOutput env description source target))\n  talkConclude env target do\n    let n ←','C69: an export does not check')
e(F,'talkImport','let old ← io (readDoc env target env.empty)','let old ← io (readDoc env source env.empty)','C69: the project is not read')
e(F,'talkRun','| .ok (.update s t) => talkImport env description answer s t fs fl','| .ok (.update s t) => talkExport env description answer s t fs fl','C69: the project is replaced')
e(F,'talkRun',"[.how ('!' :: msg)]","[]",'C69: a refusal is not shown')
