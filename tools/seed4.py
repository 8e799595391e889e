L=[]
def e(file,defn,old,new,claim,**k): L.append(dict(file='Verif/'+file,defn=defn,old=old,new=new,claim=claim,**k))
W='Model/OdsWrite.lean'; R='Model/OdsRead.lean'; T='Model/OdtText.lean'
e(R,'odsCellText','some (Str.join c!"\\n" (ps.map itertext))','some (Str.join [] (ps.map itertext))','C32: paragraphs of a cell glued together')
e(R,'odsCellText','some (Str.join c!"\\n" (ps.map itertext))','some (itertext (ps.headD (.text [])))','C32: only the first paragraph of a cell is read')
e(R,'odsCells','if i + 1 ≥ k then .ok [content]','if i + 1 > k then .ok [content]','C32: one cell too many accepted')
e(R,'odsCells','min (n - 1) (k - (i + 1))','min n (k - (i + 1))','C32: repeated cell counted once too often')
e(R,'odsCells','content :: List.replicate m content ++ rest','content :: rest','C32: repeated cells dropped')
e(R,'readTable','if rows.all (fun row => row.length = k)','if rows.all (fun row => row.length ≤ k)','C32: short rows accepted')
e(R,'readTable','if rows.all (fun row => row.length = k)','if rows.any (fun row => row.length = k)','C32: one good row suffices')
e(R,'charFromRow','fullName := putCell c.fullName (cellAt row 2) (cellAt row 2)','fullName := putCell c.fullName (cellAt row 3) (cellAt row 3)','C32/C33/C47: wrong column')
e(R,'charFromRow','isMajor := some (Str.contains (cellAt row 7) c!"Major")','isMajor := some (Str.contains (cellAt row 7) c!"Minor")','C33/C47: importance inverted')
e(R,'charFromRow','notes := putCell c.notes (cellAt row 9) (Str.rstrip (cellAt row 9))','notes := c.notes','C33: notes not updated')
e(R,'worldFromRow','aka := putCell e.aka (cellAt row 3) (Str.rstrip (cellAt row 3))','aka := putCell e.aka (cellAt row 3) (Str.rstrip (cellAt row 2))','C33: description as aka')
e(R,'sceneFromRow','goal := putCell s.goal (cellAt row 6) (Str.rstrip (cellAt row 6))\n    conflict := putCell s.conflict (cellAt row 7)','goal := putCell s.goal (cellAt row 7) (Str.rstrip (cellAt row 7))\n    conflict := putCell s.conflict (cellAt row 7)','C33/C47: conflict as goal')
e(R,'sceneFromRow','field3 := ratingOf (cellAt row 13)','field3 := ratingOf (cellAt row 12)','C33/C47: wrong rating')
e(R,'ratingOf','some (if cell ∈ sceneRatings then Str.rstrip cell else c!"1")','some (if cell ∈ sceneRatings then Str.rstrip cell else c!"0")','C47: lowest rating')
e(R,'sceneRatings','c!"9", c!"10"]','c!"9"]','C47: rating 10 lost')
e(R,'statusIndex','((i + 1 : Nat) : Int)','((i : Nat) : Int)','C33/C47: status off by one')
e(R,'sceneFromRow','| none => s.status','| none => none','C33: unknown status clears the status')
e(R,'putCell','if isSetCell old ∨ cell ≠ [] then some value else old','if cell ≠ [] then some value else old','C33: an empty cell does not clear')
e(R,'putCellTags','(old ≠ none ∧ old ≠ some []) ∨ cell ≠ []','cell ≠ []','C33: an empty cell does not clear the tags')
e(R,'rowsLoop','let d := if st.1.has id then st.1 else st.1.set id new','let d := st.1.set id new','C33: other attributes lost')
e(R,'rowsLoop','st.2 ++ [id])','id :: st.2)','C33: order reversed')
e(R,'readCharList','srtCharacters := r.2','srtCharacters := n.srtCharacters','C33: order not taken over')
e(R,'readItemList','items := r.1','locations := r.1','C33: items imported as locations')
e(R,'searchId','.ok (((c :: cs).drop mark.length).takeWhile Str.isDig)','.ok (((c :: cs).drop mark.length).take 1)','C33: only one digit of the ID')
e(W,'charListRow','c!"$Bio", c!"$Goals", c!"$Status"','c!"$Goals", c!"$Bio", c!"$Status"','C32/C47: swapped columns')
e(W,'worldListRow','c!"$Desc", c!"$AKA", c!"$Tags"]','c!"$AKA", c!"$Desc", c!"$Tags"]','C32/C47: swapped columns')
e(W,'charTitles','c!"Tags", c!"Notes"]','c!"Tags"]','C32: header shorter than rows')
e(W,'hideRating','if v = some c!"1" then Dict.set m key [] else m','m','C32: rating 1 shown (harmless for the import)')
e(W,'hideRating','if v = some c!"1" then Dict.set m key [] else m','if v ≠ some c!"1" then Dict.set m key [] else m','C47: ratings lost')
e(W,'odsSceneList','(hideRating c!"Field1" s.field1 m)','(hideRating c!"Field1" s.field2 m)','C47: rating 1 hidden by rating 2')
e(W,'odsRowEnd','table:number-columns-repeated=\\"1014\\"/>\\n    </table:table-row>','table:number-columns-repeated=\\"1014\\">\\n    </table:table-row>','C32: ill-formed row end')
e(W,'odsCellWith','c!"</text:p>\\n     </table:table-cell>\\n"\n\n/-- A text cell','c!"</text:p>\\n"\n\n/-- A text cell','C32: cell not closed')
e(W,'sceneListRow','c!"$Goal", c!"$Conflict", c!"$Outcome"].flatMap odsCell ++\n','c!"$Goal", c!"$Outcome"].flatMap odsCell ++\n','C32: column missing')
e(W,'odsLocList','worldListRow c!"LcID:"','worldListRow c!"ItID:"','C47: locations marked as items')
e(W,'odsFooter','   </table:table>\\n','','C32: table not closed')
