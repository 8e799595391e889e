L=[]
def e(file,defn,old,new,claim,note=None,tightened=None):
    d=dict(file='Verif/Model/'+file,defn=defn,old=old,new=new,claim=claim)
    if note: d['note']=note
    if tightened: d['tightened']=tightened
    L.append(d)
F='Filters.lean'
e(F,'scenesFiltered','if f.scene scId = false then scenesFiltered f x n chType notExported first k r','if f.scene scId = false then scenesFiltered f x n chType notExported false k r','C75: a divider is left of a rejected first scene')
e(F,'scenesFiltered','if f.scene scId = false then scenesFiltered f x n chType notExported first k r','if f.scene scId = false then scenesFiltered f x n chType notExported first { k with number := k.number + 1 } r','C75: rejected scenes are counted')
e(F,'scenesFiltered','if f.scene scId = false then','if f.scene scId = true then','C75: the filter is inverted')
e(F,'chaptersFiltered','if f.chapter chId = false then chaptersFiltered f x n chNumber k r','if f.chapter chId = false then chaptersFiltered f x n (chNumber + 1) k r','C75: rejected chapters are counted')
e(F,'chaptersFiltered','if f.chapter chId = false then','if f.scene chId = false then','C75: the wrong filter is asked')
e(F,'chaptersFiltered','let notExported ← chapterNotExported n ch.srtScenes','let notExported ← chapterNotExported n (ch.srtScenes.filter f.scene)','C75_marks_matter: the finding would be wrong')
e(F,'chaptersFiltered','let (scenes, k\') ← scenesFiltered f x n ch.chType notExported true k ch.srtScenes','let (scenes, k\') ← scenesLoop x n ch.chType notExported true k ch.srtScenes','C75: the scene filter is not asked')
e(F,'elementsFiltered','else elementsFiltered accept t mapping r','else .ok []','C75: the list ends at a rejected element')
e(F,'filteredText','let locations ← elementsFiltered f.location','let locations ← elementsFiltered f.item','C75: locations by the item filter')
e(F,'filteredText','let items ← elementsFiltered f.item x.item (x.itemMapping n) n.srtItems','let items ← elementLines x.item (x.itemMapping n) n.srtItems','C75: items are not filtered')
e(F,'filteredText','let notes ← elementLines x.projectNote (x.noteMapping n) n.srtPrjNotes','let notes ← elementsFiltered f.item x.projectNote (x.noteMapping n) n.srtPrjNotes','C75: notes rejected by the item filter')
e('Export.lean','Base.chapter','(c!"Desc", b.conv n ch.desc false), (c!"ProjectName", b.conv n (some b.projectName) true)','(c!"Desc", Str.ofNat ch.srtScenes.length), (c!"ProjectName", b.conv n (some b.projectName) true)','C75: the number of all scenes is shown with the chapter')
