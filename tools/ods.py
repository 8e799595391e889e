import re
src=open('/repo/src/pywriter/ods_w/ods_writer.py',encoding='utf-8').read().replace('\r','')
hdr=re.search(r"_CONTENT_XML_HEADER = '''(.*?)'''",src,re.S).group(1)
i=hdr.index('<office:document-content')
def lit(s):
    return 'c!"'+s.replace('\\','\\\\').replace('"','\\"').replace('\n','\\n')+'"'
# split into pieces of at most 300 chars
def pieces(s,n=170):
    out=[]
    while s:
        out.append(s[:n]); s=s[n:]
    return out
L=[]
L.append('''/-
The ODS writers: ods_w/ods_writer.py, ods_w_charlist.py, ods_w_loclist.py, ods_w_itemlist.py, ods_w_scenelist.py.
-/
import Verif.Model.OdtWriters

namespace Verif

/-- `OdsWriter._CONTENT_XML_HEADER` (ods_w/ods_writer.py 24-56), up to the name of the table. -/
def odsHeader : Str :=
  [''')
ps=pieces(hdr)
L.append(',\n   '.join(lit(p) for p in ps)+'].flatten\n')
open('/tmp/w/odshdr.lean','w').write('\n'.join(L))
