import re
def src(f,name):
    t=open('/repo/src/pywriter/'+f,encoding='utf-8',newline='').read().replace('\r\n','\n')
    m=re.search(name+r" = '''(.*?)'''",t,re.S) or re.search(name+r" = '([^'\n]*)'",t)
    a=t[:m.start()].count('\n')+1; b=a+m.group(0).count('\n')
    return m.group(1),(f'{a}-{b}' if b>a else f'{a}')
def lean(s):
    assert '\\' not in s
    return 'c!"'+s.replace('"','\\"').replace('\n','\\n')+'"'
out=[]
def chunks(s,n=2600):
    res=[];cur=''
    for l in s.splitlines(True):
        if len(cur)+len(l)>n and cur: res.append(cur);cur=''
        cur+=l
    if cur: res.append(cur)
    return res
def d(name,f,py):
    s,ln=src(f,py); cs=chunks(s); doc=f'`{py}` ({f.split("/")[1]} {ln})'
    if len(cs)==1:
        out.append(f'/-- {doc}. -/\ndef {name} : Str :=\n  {lean(s)}\n'); return
    for i,c in enumerate(cs):
        out.append(f'/-- {doc}, part {i+1}. -/\ndef {name}{i+1} : Str :=\n  {lean(c)}\n')
    out.append(f'/-- {doc}. -/\ndef {name} : Str := '+' ++ ('.join(f'{name}{i+1}' for i in range(len(cs)))+')'*(len(cs)-1)+'\n')
for p,f in (('odt','odt_w/odt_writer.py'),('ods','ods_w/ods_writer.py')):
    d(p+'Mimetype',f,'_MIMETYPE'); d(p+'ManifestXml',f,'_MANIFEST_XML'); d(p+'SettingsXml',f,'_SETTINGS_XML')
d('odtManifestRdf','odt_w/odt_writer.py','_MANIFEST_RDF')
open('/verif/lean/Verif/Model/OdfPackage.lean','w').write('''/-
The constant files of ODF documents: `mimetype`, `settings.xml`, `META-INF/manifest.xml` and `manifest.rdf` (`OdfFile._set_up`, `OdtWriter._set_up`).
The texts are generated from the source text; long ones are divided at line ends.
-/
import Verif.Py.Str

namespace Verif

'''+'\n'.join(out)+'\nend Verif\n')
