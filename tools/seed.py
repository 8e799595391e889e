#!/usr/bin/env python3
"""Seeded-bug tests. usage: seed.py batch.py   (batch.py defines L = [dict(id,file,defn,old,new,claim,note?)])"""
import sys,subprocess,re,json,os,shutil
SRC='/verif/lean'; D='/tmp/seed/lean'
def sync():
    os.makedirs(D,exist_ok=True)
    subprocess.run(['rsync','-a','--delete',SRC+'/',D+'/'],check=True) if shutil.which('rsync') else subprocess.run('rm -rf %s && cp -a %s %s'%(D,SRC,D),shell=True,check=True)
def thm_at(f,line):
    ls=open(f).read().split('\n')
    for i in range(min(line,len(ls))-1,-1,-1):
        m=re.match(r'\s*(?:@\[[^\]]*\]\s*)?(?:private |protected |noncomputable )*(theorem|def|example|instance|structure|inductive)\s+(\S+)?',ls[i])
        if m: return (m.group(2) or 'example') if m.group(1)!='example' else 'example(line %d)'%(i+1)
    return '?'
ns={}
exec(open(sys.argv[1]).read(),ns)
sync()
os.makedirs('/verif/seeded',exist_ok=True)
for t in ns['L']:
    f=D+'/'+t['file']; orig=open(f).read()
    if orig.count(t['old'])!=1:
        print('!! pattern count',orig.count(t['old']),t['defn'],repr(t['old'])[:60]); continue
    open(f,'w').write(orig.replace(t['old'],t['new']))
    r=subprocess.run(['lake','build']+os.environ.get('SEED_TARGETS','').split(),cwd=D,capture_output=True,text=True)
    out=r.stdout+r.stderr
    fails=[]
    for m in re.finditer(r'error: (Verif[\w/]*\.lean):(\d+):\d+',out):
        x=thm_at(D+'/'+m.group(1),int(m.group(2)))
        if x not in fails: fails.append(x)
    open(f,'w').write(orig)
    d=dict(definition=t['defn'],file=t['file'],edit=t.get('edit') or ('%s  ==>  %s'%(t['old'].strip(),t['new'].strip())),claim_broken=t['claim'],theorems_failed=fails,theorems_tightened=t.get('tightened',[]))
    if t.get('note'): d['note']=t['note']
    if r.returncode==0: d['result']='SURVIVED'
    open('/verif/seeded/LOG.jsonl','a').write(json.dumps(d,ensure_ascii=False)+'\n')
    print(('SURVIVED ' if r.returncode==0 else 'caught   ')+t['defn'],'|',d['edit'][:90].replace('\n',' '),'|',fails[:6],flush=True)
