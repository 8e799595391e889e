import json
C=[]
def c(p,status,theorems,note=""):
    C.append(dict(property=p,status=status,theorems=theorems.split(),note=note))
exec(open('/tmp/gen/claims.py').read())
json.dump({"claims":C},open('/verif/MANIFEST.json','w'),indent=1,ensure_ascii=False)
