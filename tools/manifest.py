import json
C={}
def c(i,s,t,n=""):
    C[i]={"property":i,"status":s,"theorems":["Verif."+x for x in t.split()],"note":n}
exec(open('/verif/tools/claims.py').read())
ids=[json.loads(l)["id"] for l in open('/verif/properties.jsonl')]
out=[]
for i in ids:
    out.append(C.get(i,{"property":i,"status":"partial","theorems":[],"note":"not yet modelled"}))
json.dump({"claims":out},open('/verif/MANIFEST.json','w'),indent=1)
print(len(C),'of',len(ids))
