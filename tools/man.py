import json,re
# status map maintained by hand
C={}
def add(p,st,ths,note=""): C[p]=dict(property=p,status=st,theorems=ths,note=note)
exec(open('/tmp/claims.py').read())
json.dump({"claims":[C[k] for k in sorted(C)]},open('/verif/MANIFEST.json','w'),indent=1)
