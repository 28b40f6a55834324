import json
claims=[]
def c(p,st,th,note=""): claims.append({"property":p,"status":st,"theorems":th,"note":note})
exec(open('/verif/tools/claims.py').read())
json.dump({"claims":claims},open('/verif/MANIFEST.json','w'),indent=1)
