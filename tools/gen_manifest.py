#!/usr/bin/env python3
"""Write MANIFEST.json from the table below."""
import json
P="Verif.Props."
claims=[]
def c(pid,status,ths,note=""):
    claims.append({"property":pid,"status":status,"theorems":[P+t for t in ths],"note":note})
exec(open(__file__.replace("gen_manifest.py","manifest_table.py")).read())
json.dump({"claims":claims},open("/verif/MANIFEST.json","w"),indent=1)
print(len(claims),"claims")
