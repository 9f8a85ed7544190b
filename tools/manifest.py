# Regenerates MANIFEST.json and lean/Verif.lean from the theorem names in lean/Verif/Props
# (theorems are named Cnn_...); statuses/notes come from tools/notes.json
import re,glob,json,os
root=os.path.join(os.path.dirname(os.path.abspath(__file__)),"..")
notes=json.load(open(os.path.join(root,"tools/notes.json")))
thms={}
for f in sorted(glob.glob(root+"/lean/Verif/Props/*.lean")):
    for m in re.finditer(r"^theorem (C\d+_[\w']+)",open(f).read(),re.M):
        thms.setdefault(m.group(1).split("_")[0],[]).append(m.group(1))
claims=[]
for l in open(root+"/properties.jsonl"):
    p=json.loads(l)["id"]
    n=notes.get(p,{})
    if p in thms:
        bad=any(t.endswith("_partial") or "violated" in t for t in thms[p])
        st=n.get("status","partial" if bad else "proved")
        claims.append({"property":p,"status":st,"theorems":thms[p],"note":n.get("note","")})
    elif n.get("status")=="not_applicable":
        claims.append({"property":p,"status":"not_applicable","theorems":[],"note":n["note"]})
json.dump({"claims":claims},open(root+"/MANIFEST.json","w"),ensure_ascii=False,indent=1)
mods=sorted(os.path.relpath(f,root+"/lean")[:-5].replace("/",".") for f in glob.glob(root+"/lean/Verif/**/*.lean",recursive=True))
open(root+"/lean/Verif.lean","w").write("".join("import %s\n"%m for m in mods))
missing=[json.loads(l)["id"] for l in open(root+"/properties.jsonl") if json.loads(l)["id"] not in [c["property"] for c in claims]]
print(len(claims),"claims; missing:",missing)
