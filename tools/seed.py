# Seeded-bug runner (works in /tmp/seed, never in /verif).
# usage: python3 tools/seed.py FILE 'old' 'new' [--log 'definition' 'claim broken'] [--tight 'text']
# Applies the edit to the scratch copy, rebuilds; every declaration whose proof fails is replaced by
# sorry and the build is repeated, so that at the end the property theorems (Cnn_*) that no longer
# hold are those that failed themselves or depend on sorryAx.
import sys,os,re,subprocess,json,glob,shutil
ROOT="/verif"; W="/tmp/seed/lean"
def sh(c,**k): return subprocess.run(c,shell=True,capture_output=True,text=True,**k)
def prep():  # a snapshot of the project, so that work in /verif can go on meanwhile
    os.makedirs("/tmp/seed",exist_ok=True)
    if not os.path.isdir("/tmp/seed/snap"): sh("cp -a /verif/lean /tmp/seed/snap")
    sh("rm -rf /tmp/seed/lean; cp -a /tmp/seed/snap /tmp/seed/lean")
DECL=re.compile(r"^(?:@\[[^\]]*\]\s*)?(?:private |noncomputable )?(theorem|lemma|example|def|instance)\b\s*([\w.']*)")
def decl_at(lines,ln):
    i=ln
    while i>=0 and not DECL.match(lines[i]): i-=1
    if i<0: return None
    j=i+1
    while j<len(lines) and (lines[j].strip()=="" or lines[j][0] in " \t" or lines[j].startswith("termination_by") or lines[j].startswith("decreasing_by")or lines[j][0] in "|·"): j+=1
    return i,j,DECL.match(lines[i]).group(1),DECL.match(lines[i]).group(2)
def cut(text):
    d=0;k=0
    while k<len(text)-1:
        c=text[k]
        if c in "([{⟨": d+=1
        elif c in ")]}⟩": d-=1
        elif text.startswith(":=",k) and d==0 and not text[text.rfind("\n",0,k)+1:k].lstrip().startswith("let "):
            return text[:k]+":= sorry\n\n"
        elif text.startswith("\n  | ",k) and d==0:
            return text[:k]+" := sorry\n\n"
        k+=1
    return None
def run(fn,old,new,targets=None):
    prep()
    targets=targets or ["Verif"]
    p=os.path.join(W,fn); s=open(p).read()
    assert s.count(old)>=1,"old text not found"
    if s.count(old)>1: print("warning: multiple occurrences, first edited")
    open(p,"w").write(s.replace(old,new,1))
    failed=[]
    for it in range(60):
        q=sh("lake build %s 2>&1"%" ".join(targets),cwd=W); r=q.stdout
        errs=set(re.findall(r"error: (Verif/[\w/]+\.lean):(\d+):",r))
        if not errs:
            if q.returncode!=0: print(r[-3000:]); return None
            break
        byfile={}
        for f,l in errs: byfile.setdefault(f,set()).add(int(l)-1)
        for f,ls in byfile.items():
            lines=open(os.path.join(W,f)).read().split("\n")
            spans={}
            for l in ls:
                d=decl_at(lines,l)
                if d is None: print("no decl",f,l); return None
                spans[d[0]]=d
            for i in sorted(spans,reverse=True):
                a,b,kind,name=spans[i]
                text="\n".join(lines[a:b])+"\n"
                failed.append((kind+" "+name).strip()+" ["+f+"]")
                if kind=="example": lines[a:b]=["example : True := trivial",""]
                else:
                    if kind in("def","instance"): print("def fails",name); 
                    if text.rstrip().endswith("sorry"): print("still failing",name,r[-2000:]); return None
                    t=cut(text)
                    if t is None: print("cannot cut",name); return None
                    lines[a:b]=t.split("\n")
            open(os.path.join(W,f),"w").write("\n".join(lines))
    thms=[t for f in (glob.glob(W+"/Verif/Props/*.lean") if targets==["Verif"] else [W+"/"+t.replace(".","/")+".lean" for t in targets]) for t in re.findall(r"^theorem (C\d+_[\w']+)",open(f).read(),re.M)]
    open(W+"/Ax.lean","w").write("".join("import %s\n"%t for t in targets)+"".join("#print axioms %s\n"%t for t in thms))
    r=sh("lake env lean Ax.lean 2>&1",cwd=W).stdout
    bad=[]
    for t in thms:
        m=re.search(r"'%s' (does not depend|depends on axioms: \[([^\]]*)\])"%re.escape(t),r,re.S)
        assert m,"no axioms reported for "+t
        if m.group(2) and "sorryAx" in m.group(2): bad.append(t)
    return failed,sorted(bad)
def log(definition,claim,fn,old,new,res,tight):
    failed,bad=res
    o=dict(definition=definition,edit="%s: replaced `%s` by `%s`"%(fn,old,new),claim_broken=claim,failed=bad,failed_helpers=[x for x in failed if not re.match(r"theorem C\d",x)],tightened=tight)
    open(ROOT+"/seeded/LOG.jsonl","a").write(json.dumps(o,ensure_ascii=False)+"\n")
if __name__=="__main__":
    a=sys.argv[1:]
    shutil.rmtree("/tmp/seed/snap",ignore_errors=True)
    if a[0]=="--batch":   # JSON list of [file, old, new, definition, claim, modules of properties to try first (default all)]
        for fn,old,new,d,c,*t in json.load(open(a[1])):
            print("==",d,"|",old,"->",new,flush=True)
            try:
                res=run(fn,old,new,t[0] if t else None)
                if t and res is not None and not res[1]: res=run(fn,old,new)
            except AssertionError as e: print(e); continue
            if res is None: print("inconclusive",flush=True); continue
            print("LOST:",res[1],"HELPERS:",res[0],flush=True)
            log(d,c,fn,old,new,res,[])
        sys.exit()
    res=run(a[0],a[1],a[2])
    if res is None: sys.exit("inconclusive")
    failed,bad=res
    print("FAILED DECLS:",*failed,sep="\n  "); print("PROPERTY THEOREMS LOST:",*bad,sep="\n  ")
    if "--log" in a:
        i=a.index("--log"); tight=a[a.index("--tight")+1].split(",") if "--tight" in a else []
        log(a[i+1],a[i+2],a[0],a[1],a[2],res,tight)
