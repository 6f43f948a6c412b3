#!/usr/bin/env python3
"""Check the source citations of the model.

A citation is `name`, file.rs:a-b (or `:a-b`, meaning the last file named).  It is accepted when its lines lie inside the
definition (fn, const, struct, macro, impl) that the nearest preceding `name` denotes in that file.  Everything else is
printed, with the extent of the closest definition of that name or with the first and last line cited, to be read by hand.
Usage: check_citations.py [MODULE ...]
"""
import os,re,sys
REPO="/repo"
files={}
for d,_,fs in os.walk(REPO):
    for f in fs:
        if f.endswith(".rs"):
            p=os.path.relpath(os.path.join(d,f),REPO); files[p]=open(os.path.join(REPO,p)).read().split("\n")
def extent(L,i):
    depth=0;seen=False
    for j in range(i,len(L)):
        s=re.sub(r"//.*","",L[j]); s=re.sub(r'"[^"]*"|\'.\'','',s)
        for ch in s:
            if ch in "{([": depth+=1;  seen = seen or ch=="{"
            elif ch in "})]":
                depth-=1
                if depth==0 and ch=="}" : return i+1,j+1
            elif ch==";" and depth==0: return i+1,j+1
    return i+1,len(L)
defs={}
for p,L in files.items():
    for i,l in enumerate(L):
        m=re.search(r"\b(?:fn|const|static|struct|type|macro_rules!)\s+([A-Za-z_]\w*)",l)
        if m and not l.strip().startswith("//"): defs.setdefault((p,m.group(1)),[]).append(extent(L,i))
        m=re.search(r"\bimpl\b.*?\b(\w+)(?:<[^>]*>)?\s+for\b",l)
        if m: defs.setdefault((p,"impl "+m.group(1)),[]).append(extent(L,i))
def resolve(name,prefer,last):
    name=name.lstrip("/").removeprefix("repo/")
    c=[p for p in files if p==name or p.endswith("/"+name)]
    if len(c)>1: c=[p for p in c if any(p.startswith(x) for x in prefer)] or c
    if len(c)>1 and last: c=[p for p in c if os.path.dirname(p)==os.path.dirname(last)] or [p for p in c if p.split("/")[0]==last.split("/")[0]] or c
    return c
root="/verif/lean/Verif/Model"
for fn in sys.argv[1:] or sorted(f[:-5] for f in os.listdir(root) if f.endswith(".lean")):
    t=open(f"{root}/{fn}.lean").read()
    prefer=re.findall(r"/repo/([A-Za-z0-9_/-]+)/src",t) or re.findall(r"\b([a-z0-9-]+)/src",t)
    last=None
    for m in re.finditer(r"/-[-!]?(.*?)-/",t,re.S):
        c=m.group(1); line=t.count("\n",0,m.start())+1
        for k in re.finditer(r"([A-Za-z0-9_/.-]+\.rs)?:(\d+)(?:-(\d+))?|, (\d+)-(\d+)",c):
            if k.group(1):
                r=resolve(k.group(1),prefer,last)
                if len(r)!=1: print(f"{fn}:{line} AMBIG {k.group(0)} {r}"); continue
                last=r[0]
            if not last: continue
            a=int(k.group(2) or k.group(4)); b=int(k.group(3) or k.group(5) or a)
            L=files[last]
            before=re.findall(r"`([^`]+)`",c[:k.start()])
            nm=before[-1] if before else ""
            ids=re.findall(r"[A-Za-z_]\w*",nm)
            ds=[x for i in ids for x in defs.get((last,i),[])+defs.get((last,"impl "+i),[])]
            st="?"
            if ds:
                best=min(ds,key=lambda x:abs(x[0]-a)+abs(x[1]-b))
                if best[0]-2<=a and b<=best[1]+1: st="ok"
                else: st=f"FIX -> {best[0]}-{best[1]}"
            if st!="ok" or "-v" in os.environ.get("V",""):
                first=L[a-1].strip()[:60] if a<=len(L) else "EOF"
                lastl=L[b-1].strip()[:40] if b<=len(L) else "EOF"
                print(f"{fn}:{line} [{nm}] {last}:{a}-{b} {st} | {first} … {lastl}")
