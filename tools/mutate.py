"""usage: mutate.py muts.json   -- each: {file, old, new, definition, edit, claim, props, full?, any?}; any: props are found by building everything"""
import json, subprocess, re, sys, os, shutil, time
SRC='/tmp/mut/src/lean'; W='/tmp/mut/lean'
def sync():
    for top,_,fs in os.walk(SRC+'/Verif'):
        for f in fs:
            a=os.path.join(top,f); b=a.replace(SRC,W,1)
            os.makedirs(os.path.dirname(b),exist_ok=True)
            if not os.path.exists(b) or open(a,'rb').read()!=open(b,'rb').read(): shutil.copy(a,b)
    for f in ['Verif.lean']: shutil.copy(SRC+'/'+f,W+'/'+f)
def deps():
    g={}; kind={}
    for l in open('/tmp/deps.tsv'):
        p=l.rstrip('\n').split('\t')
        if len(p)<4: p+=['']*(4-len(p))
        g[p[0]]=set(p[3].split()); kind[p[0]]=(p[1],p[2])
    return g,kind
def closure(g,bad):
    """all constants that depend on one of bad"""
    rev={}
    for a,us in g.items():
        for u in us: rev.setdefault(u,set()).add(a)
    seen=set(bad); st=list(bad)
    while st:
        x=st.pop()
        for y in rev.get(x,()):
            if y not in seen: seen.add(y); st.append(y)
    return seen
DECL=re.compile(r'^(?:private |protected |@\[[^\]]*\] )*(theorem|example|def|instance|abbrev|structure|inductive)\b\s*(\S*)')
def decl_at(lines,n):
    i=min(n,len(lines))-1
    while i>=0 and not DECL.match(lines[i]): i-=1
    if i<0: return None
    m=DECL.match(lines[i]); 
    j=i+1
    while j<len(lines) and not (lines[j] and not lines[j][0].isspace() and not lines[j].startswith(('|','·'))): j+=1
    ns=[]
    for k in range(i):
        mm=re.match(r'namespace (\S+)',lines[k]); 
        if mm: ns.append(mm.group(1))
        mm=re.match(r'end (\S+)',lines[k])
        if mm and ns and ns[-1]==mm.group(1): ns.pop()
    name='.'.join(ns+[m.group(2)]) if m.group(2) else None
    return m.group(1),name,i,j
def sorryout(lines,i,j):
    txt='\n'.join(lines[i:j]); d=0; k=0
    m=DECL.match(txt); k=m.end()
    while k<len(txt):
        c=txt[k]
        if c in '([{⟨': d+=1
        elif c in ')]}⟩': d-=1
        elif d==0 and txt.startswith(':=',k):
            return txt[:k]+':= sorry'
        elif d==0 and txt.startswith('\n  | ',k):
            return txt[:k]+' := sorry'
        k+=1
    return None
def build(targets=''):
    r=subprocess.run('nice -n 10 lake build '+targets+' 2>&1',shell=True,cwd=W,capture_output=True,text=True,timeout=4000)
    errs={}
    for m in re.finditer(r'^error: (Verif/\S+\.lean):(\d+):\d+',r.stdout,re.M):
        errs.setdefault(m.group(1),set()).add(int(m.group(2)))
    return r.returncode,errs,r.stdout
def run(mut,log):
    t0=time.time(); sync()
    edits=mut.get('edits') or [mut]
    for e in edits:
        p=W+'/Verif/'+e['file']; s=open(p).read()
        if s.count(e['old'])<1: print('!! pattern not found',e['file'],e['old'][:60]); return
        if s.count(e['old'])>1 and not e.get('all'): print('!! ambiguous',s.count(e['old']),e['old'][:60]); return
        open(p,'w').write(s.replace(e['old'],e['new']))
    g,kind=deps(); failed=set(); defs=[]; ex=[]; note=''
    targets=' '.join(sorted({m for c,(m,k) in kind.items() if k=='thm' and any(re.match(r'Metro2\.'+p+r'(_|$)',c) for p in mut['props'])}))
    for it in range(mut.get('iters',8)):
        rc,errs,out=build('' if mut.get('full') else targets)
        if rc==0: break
        if not errs: note='build failed without located error: '+out[-300:]; break
        stop=False
        for f,ls in errs.items():
            p=W+'/'+f; lines=open(p).read().split('\n')
            ds={}
            for n in ls:
                d=decl_at(lines,n)
                if d: ds[d[2]]=d
            for i in sorted(ds,reverse=True):
                k,name,i,j=ds[i]
                if k=='example': ex.append(f); lines[i:j]=[]
                elif k=='theorem':
                    failed.add(name); t=sorryout(lines,i,j)
                    if t is None: stop=True; note='cannot sorry '+str(name)
                    else: lines[i:j]=t.split('\n')
                else: defs.append(name); stop=True
            open(p,'w').write('\n'.join(lines))
        cl=closure(g,failed|set(d for d in defs if d))
        hit=[p for p in mut['props'] if any(re.match(r'Metro2\.'+p+r'(_|$)',c) for c in cl)]
        if stop or (set(hit)==set(mut['props']) and not mut.get('full')): break
    cl=closure(g,failed|set(d for d in defs if d))
    props=sorted(c[7:] for c in cl if re.match(r'Metro2\.C\d\d',c))
    hit=[p for p in mut['props'] if any(re.match(p+r'(_|$)',c) for c in props)]
    if mut.get('any'): mut['props']=hit=sorted({c.split('_')[0] for c in props})
    rec={'definition':mut['definition'],'edit':mut['edit'],'claim':mut['claim'],'properties':mut['props'],
         'theorems_failed':props,'first_failures':sorted(str(x) for x in failed|set(defs))[:12],'theorems_tightened':mut.get('tightened',[])}
    if ex: rec['examples_failed']=sorted(set(ex))
    if note: rec['note']=note
    rec['detected']=len(hit)==len(mut['props']) and bool(hit)
    print(json.dumps(rec,ensure_ascii=False)); print('   hit',hit,'iters',it+1,'time',round(time.time()-t0)); sys.stdout.flush()
    open(log,'a').write(json.dumps(rec,ensure_ascii=False)+'\n')
if __name__=='__main__':
    log=sys.argv[2] if len(sys.argv)>2 else '/tmp/mut/log.jsonl'
    for m in json.load(open(sys.argv[1])): 
        try: run(m,log)
        except Exception as e: print('EXC',m.get('edit'),repr(e)); sys.stdout.flush()
