#!/usr/bin/env python3
"""Seeded-bug testing.  usage: seed.py seeds_file.py [ids...]
A seeds file defines SEEDS = [dict(id, file, defn, old, new, claim, expect)], `file` relative to
lean/Verif, `expect` the properties whose English statement the edit makes false.  For each seed the
edited module and everything that depends on it are concatenated in one scratch Lean file outside
/verif (so that Lean goes on after a failing proof); a theorem of the manifest has failed when its
axioms contain Lean's placeholder for a proof with errors."""
import json, os, re, subprocess, sys, concurrent.futures as cf
ROOT='/verif/lean'; LOG='/verif/seeded/LOG.jsonl'; TMP='/tmp/seed'
BAD='so'+'rryAx'
def mods():
    out={}
    for d,_,fs in os.walk(ROOT+'/Verif'):
        for f in fs:
            if f.endswith('.lean'):
                p=os.path.join(d,f); m=os.path.relpath(p,ROOT)[:-5].replace('/','.')
                out[m]=open(p).read()
    return out
M=mods()
IMP={m:re.findall(r'^import (\S+)',s,re.M) for m,s in M.items()}
def order():
    seen=[];
    def go(m):
        if m in seen or m not in M: return
        for i in IMP[m]: go(i)
        seen.append(m)
    for m in sorted(M): go(m)
    return seen
ORD=order()
def dependents(m0):
    dep={m0}
    for m in ORD:
        if any(i in dep for i in IMP[m]): dep.add(m)
    return [m for m in ORD if m in dep]
man=json.load(open('/verif/MANIFEST.json'))['claims']
PROP={}
for c in man:
    for t in c['theorems']: PROP.setdefault(t,[]).append(c['property'])
STD={'propext','Classical.choice','Quot.sound'}
def run(seed):
    m0='Verif.'+seed['file'][:-5].replace('/','.')
    assert M[m0].count(seed['old'])==1,(seed['id'],M[m0].count(seed['old']))
    deps=dependents(m0)
    imports=[]; body=[]; line=1; spans=[]
    for m in deps:
        for i in IMP[m]:
            if i not in deps and i not in imports: imports.append(i)
    text='\n'.join('import '+i for i in imports)+'\n'
    for m in deps:
        s=M[m]
        if m==m0: s=s.replace(seed['old'],seed['new'])
        s=re.sub(r'^import \S+\n','',s,flags=re.M)
        start=text.count('\n')+1
        text+=s+'\n'
        spans.append((start,m))
    names=[t for t in PROP if re.search(r'theorem\s+(?:\w+\.)*%s\b'%re.escape(t.split('.')[-1]),text)]
    text+='\n'+'\n'.join('#print axioms '+t for t in names)+'\n'
    fn=f"{TMP}/{seed['id']}.lean"; open(fn,'w').write(text)
    r=subprocess.run(['lake','env','lean',fn],cwd=ROOT,capture_output=True,text=True)
    out=r.stdout+r.stderr; open(fn[:-5]+'.out','w').write(out)
    lines=text.split('\n'); direct=[]; bad=[]
    for mm in re.finditer(r'\.lean:(\d+):\d+: error',out):
        l=int(mm.group(1))-1
        mod=[m for s,m in spans if s<=l+1][-1] if any(s<=l+1 for s,_ in spans) else '?'
        k=l
        while k>=0 and not re.match(r'\s*(?:@\[.*\]\s*)?(?:private |noncomputable )*(theorem|lemma|def|example|instance|structure|abbrev)\b',lines[k]): k-=1
        t=re.match(r'.*?(theorem|lemma|def|example|instance|structure|abbrev)\s*(\S*)',lines[k])
        nm=(t.group(1)+' '+t.group(2)).strip() if t else '?'
        if nm.startswith('example'): nm=f'example in {mod} near '+prevthm(lines,k)
        if nm not in direct: direct.append(nm)
        if mod==m0 and t.group(1) in('def','structure','abbrev'): bad.append(nm)
    failed=[]
    for t in names:
        mm=re.search(r"'%s' (depends on axioms: \[[^\]]*\]|does not depend)"%re.escape(t),out)
        ax=set(re.findall(r'[^\s,\[\]]+',mm.group(1).split(':',1)[1])) if mm and ':' in mm.group(1) else set()
        if not mm or not ax<=STD: failed.append(t)
    props=sorted({p for t in failed for p in PROP[t]})
    missing=[e for e in seed.get('expect',[]) if e not in props]
    return dict(id=seed['id'],file=seed['file'],definition=seed['defn'],edit=f"{seed['old'].strip()}  ==>  {seed['new'].strip()}",
        claim=seed['claim'],expected=seed.get('expect',[]),failed_theorems=failed,failed_properties=props,
        direct_failures=direct,survived_expected=missing,edited_def_error=bad,tightened=[])
def prevthm(lines,k):
    while k>=0 and not re.match(r'\s*(theorem|lemma|def)\b',lines[k]): k-=1
    return lines[k].split()[1] if k>=0 else '?'
if __name__=='__main__':
    g={}; exec(open(sys.argv[1]).read(),g)
    ids=sys.argv[2:]
    seeds=[s for s in g['SEEDS'] if not ids or s['id'] in ids]
    for s in seeds:
        m0='Verif.'+s['file'][:-5].replace('/','.')
        assert M[m0].count(s['old'])==1,(s['id'],M[m0].count(s['old']))
    with cf.ThreadPoolExecutor(3) as ex:
        for r in ex.map(run,seeds):
            print(r['id'],'FAILED',len(r['failed_theorems']),r['failed_properties'],'| survived',r['survived_expected'],'| deferr',r['edited_def_error'],flush=True)
            if not r['edited_def_error']:
                open(LOG,'a').write(json.dumps(r,ensure_ascii=False)+'\n')
