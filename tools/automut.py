#!/usr/bin/env python3
"""Systematic mutation of the model.  usage: automut.py out.jsonl File.lean... (relative to lean/Verif)
Every definition of the given files is edited in one place at a time (comparison, operator, number,
Boolean, projection, branch); a mutant survives when it elaborates and no theorem of the manifest fails."""
import sys, re, json, os, concurrent.futures as cf
sys.path.insert(0,'/verif/tools')
import seed as S
def blank_comments(t):
    out=list(t); i=0; depth=0
    instr=False
    while i<len(t):
        if depth==0 and not instr and t.startswith('--',i):
            while i<len(t) and t[i]!='\n': out[i]=' '; i+=1
            continue
        if not instr and t.startswith('/-',i): depth+=1; out[i]=out[i+1]=' '; i+=2; continue
        if depth and t.startswith('-/',i): depth-=1; out[i]=out[i+1]=' '; i+=2; continue
        if depth:
            if t[i]!='\n': out[i]=' '
        elif t[i]=='"' and t[i-1]!="'": instr=not instr
        elif instr:
            if t[i]=='\\': out[i]='"'; i+=1
            if t[i]!='\n': out[i]='"'   # hide string contents
        i+=1
    return ''.join(out)
RULES=[(r'(?<= )<(?= )',['≤']),(r'(?<= )≤(?= )',['<']),(r'(?<= )=(?= )',['≠']),(r'(?<= )≠(?= )',['=']),
 (r'&&',['||']),(r'\|\|',['&&']),(r'(?<= )∧(?= )',['∨']),(r'(?<= )∨(?= )',['∧']),
 (r'(?<= )\+(?= )',['-']),(r'(?<= )-(?= )',['+']),(r'(?<= )\*(?= )',['+']),(r'(?<= )/(?= )',['*']),
 (r'\btrue\b',['false']),(r'\bfalse\b',['true']),(r'\bmin\b',['max']),(r'\bmax\b',['min']),
 (r'(?<![\w.])\d+(?![\w.])',['N']),(r'(?<=\.app )\d+',['N']),
 (r'(?<=[\w)])\.1\b(?!\.\d)',['.2']),(r'(?<=[\w)])\.2\b(?!\.\d)',['.1']),
 (r'\btake\b',['drop']),(r'\bdrop\b',['take']),(r'∈',['∉']),(r'∉',['∈']),
 (r'\bhead\?',['getLast?']),(r'\bisSome\b',['isNone']),(r'\bisNone\b',['isSome']),
 (r'\.some\b|\bsome\b(?= [a-z(])',['NONE']),(r'\blat\b',['lon']),(r'\blon\b',['lat']),(r'\.fin\b',[]),
 (r'\bfilter\b',['takeWhile']),(r'\bany\b',['all']),(r'\ball\b',['any']),(r'\bindexError\b',['keyError']),(r'\bkeyError\b',['indexError']),
 (r'\bvalueError\b',['typeError']),(r'\btypeError\b',['valueError']),(r'\battributeError\b',['typeError']),(r'\bunboundLocal\b',['nameError']),(r'\bzeroDivision\b',['valueError']),
 (r"'.'",['CHR'])]
DEF=re.compile(r'^(?:@\[.*?\]\s*)?(?:private |noncomputable |protected )*(def|abbrev|theorem|lemma|example|instance|structure|inductive|namespace|end|open|variable|section|deriving|class|set_option|local|import|termination_by|decreasing_by|partial_fixpoint)\b',re.M)
def mutants(f):
    t=S.M['Verif.'+f[:-5].replace('/','.')]; b=blank_comments(t)
    marks=[(m.start(),m.group(1),m.end()) for m in DEF.finditer(b)]+[(len(b),'end',len(b))]
    for (s,k,e),(s2,_,_) in zip(marks,marks[1:]):
        if k not in('def','abbrev'): continue
        nm=b[e:].split()[0]
        seg=b[s:s2]
        p=seg.find(':=')
        q=re.search(r'\n\s*\|',seg)
        st=min([x for x in (p,q.start() if q else -1) if x>=0] or [0])
        for rx,reps in RULES:
            for m in re.finditer(rx,seg):
                if m.start()<st or (p>=0 and m.start() in range(p,p+2)): continue
                a=s+m.start(); z=s+m.end()
                for r in reps:
                    o=t[a:z]
                    if r=='N': r=str(int(o)+1)
                    if r=='CHR':
                        r="'#'" if o!="'#'" else "'%'"
                    if r=='NONE':
                        continue
                    l0=t.rfind('\n',0,a)+1; l1=t.find('\n',z)
                    yield dict(file=f,defn=nm,a=a,z=z,new=r,line=t.count('\n',0,a)+1,desc=t[l0:l1].strip()[:160]+'  ==>  '+(t[l0:a]+r+t[z:l1]).strip()[:160])
def run(x):
    i,mu=x
    m0='Verif.'+mu['file'][:-5].replace('/','.')
    t=S.M[m0]
    new=t[:mu['a']]+mu['new']+t[mu['z']:]
    try:
        r=S.run(dict(id='auto_%s_%d'%(os.getpid(),i%8 if False else i),file=mu['file'],defn=mu['defn'],old=t,new=new,claim='auto',expect=[]))
    except Exception as ex:
        return mu,None,str(ex)
    for e in ('.lean','.out'):
        try: os.remove(f"{S.TMP}/{r['id']}{e}")
        except OSError: pass
    return mu,r,None
if __name__=='__main__':
    out=sys.argv[1]; files=sys.argv[2:]
    done=set()
    if os.path.exists(out):
        for l in open(out):
            d=json.loads(l); done.add((d['file'],d['defn'],d['desc'],d['a']))
    L=[m for f in files for m in mutants(f) if (m['file'],m['defn'],m['desc'],m['a']) not in done]
    if os.environ.get('COUNT'):
        print(len(L)); sys.exit()
    with cf.ThreadPoolExecutor(int(os.environ.get('J','4'))) as ex:
        for mu,r,err in ex.map(run,enumerate(L)):
            d=dict(mu)
            if err: d['err']=err
            else: d.update(failed=len(r['failed_theorems']),props=r['failed_properties'],deferr=r['edited_def_error'],direct=r['direct_failures'][:6])
            open(out,'a').write(json.dumps(d,ensure_ascii=False)+'\n')
