#!/usr/bin/env python3
"""Lists the citations in the model's comments with the first and last cited line, for reading; marks ranges that do not exist."""
import re,os,glob,sys
repo='/repo'
files=[os.path.relpath(os.path.join(d,f),repo) for d,_,fs in os.walk(repo) for f in fs if '.git/' not in d]
def lines(x): return open(os.path.join(repo,x),encoding='utf-8',errors='replace').read().split('\n')
for f in sorted(glob.glob('/verif/lean/Verif/Model/*.lean')):
    if os.path.basename(f) in('ExampleFiles.lean','TemplateFiles.lean'): continue
    src=open(f).read()
    header=src[:src.find('namespace')]
    L=src.split('\n')
    for i,l in enumerate(L):
        m=re.match(r'^(?:@\[.*?\]\s*)?(?:private |partial |noncomputable )?(?:def|structure|inductive|abbrev)\s+(\S+)',l)
        if not m: continue
        j=i-1; doc=''
        if j>=0 and L[j].rstrip().endswith('-/'):
            k=j
            while not L[k].lstrip().startswith('/--') and k>0: k-=1
            doc=' '.join(L[k:j+1])
        for c,rs in re.findall(r'([\w/.\-]+\.(?:go|tmpl|sh|cpp|h)):((?:\d+(?:-\d+)?(?:, )?)+)',doc):
            cand=[x for x in files if x.endswith('/'+c) or x==c]
            if not cand: continue
            for r in re.findall(r'\d+(?:-\d+)?',rs):
                a,_,b=r.partition('-'); a=int(a); b=int(b or a)
                x=cand[0] if len(cand)==1 else None
                if x is None:
                    x=min(cand,key=len)
                ls=lines(x)
                ok=b<=len(ls)
                print(os.path.basename(f),m.group(1),f'{c}:{r}', '' if len(cand)==1 else f'({len(cand)} files)', '|', (ls[a-1].strip()[:60] if a<=len(ls) else 'OUT'),'|',(ls[b-1].strip()[:20] if ok else 'OUT OF RANGE'))
