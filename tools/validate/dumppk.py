import json,os,glob
from unp import load
from cases import allcases
C={n:(i,d) for n,i,d in allcases}
for f in sorted(glob.glob('/repo/solutions_quantum/cqm*.pkl')):
    b=os.path.basename(f); k=int(b.split('case')[1].split('_')[0]); i,dl=C['real%d'%k]
    d=load(f)
    out=[]
    for r,e in d.items():
        out.append([[[n,str(int(v)) if float(v)==int(v) else repr(v)] for n,v in e['sample'].items()],
           [[n,bool(v)] for n,v in e['feas_constraints'][0].items()], repr(round(e['objective']*40*8)), bool(e['feasible'])])
    json.dump([i,[[t,x] for t,x in dl.items()],out],open('pk/'+b[:-4]+'.json','w'))
    print(b,i,len(dl),[len(o[1]) for o in out],[o[2] for o in out], e['feas_constraints'][1])
