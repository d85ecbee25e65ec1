import json,os,glob,datetime
from unp import load
ref=datetime.datetime(2020,1,1,16,0)
def m(x): return int((x-ref).total_seconds()//60)
for f in sorted(glob.glob('/repo/solutions_quantum/data4diagrams/cqm5*.pkl')):
    d=load(f); b=os.path.basename(f)
    out=[]
    for r,e in d.items():
        l=[]
        for t,ss in e.items():
            for s,x in ss.items():
                l.append([int(t),str(s)]+[m(x[k]) if k in x else None for k in('arrive','conflicted_arrive','departure')]+[int(x['secondary delay']) if 'secondary delay' in x else None, m(x['conflicted departure']) if 'conflicted departure' in x else (m(x['conflicted_departure']) if 'conflicted_departure' in x else None), round(float(x['impact_to_objective'])*320) if 'impact_to_objective' in x else None])
        out.append(l)
    json.dump(out,open('pk/pr_'+b[:-4]+'.json','w'))
    print(b,list(d.keys()),[len(l) for l in out],set(tuple(sorted(x)) for ss in e.values() for x in ss.values()))
