import sys,os
sys.path.insert(0,os.path.dirname(os.path.abspath(__file__)))
from load import *
from fractions import Fraction
OUT='/verif/lean/Verif/Real/'
os.makedirs(OUT,exist_ok=True)
def S(s): return '"'+s.replace('\\','\\\\').replace('"','\\"')+'"'
def O(s): return 'none' if s=='' else 'some '+S(s)
def OP(s): return 'none' if s=='' else '(some '+S(s)+')'
def Q(s):
    f=Fraction(s); return str(f.numerator) if f.denominator==1 else '(%d/%d)'%(f.numerator,f.denominator)
P=paths()
names=set()
for r in P: names|={r[0][1],r[1][1]}
ST={k:stations('/repo/'+v) for k,v in NPZ.items()}
for d in ST.values():
    for a,b in d.items(): names|=set(b)
def sections(k):
    h,rows,_=sheet('/repo/'+CSV[k]); i=0; out=[]
    while i<len(rows):
        j=i+5
        while not rows[j][0][:2] in('to','te'): j+=1
        out.append(dict(type=rows[i+1][0],num=rows[i+2][0],name=rows[i+3][0],start=rows[i+4][0],rows=rows[i+5:j],stop=rows[j][0]))
        i=j+1
    return out
SEC={k:sections(k) for k in CSV}
for s in SEC.values():
    for x in s:
        for r in x['rows']:
            if r[0] not in names: print('unknown block',r[0]); names.add(r[0])
def code(s):
    a=0
    for c in s: a=512*a+ord(c)
    return a
names=sorted(names,key=code)
ix={n:i for i,n in enumerate(names)}
print(len(names))
out=['''import Verif.Proofs.Coded

/-!
# The shipped network

Generated from `/repo/data/network_paths.ods` and the tables of stations
`/repo/data/important_stations.npz`, `/repo/data/important_stations_Gt.npz`,
`/repo/data/KO_GLC/important_stations_KO_GLC.npz` and
`/repo/data/KO_GLC/important_stations_KO_GLC_R.npz`. Blocks are given by their position in `names`.
-/

namespace Verif.Real

/-- names of the blocks -/
def names : List String := [''']
out.append(',\n'.join('  '+S(n) for n in names)+']\n')
def CH(c): return "'\\''" if c=="'" else "'\\\\'" if c=='\\' else "'%s'"%c
out.append("/-- the characters of the names -/\ndef chars : List (List Char) := [\n"+',\n'.join('  ['+', '.join(CH(c) for c in n)+']' for n in names)+']\n')
docs={'st':'important_stations.npz','stgt':'important_stations_Gt.npz','stko':'KO_GLC/important_stations_KO_GLC.npz','stkor':'KO_GLC/important_stations_KO_GLC_R.npz'}
for k,d in ST.items():
    out.append('/-- `/repo/data/%s` -/'%docs[k])
    out.append('def %s : List (String × List Nat) := ['%k)
    out.append(',\n'.join('  (%s, [%s])'%(S(a),', '.join(str(ix[x]) for x in b)) for a,b in d.items())+']\n')
rows=[]
for r in P:
    def t(c):
        if c is None or c[1]=='X': return 'none'
        return 'some %s'%Q(c[1])
    sw=r[5]
    if sw is None or sw[1]=='N/A': c='.nan'
    elif sw[0]=='float':
        x=float(sw[1])
        if x==int(x): c='.int %d'%int(x)
        else:
            a,b=repr(x).split('.'); c='.float %s %s'%(a,b)
    else:
        l=eval(sw[1]); c='.textInt %d'%l if isinstance(l,int) else '.textTuple [%s]'%', '.join(map(str,l))
    rows.append('(%d, %d, ⟨"", "", %s, %s, %s, %s, %s⟩)'%(ix[r[0][1]],ix[r[1][1]],c,t(r[6]),t(r[7]),t(r[8]),t(r[9])))
n=90; nm=[]
for i in range(0,len(rows),n):
    out.append('/-- `/repo/data/network_paths.ods`, part %d -/'%(i//n+1))
    out.append('def table%d : List (Nat × Nat × PathRow) := [\n  '%(i//n+1)+',\n  '.join(rows[i:i+n])+']\n'); nm.append('table%d'%(i//n+1))
out.append('/-- `/repo/data/network_paths.ods` -/')
out.append('def table : List (Nat × Nat × PathRow) := '+' ++ '.join(nm)+'\n')
for k,d in [('net','st'),('netGt','stgt'),('netKo','stko'),('netKoR','stkor')]:
    out.append('/-- the network with the stations of `%s` -/\ndef %s : CodedNet := ⟨names, %s, table⟩\n'%(docs[d],k,d))
out.append('end Verif.Real')
open(OUT+'Net.lean','w').write('\n'.join(out)+'\n')
NETOF={'base':'net','gt':'netGt','one':'net','onegt':'netGt','ko1':'netKo','ko2':'netKoR','ko3':'netKoR'}
STOF={'net':'st','netGt':'stgt','netKo':'stko','netKoR':'stkor'}
FILE={'base':'Base','gt':'Gt','one':'One','onegt':'OneGt','ko1':'Ko1','ko2':'Ko2','ko3':'Ko3'}
good={n:set() for n in STOF}
ends=['''import Verif.Proofs.CodedSafe

/-!
# The runs of the shipped sheets

Generated; the different runs from one station (by position) to the next one, the blocks between, and
whether the train ends there.
-/

namespace Verif.Real
''']
for k in CSV:
    for s in SEC[k]:
        b=[ix[r[0]] for r in s['rows']]
        good[NETOF[k]]|=set(zip(b,b[1:]))
for k in CSV:
    f=FILE[k]; o=['''import Verif.Real.Net

/-!
# The shipped sheet `/repo/%s`

Generated; a row is the number of its block and the cells `speed`, `Arr`, `Dep`, `Approx_enter`,
`Label`, `Shunting`, `Turnaround_time_minutes`.
-/

namespace Verif.Real
'''%CSV[k]]
    nms=[]
    last={s['num']:i for i,s in enumerate(SEC[k])}
    pre='train_%s_'%k
    for i,s in enumerate(SEC[k]):
        nmn=pre+s['num']+('' if last[s['num']]==i else '_first'); nms.append(nmn)
        o.append('/-- train %s -/'%s['num'])
        o.append('def %s : CodedSection := ⟨%s, %s, %s, %s, %s, [\n  '%(nmn,S(s['type']),s['num'],S(s['num']),S(s['name']),S(s['start']))+
          ',\n  '.join('(%d, ⟨"", %s, %s, %s, %s, %s, %s, %s⟩)'%(ix[r[0]],O(r[1]),O(r[2]),O(r[3]),O(r[4]),O(r[5]),O(r[6]),'none' if r[7]=='' else 'some %s'%Q(r[7])) for r in s['rows'])+
          '],\n  %s⟩\n'%S(s['stop']))
    def wrap(l):
        out='';ln=0
        for i,x in enumerate(l):
            y=x+(', ' if i<len(l)-1 else '')
            if ln+len(y)>95: out=out.rstrip()+'\n  '; ln=2
            out+=y; ln+=len(y)
        return out
    lost=[x for x in nms if x.endswith('_first')]
    if lost:
        (l,)=lost; i=nms.index(l); r=l[:-6]; j=nms.index(r)
        A,B,C=nms[:i],nms[i+1:j],nms[j+1:]
        for nme,part,d in(('A',A,'before the first section with number %s'),('B',B,'between the two sections with number %s'),('C',C,'after the second section with number %s')):
            o.append('/-- the sections %s -/\ndef %s%s : List CodedSection := [\n  %s]\n'%(d%r.split('_')[-1],k,nme,wrap(part)))
        o.append('/-- the sections of the sheet -/\ndef %sAll : List CodedSection := %sA ++ %s :: %sB ++ %s :: %sC\n'%(k,k,l,k,r,k))
        o.append('/-- the sections without the one that is replaced by a later one -/\ndef %s : List CodedSection := %sA ++ %s :: %sB ++ %sC\n'%(k,k,r,k,k))
    else:
        o.append('/-- the sections of the sheet -/\ndef %s : List CodedSection := [\n  %s]\n'%(k,wrap(nms)))
    # runs
    st=list(ST[STOF[NETOF[k]]].items())
    def si(b):
        for i,(a,l) in enumerate(st):
            if names[b] in l: return i
    R=[]; E=[]
    for s in SEC[k]:
        cur=None; last=si(ix[s['rows'][-1][0]])
        if lost and s is SEC[k][nms.index(lost[0])]: keep=False
        else: keep=True
        for r in s['rows']:
            b=ix[r[0]]; i=si(b)
            if i is None:
                if cur: cur[1].append(b)
            else:
                if cur:
                    x=(cur[0],i,cur[1])
                    if x not in R: R.append(x)
                    if keep and x+(i==last,) not in E: E.append(x+(i==last,))
                cur=(i,[])
    o.append('/-- the different runs from one station (by position) to the next one, and the blocks between -/\ndef %sRuns : List (Nat × Nat × List Nat) := [\n  '%k+',\n  '.join('(%d, %d, [%s])'%(a,b,', '.join(map(str,l))) for a,b,l in R)+']\n')
    ends.append('/-- the runs in `%s` -/\ndef %sEnds : List CodedNet.EndRun := [\n  '%(k,k)+',\n  '.join('(%d, %d, [%s], %s)'%(a,b,', '.join(map(str,l)),str(e).lower()) for a,b,l,e in E)+']\n')
    o.append('end Verif.Real')
    open(OUT+f+'.lean','w').write('\n'.join(o)+'\n')
o=['''import Verif.Real.Net

/-!
# The steps from block to block in the shipped sheets
-/

namespace Verif.Real
''']
for n,g in good.items():
    g=sorted(g)
    o.append('/-- the steps of the trains on `%s` -/\ndef %sSteps : List (Nat × Nat) := ['%(n,n)+', '.join('(%d, %d)'%x for x in g)+']\n')
o.append('end Verif.Real')
open(OUT+'Steps.lean','w').write('\n'.join(o)+'\n')
print({n:len(g) for n,g in good.items()})
open(OUT+'Ends.lean','w').write('\n'.join(ends+['end Verif.Real'])+'\n')
