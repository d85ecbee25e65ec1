import re
import ast
# the script is only parsed as text; the dictionaries are literals
tree=ast.parse(open('/repo/wisla_problems.py').read())
val={n.targets[0].id:n.value for n in ast.walk(tree) if isinstance(n,ast.Assign) and isinstance(n.targets[0],ast.Name)}
ts=ast.literal_eval(val['train_set'])
n=val['timetable']
n.values=[val['taus'] if isinstance(v,ast.Name) and v.id=='taus' else v for v in n.values]
tt=ast.literal_eval(n)
def V(x): return f's{x}' if isinstance(x,int) else x.lower()
def L(l): return '['+', '.join(l)+']'
def q(x):
    from fractions import Fraction as F
    f=F(str(x)); return str(f.numerator) if f.denominator==1 else f'{f.numerator}/{f.denominator}'
def D(d): return L([f'("{k}", {q(v)})' for k,v in d.items()])
def wrap(s,ind):
    out=[];line=''
    for w in re.split(r'(?<=,) ',s):
        if len(line)+len(w)+1>(92 if out else 76): out.append(line); line=' '*ind+w
        else: line=(line+' '+w) if line else w
    out.append(line); return '\n'.join(out)
names={}
o=[]
o.append('  skipStation := some '+wrap(L([f'({V(k)}, {V(v)})' for k,v in ts['skip_station'].items()]),4))
o.append('  paths := '+wrap(L([f'({V(k)}, {L([V(x) for x in v])})' for k,v in ts['Paths'].items()]),4))
o.append('  J := '+L([V(x) for x in ts['J']]))
o.append('  Jd := '+wrap(L([f'({V(s)}, {L([f"({V(s2)}, {L([L([V(t) for t in g]) for g in gs])})" for s2,gs in d.items()])})' for s,d in ts['Jd'].items()]),4))
o.append('  Josingle := '+wrap(L([f'(({V(a)}, {V(b)}), {L([f"({V(x)}, {V(y)})" for x,y in l])})' for (a,b),l in ts['Josingle'].items()]),4))
o.append('  Jround := '+L([f'({V(s)}, {L([f"({V(x)}, {V(y)})" for x,y in l])})' for s,l in ts['Jround'].items()]))
o.append('  Jtrack := []\n  Jswitch := []\n  addSwithes := .none')
t=['  tauPass := '+wrap(D(tt['tau']['pass']),4),'  tauHeadway := '+wrap(D(tt['tau']['headway']),4),'  tauStop := '+wrap(D(tt['tau']['stop']),4),'  tauPrep := '+D(tt['tau']['prep']),'  tauRes := .none','  schedule := some '+wrap(D(tt['schedule']),4),'  initialConditions := '+wrap(D(tt['initial_conditions']),4),'  penaltyWeights := '+wrap(D(tt['penalty_weights']),4)]
f=open('/verif/lean/Verif/Model/Wisla.lean','w')
f.write('''import Verif.Model.Linear

/-!
# The problem of `/repo/wisla_problems.py`

The data are literals in the script; line numbers refer to it.
-/

namespace Verif.Wisla

/-- trains -/
abbrev ks1 : Val := .str "Ks1"
abbrev ks2 : Val := .str "Ks2"
abbrev ks3 : Val := .str "Ks3"
abbrev ks4 : Val := .str "Ks4"
abbrev ic1 : Val := .str "Ic1"
abbrev ic2 : Val := .str "Ic2"

/-- stations -/
abbrev s1 : Val := .int 1
abbrev s3 : Val := .int 3
abbrev s5 : Val := .int 5
abbrev s10 : Val := .int 10

/-- `train_set`, lines 57-71. In line 63 the braces of `"Jd"` are closed one entry too early: the group
of trains from station 10 to station 5 becomes the value of the key `10` of `train_set` itself, which
no function reads, and is left out here. -/
def ts : TrainSets where
'''+'\n'.join(o)+'''

/-- `timetable`, lines 72-92 -/
def tt : Timetable where
'''+'\n'.join(t)+'''

/-- `train_set` as it was meant: with the group of trains from station 10 to station 5 in `Jd`. -/
def tsMeant : TrainSets :=
  { ts with Jd := ts.Jd ++ [(s10, [(s5, [[ks2, ks4, ic2]])])] }

/-- `timetable` as it was meant: in line 81 the key `"Ic2_Ks2_5_10"` should be `"Ic2_Ks2_10_5"`. -/
def ttMeant : Timetable :=
  { tt with tauHeadway := tt.tauHeadway ++ [("Ic2_Ks2_10_5", 2)] }

end Verif.Wisla
''')
