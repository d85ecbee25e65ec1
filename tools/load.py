import csv,zipfile,pickle,io,sys
import os
sys.path.insert(0,os.path.dirname(os.path.abspath(__file__)))
import ods
def stations(path):
    b=zipfile.ZipFile(path).read('arr_0.npy')
    n=int.from_bytes(b[8:10],'little'); p=b[10+n:]
    class Nd:
        def __setstate__(self,s): self.s=s
        def __reduce__(self): return (Nd,())
    class U(pickle.Unpickler):
        def find_class(self,m,name):
            if name=='_reconstruct': return lambda *a: Nd()
            if name=='ndarray': return Nd
            if name=='dtype':
                class D:
                    def __init__(self,*a): pass
                    def __setstate__(self,s): pass
                return D
            raise Exception((m,name))
    o=U(io.BytesIO(p)).load()
    return o.s[4][0]
def sheet(path):
    t=open(path,'rb').read()
    try: s=t.decode('utf-8')
    except UnicodeDecodeError as e:
        print('BAD UTF8',path,e); s=t.decode('utf-8','replace')
    rows=list(csv.reader(io.StringIO(s),delimiter=';'))
    h=rows[0]
    return h,[r for r in rows[1:] if any(x!='' for x in r)], [i for i,r in enumerate(rows[1:]) if not any(x!='' for x in r)]
def paths():
    rows=ods.read('/repo/data/network_paths.ods')[0][1]
    return [r[:10] for r in rows[1:] if any(r[:10])]
CSV={'base':'data/trains_schedules.csv','gt':'data/trains_schedules_Gt.csv','one':'data/trains_schedules_1track.csv','onegt':'data/trains_schedules_1track_Gt.csv','ko1':'data/KO_GLC/trains_schedules_KO_GLC.csv','ko2':'data/KO_GLC/trains_schedules_KO_RCB_ZZ_GLC.csv','ko3':'data/KO_GLC/trains_schedules_KO_RCB_ZZ_GLC_v2.csv'}
NPZ={'st':'data/important_stations.npz','stgt':'data/important_stations_Gt.npz','stko':'data/KO_GLC/important_stations_KO_GLC.npz','stkor':'data/KO_GLC/important_stations_KO_GLC_R.npz'}
if __name__=='__main__':
    for k,v in CSV.items():
        h,rows,bl=sheet('/repo/'+v); print(k,h,len(rows),bl, {len(r) for r in rows})
    for k,v in NPZ.items():
        print(k,stations('/repo/'+v))
