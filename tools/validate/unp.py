import pickle,struct,json,glob,os,datetime
class DT:
    def __init__(s,c,*a): s.c=c
    def __setstate__(s,st): pass
def scalar(dt,b):
    c=dt.c
    return {'f8':lambda:struct.unpack('<d',b)[0],'i1':lambda:struct.unpack('b',b)[0],'b1':lambda:bool(b[0]),'i8':lambda:struct.unpack('<q',b)[0],'i4':lambda:struct.unpack('<i',b)[0],'i2':lambda:struct.unpack('<h',b)[0],'u1':lambda:b[0]}[c]()
class U(pickle.Unpickler):
    def find_class(s,m,n):
        if m in('datetime','builtins','collections','_codecs'): return super().find_class(m,n)
        if n=='scalar': return scalar
        if n=='dtype': return DT
        class X:
            def __init__(s,*a,**k): s.a=a
            def __setstate__(s,st): s.st=st
            def __repr__(s): return f'<{m}.{n} {getattr(s,"a","")}>'
        return X
def load(f): return U(open(f,'rb')).load()
if __name__=='__main__':
    for f in sorted(glob.glob('/repo/solutions_quantum/*.pkl')+glob.glob('/repo/solutions_quantum/wisla/*.pkl')):
        d=load(f)
        print(os.path.basename(f),type(d),len(d),list(d.keys())[:8])
        e=d if 'sample' in d else d[list(d.keys())[0]]
        print({k:(len(v) if hasattr(v,'__len__') and not isinstance(v,str) else v) for k,v in e.items() if k not in('info','properties')})
