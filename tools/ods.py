import zipfile,re,sys
import xml.etree.ElementTree as ET
ns={'t':'urn:oasis:names:tc:opendocument:xmlns:table:1.0','o':'urn:oasis:names:tc:opendocument:xmlns:office:1.0','x':'urn:oasis:names:tc:opendocument:xmlns:text:1.0'}
def q(p,n): return '{%s}%s'%(ns[p],n)
def text(e):
    out=e.text or ''
    for c in e:
        if c.tag==q('x','s'): out+=' '*int(c.get(q('x','c'),'1'))
        else: out+=text(c)
        out+=c.tail or ''
    return out
def read(path):
    z=zipfile.ZipFile(path)
    r=ET.fromstring(z.read('content.xml'))
    sheets=[]
    for tab in r.iter(q('t','table')):
        rows=[]
        for row in tab.iter(q('t','table-row')):
            rr=int(row.get(q('t','number-rows-repeated'),'1'))
            cells=[]
            for c in row:
                if c.tag not in (q('t','table-cell'),q('t','covered-table-cell')): continue
                n=int(c.get(q('t','number-columns-repeated'),'1'))
                vt=c.get(q('o','value-type'))
                if vt is None: v=None
                elif vt=='float': v=('float',c.get(q('o','value')))
                else: v=(vt,'\n'.join(text(p) for p in c.findall('x:p',ns)))
                cells+= [v]*min(n,20)
            if rr<100: rows+=[cells]*rr
        sheets.append((tab.get(q('t','name')),rows))
    return sheets
if __name__=='__main__':
    for n,rows in read('/repo/data/network_paths.ods'):
        print(n,len(rows))
        for r in rows[:12]: print(r)
        from collections import Counter
        print(Counter((i,c[0] if c else None) for r in rows for i,c in enumerate(r)))
