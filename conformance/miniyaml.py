import re
def strip(l):
    # remove comments outside quotes
    out='';q=None
    for i,ch in enumerate(l):
        if q:
            out+=ch
            if ch==q:q=None
        elif ch in '"\'': q=ch; out+=ch
        elif ch=='#' and (i==0 or l[i-1] in ' \t'): break
        else: out+=ch
    return out.rstrip()
def scalar(s):
    s=s.strip()
    if s=='' or s in('null','~','None'): return None
    if s.startswith('['):
        assert s.endswith(']'),s
        inner=s[1:-1]; parts=[];d=0;cur=''
        for ch in inner:
            if ch in '[(': d+=1
            if ch in '])': d-=1
            if ch==',' and d==0: parts.append(cur);cur=''
            else: cur+=ch
        if cur.strip(): parts.append(cur)
        return [scalar(p) for p in parts]
    if s=='{}': return {}
    if s in('True','true'): return True
    if s in('False','false'): return False
    if s[0] in '"\'': return s[1:-1]
    try: return int(s)
    except: pass
    if re.fullmatch(r'[-+]?(\d[\d_]*)?\.[\d_]*([eE][-+]\d+)?|[-+]?\d[\d_]*\.[\d_]*([eE][-+]\d+)?',s):
        return float(s)
    return s
def load(path):
    lines=[]
    for l in open(path):
        t=strip(l.rstrip('\n'))
        if t.strip(): lines.append((len(t)-len(t.lstrip()),t.strip()))
    # join multi-line lists
    L=[]
    i=0
    while i<len(lines):
        ind,t=lines[i]
        while t.count('[')>t.count(']'):
            i+=1; t+=' '+lines[i][1]
        L.append((ind,t)); i+=1
    pos=0
    def block(ind):
        nonlocal pos
        if L[pos][1].startswith('- '):
            res=[]
            while pos<len(L) and L[pos][0]==ind and L[pos][1].startswith('- '):
                L[pos]=(ind+2,L[pos][1][2:])
                res.append(block(ind+2))
            return res
        res={}
        while pos<len(L) and L[pos][0]==ind and not L[pos][1].startswith('- '):
            m=re.match(r'([^:]+):\s*(.*)$',L[pos][1]); k,v=m.group(1).strip(),m.group(2)
            pos+=1
            if v=='':
                if pos<len(L) and L[pos][0]>ind: res[k]=block(L[pos][0])
                else: res[k]=None
            else: res[k]=scalar(v)
        return res
    r=block(0)
    assert pos==len(L),L[pos]
    return r
if __name__=='__main__':
    import sys,glob
    for f in sorted(glob.glob('/repo/test/test_cases/*.yaml')):
        d=load(f); print(f,len(d)); print(d[0],d[-1])
