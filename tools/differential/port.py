"""Transliteration of the Go text of /repo (tables parsed from the .go files), for comparing with the Lean model."""
import re
RW='/repo/runewidth/'
def table(name):
    s=open(RW+'runewidth_table.go').read()+open(RW+'runewidth.go').read()
    m=re.search(r'var %s = table\{(.*?)\n\}'%name,s,re.S)
    return [(int(a,16),int(b,16)) for a,b in re.findall(r'\{(0x[0-9A-Fa-f]+), *(0x[0-9A-Fa-f]+)\}',m.group(1))]
T={n:table(n) for n in ('combining','doublewidth','ambiguous','narrow','emoji','private','nonprint')}
src=open(RW+'uniseg/properties.go').read()
blk=src[src.index('const ('):]; blk=blk[:blk.index('\n)')]
pr={}; i=0
for l in blk.split('\n')[1:]:
    l=l.split('//')[0].strip()
    if not l: continue
    n=l.split()[0]
    pr[n]=0 if l.endswith('= 0') else i
    i+=1
def ptable(f,name):
    s=open(RW+'uniseg/'+f).read()
    m=re.search(r'%s = \[\]\[3\]int\{(.*?)\n\}'%name,s,re.S)
    return [(int(a,16),int(b,16),pr[c]) for a,b,c in re.findall(r'\{(0x[0-9A-Fa-f]+), *(0x[0-9A-Fa-f]+), *(pr\w+)\}',m.group(1))]
G=ptable('graphemeproperties.go','graphemeCodePoints'); EA=ptable('eastasianwidth.go','eastAsianWidth'); EP=ptable('emojipresentation.go','emojiPresentation')
s=open(RW+'uniseg/graphemerules.go').read()
gr={}
for j,n in enumerate(re.findall(r'^\t(gr\w+)',s[s.index('const ('):s.index('grNoBoundary')],re.M)): gr[n]=j
TR={}
for a,b,c,d,e in re.findall(r'\{(gr\w+), (pr\w+)\}:\s*\{(gr\w+), (gr\w+), (\d+)\}',s): TR[(gr[a],pr[b])]=(gr[c],{'grNoBoundary':0,'grBoundary':1}[d],int(e))
def inTable(r,t):
    if r<t[0][0]: return False
    bot,top=0,len(t)-1
    while top>=bot:
        mid=(bot+top)>>1
        if t[mid][1]<r: bot=mid+1
        elif t[mid][0]>r: top=mid-1
        else: return True
    return False
def inTables(r,*ts): return any(inTable(r,T[t]) for t in ts)
def RuneWidth(c,r):
    ea,strict=c
    if r<0 or r>0x10ffff: return 0
    if not ea:
        if r<0x20: return 0
        if 0x7f<=r<=0x9f or r==0xad: return 0
        if r<0x300: return 1
        if inTables(r,'narrow'): return 1
        if inTables(r,'nonprint','combining'): return 0
        if inTables(r,'doublewidth'): return 2
        return 1
    if inTables(r,'nonprint','combining'): return 0
    if inTables(r,'narrow'): return 1
    if inTables(r,'ambiguous','doublewidth'): return 2
    if not strict and inTables(r,'ambiguous','emoji','narrow'): return 2
    return 1
def decode(b):
    """utf8.DecodeRuneInString"""
    if not b: return 0xfffd,0
    c=b[0]
    if c<0x80: return c,1
    for n,lo,hi in ((2,0xc2,0xdf),(3,0xe0,0xef),(4,0xf0,0xf4)):
        if lo<=c<=hi:
            try: return ord(b[:n].decode('utf8')),n
            except Exception: return 0xfffd,1
    return 0xfffd,1
def runes(b):
    o=[]
    while b: r,n=decode(b); o.append(r); b=b[n:]
    return o
def prop(d,r):
    f,t=0,len(d)
    while t>f:
        m=(f+t)//2; x=d[m]
        if r<x[0]: t=m; continue
        if r>x[1]: f=m+1; continue
        return x[2]
    return 0
def usw(r,p):
    if p in (pr['prControl'],pr['prCR'],pr['prLF'],pr['prExtend'],pr['prZWJ']): return 0
    if p==pr['prRegionalIndicator']: return 2
    if p==pr['prExtendedPictographic']: return 2 if prop(EP,r)==pr['prEmojiPresentation'] else 1
    if r==0x2e3a: return 3
    if r==0x2e3b: return 4
    if prop(EA,r) in (pr['prW'],pr['prF']): return 2
    return 1
def trans(state,r):
    p=prop(G,r)
    if (state,p) in TR: x=TR[(state,p)]; return x[0],p,x[1]==1
    ap=TR.get((state,pr['prAny'])); as_=TR.get((0,p))
    if ap and as_:
        ns=as_[0]; b=as_[1]==1
        if ap[2]<as_[2]: b=ap[1]==1
        return ns,p,b
    if ap: return ap[0],p,ap[1]==1
    if as_: return as_[0],p,as_[1]==1
    return 0,p,True
def StepString(b,state):
    if not b: return b'',b'',0,0
    r,length=decode(b)
    if len(b)<=length: return b,b'',usw(r,prop(G,r))<<4,0
    rem=b[length:]
    if state<0: gs,fp,_=trans(state,r)
    else: gs=state&0xf; fp=state>>21
    width=usw(r,fp)
    while True:
        r,l=decode(rem); rem=b[length+l:]
        gs,p,bd=trans(gs,r)
        if bd: return b[:length],b[length:],width<<4,gs|(p<<21)
        if r==0xfe0f: width=2
        elif fp!=pr['prExtendedPictographic'] and fp!=pr['prRegionalIndicator'] and fp!=pr['prL']: width+=usw(r,p)
        elif fp==pr['prExtendedPictographic']: width=1 if r==0xfe0e else 2
        length+=l
        if len(b)<=length: return b,b'',width<<4,0|(p<<21)
def clusters(b):
    st=-1;o=[]
    while b:
        c,b,bd,st=StepString(b,st); o.append((c,bd,st))
    return o
def StringWidth(c,b):
    w=0
    for cl,_,_ in clusters(b):
        cw=0
        for r in runes(cl):
            cw=RuneWidth(c,r)
            if cw>0: break
        w+=cw
    return w
ANSI=re.compile(rb'(?:\x1b|\xc2\x9b)[\[()#;?]*(?:[0-9]{1,4}(?:;[0-9]{0,4})*)?[0-9A-ORZcf-nqry=><]')
# a \xc2\x9b that is not a whole character of the Go decoder cannot occur: c2 is always a lead byte
def countMatches(s):
    total=0;start=0
    while start<len(s):
        m=ANSI.search(s[start:])
        if not m: break
        start+=m.end(); total+=m.end()-m.start()-1
    return total
def vw(c,s): return (StringWidth(c,s)-countMatches(s))&0xffff
def AL(c,s,w):
    x=vw(c,s); return s if x>=w else s+b' '*(w-x)
def AR(c,s,w):
    x=vw(c,s); return s if x>=w else b' '*(w-x)+s
def AC(c,s,w):
    x=vw(c,s)
    if x>=w: return s
    n=w-x; left=int((n-1)/2)+1
    return b' '*left+s+b' '*(n-left)
U=0xffff
def tdiv(a,b):
    if b==0: raise ZeroDivisionError
    q=abs(a)//abs(b); return q if (a<0)==(b<0) else -q
class Tab:
    def __init__(t,cols,cw): t.cols=cols; t.cw=cw   # cols: (name,title,short,alignment or None)
    def width(t,n): return t.cw.get(n,0)
    def tableWidth(t,margin):
        w=((len(t.cols)-1)*margin)&U
        for c in t.cols: w=(w+t.width(c[0]))&U
        return w
    def header(t,c,sep):
        s=b''
        for n,ti,sh,_ in t.cols:
            w=t.width(n);v=ti
            if w!=0:
                if len(v)>w: v=b'' if len(sh)>w else sh
                v=AC(c,v,w)
            s+=v+sep
        return s+b'\n'
    def merge(t,c,items,arg,sep,compact,vert,fuel,fails):
        out=[]
        try:
            margin=len(sep)&U; colN=len(t.cols)
            if arg>65535: arg=65535
            mw=arg&U
            gc=tdiv((mw+margin)&U,(t.tableWidth(margin)+margin)&U)
            if gc<1: gc=1
            getw=lambda ci,g: t.cw.get(t.cols[ci][0],0)
            if compact:
                r=t.calc(c,items,mw,margin,gc,vert,fuel)
                if r is None: return None
                extra,cellw=r
                if extra>0:
                    gc+=extra
                    getw=lambda ci,g: cellw[g*colN+ci]
            n=len(items); lc=tdiv(n-1,gc)+1
            for li in range(lc):
                line=[]
                for g in range(gc):
                    ix=g*lc+li if vert else li*gc+g
                    if ix>=n: line.append(b''); break
                    item=items[ix]; cell=[b'']*colN
                    for ci,col in enumerate(t.cols):
                        al=col[3] or AL
                        cell[ci]=al(c,item[ci],getw(ci,g))
                    line.append(b' '.join(cell))
                out.append(sep.join(line)+b'\n')
                if fails(len(out)-1): return out,'write'
            return out,None
        except ZeroDivisionError: return out,'divideByZero'
        except IndexError: return out,'index'
    def calc(t,c,items,mw,margin,init,vert,fuel):
        colN=len(t.cols)&U; extra=0; cw=[]
        while True:
            if fuel==0 and not vert: return None
            fuel-=1
            gc=init+extra+1
            new=t.wV(c,items,gc) if vert else t.wH(c,items,gc)
            if new is None: return extra,cw
            total=(margin*((gc&U)-1)+(colN-1)*(gc&U)+sum(new))&U
            if total>mw: return extra,cw
            cw=new; extra+=1
    def wH(t,c,items,gc):
        r=[]
        for g in range(gc):
            for ci in range(len(t.cols)):
                m=0
                for k in range(g,len(items),gc): m=max(m,vw(c,items[k][ci]))
                r.append(m)
        return r
    def wV(t,c,items,gc):
        n=len(items); lc=tdiv(n-1,gc)+1
        if gc>tdiv(n-1,lc)+1: return None
        r=[]
        for g in range(gc):
            e=min((g+1)*lc,n)
            for ci in range(len(t.cols)):
                m=0
                for k in range(g*lc,e): m=max(m,vw(c,items[k][ci]))
                r.append(m)
        return r
