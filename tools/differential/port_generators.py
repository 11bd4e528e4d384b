"""Transliteration of the locale logic and the generators of /repo, for comparing with the Lean model."""
import re
reLoc=re.compile(rb'^[a-z][a-z][a-z]?(?:_[A-Z][A-Z])?\.(.+)')
MB={b'utf-8':6,b'utf8':6,b'jis':8,b'eucjp':3,b'euckr':2,b'euccn':2,b'sjis':2,b'cp932':2,b'cp51932':2,b'cp936':2,b'cp949':2,b'cp950':2,b'big5':2,b'gbk':2,b'gb2312':2}
def isEA(locale):
    cs=locale.lower(); m=reLoc.match(locale)
    if m: cs=m.group(1).lower()
    if cs.endswith(b'@cjk_narrow'): return False
    cs=cs.split(b'@')[0]
    mx=MB.get(cs,1)
    return mx>1 and (cs[0:1]!=b'u' or locale[:2] in (b'ja',b'ko',b'zh'))
def IsEastAsian(a,b,c):
    l=a or b or c
    if l in(b'POSIX',b'C'): return False
    if len(l)>1 and l[0:1]==b'C' and l[1:2] in (b'.',b'-'): return False
    return isEA(l)
PP=re.compile(rb'^([0-9A-F]{4,6})(\.\.([0-9A-F]{4,6}))?[\t\n\f\r ]*;[\t\n\f\r ]*([A-Za-z0-9_]+)[\t\n\f\r ]*#[\t\n\f\r ]([^\n]+)\Z')
def parseProperty(l):
    m=PP.match(l)
    if not m: return None
    return m.group(1), m.group(3) or m.group(1), m.group(4), m.group(5)
SP=' \t\v\f\r\x85\xa0                　'
def scanx(s):
    s=s.lstrip(SP)
    if s[:1]=='+': s=s[1:]
    m=re.match('[0-9a-fA-F]+',s)
    if not m or int(m.group(),16)>=2**31: return None
    return int(m.group(),16),s[m.end():]
def scans(s):
    s=s.lstrip(SP); i=0
    while i<len(s) and s[i] not in SP: i+=1
    return (s[:i],s[i:]) if i else None
def fin(s): return s=='' or s[0] in SP
def sscanf(line,fmt):
    out=[];s=line
    for f in fmt:
        if f=='x' or f=='s':
            r=scanx(s) if f=='x' else scans(s)
            if r is None: return None
            out.append(r[0]); s=r[1]
        elif f==' ':
            return out if fin(s) else None
        else:
            if not s.startswith(f): return None
            s=s[len(f):]
def shapeup(a):
    a=list(a);i=0
    while i<len(a)-1:
        if a[i][1]+1==a[i+1][0]:
            lo=a[i][0]; a=a[:i]+a[i+1:]; a[i]=(lo,a[i][1]); i-=1
        i+=1
    return a
def eastasian(lines):
    t={k:[] for k in ('cmb','dbl','amb','na','nu')}
    for l in lines:
        if l.startswith('#'): continue
        r=sscanf(l,['x','..','x',';','s',' '])
        if r is None:
            r=sscanf(l,['x',';','s',' '])
            if r is None: continue
            r=[r[0],r[0],r[1]]
        if 'COMBINING' in l: t['cmb'].append((r[0],r[1]))
        k={'W':'dbl','F':'dbl','A':'amb','Na':'na','N':'nu'}.get(r[2])
        if k: t[k].append((r[0],r[1]))
    return {k:shapeup(v) for k,v in t.items()}
def emoji(lines):
    i=0
    while i<len(lines):
        i+=1
        if 'Extended_Pictographic ; No' in lines[i-1]: break
    a=[]
    for l in lines[i:]:
        if l.startswith('#'): continue
        r=sscanf(l,['x','..','x',' '])
        if r is None:
            r=sscanf(l,['x',' '])
            if r is None: continue
            r=[r[0],r[0]]
        if r[1]<0xff: continue
        a.append((r[0],r[1]))
    return shapeup(a)
def gentext(v,arr):
    o='var %s = table{\n\t'%v
    for i,(a,b) in enumerate(arr):
        o+='{0x%04X, 0x%04X},'%(a,b)
        if i<len(arr)-1: o+='\n\t' if i%3==2 else ' '
    return o+'\n}\n'
