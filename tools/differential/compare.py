"""Random comparison of the Lean model with a transliteration of the Go text: widths, graphemes, alignment, headers and merges.

usage: compare.py SEED COUNT OUT.lean, then `lake env lean OUT.lean` in lean/; prints a line for each mismatch.
"""
import random, sys, os
sys.path.insert(0, os.path.dirname(os.path.abspath(__file__)))
from port import *
seed=int(sys.argv[1]); N=int(sys.argv[2]); R=random.Random(seed)
bounds=[x for t in T.values() for e in t for x in (e[0]-1,e[0],e[1],e[1]+1)]
gp=[x for t in (G,EA,EP) for e in t for x in (e[0],e[1],e[1]+1)]
special=[0x1b,0x9b,0x200d,0xfe0f,0xfe0e,0xd,0xa,0x1f1e6,0x1f1f7,0x1100,0x1161,0x11a8,0xac00,0xac01,0x300,0x0903,0x600,0x1f600,0x1f468,0x231a,0xa9,0x2e3a,0x2e3b,0x4e2d,0xa1,0x20]
ansi=['\x1b[0m','\x1b[31;1m','\x1b[12345m','\x9b0m','\x1b(B','\x1b]8;;','\x1b[?25l','\x1b[;;H','\x1b#8','\x1b[1;m','\x1b','\x1b[38;5;208m','\x1b[00001;;22K']
def rune():
    k=R.random()
    if k<.3: x=R.choice(special)
    elif k<.5: x=R.choice(bounds)
    elif k<.8: x=R.choice(gp)
    else: x=R.randrange(0x20,0x7f)
    if x<0 or x>0x10ffff or 0xd800<=x<0xe000: x=0x41
    return x
def string():
    b=b''
    for _ in range(R.choice([0,1,1,2,3,5,8])):
        k=R.random()
        if k<.75: b+=chr(rune()).encode('utf8')
        elif k<.9: b+=R.choice(ansi).encode('utf8')
        else: b+=bytes(R.randrange(256) for _ in range(R.choice([1,2,3])))
    if R.random()<.05: b=b+bytes([0xe0,0x80]); 
    if R.random()<.05: b=b+b'\xed\xa0\x80'
    return b
def L(b): return '['+','.join(map(str,b))+']'
def fl(c): return '⟨%s,%s⟩'%tuple(str(x).lower() for x in c)
o=['import Verif','open GoTable','set_option maxRecDepth 100000','set_option maxHeartbeats 0',
'def chk (name : String) (i : Nat) (b : Bool) : IO Unit := unless b do IO.println s!"MISMATCH {name} {i}"',
'def steps (g : Graphemes) : Nat → List (GoString × Nat × Int)',
'  | 0 => []','  | n+1 => let r := g.next; if r.1 then (r.2.cluster, (r.2.boundaries : Nat), r.2.state) :: steps r.2 n else []',
'def G0 : Getter Unit Unit Unit Unit := ⟨fun _ s => (.ok (), s), fun _ _ s => (.ok [], s), fun _ _ s => (.ok [], s)⟩']
body=[]
for i in range(N):
    c=(R.random()<.5,R.random()<.6); s=string(); w=R.choice([0,1,2,3,5,9,20,65535 if len(s)>40 else 7])
    body.append(f'  chk "rw" {i} (({"[" + ", ".join(f"runeWidth {fl(c)} {r}" for r in runes(s)) + "]"} : List Nat) == {[RuneWidth(c,r) for r in runes(s)]})')
    cl=clusters(s)
    body.append('  chk "step" %d (steps (newGraphemes %s) 100 == [%s])'%(i,L(s),', '.join(f'({L(a)},{b},{d})' for a,b,d in cl)))
    body.append(f'  chk "sw" {i} (stringWidth {fl(c)} {L(s)} == {StringWidth(c,s)})')
    body.append(f'  chk "vw" {i} (visualWidth {fl(c)} {L(s)} == {vw(c,s)})')
    for nm,fn in (('Left',AL),('Right',AR),('Center',AC)):
        body.append(f'  chk "al{nm}" {i} (alignment{nm} {fl(c)} {L(s)} {w} == {L(fn(c,s,w))})')
AN={None:'none',AL:'some (alignmentLeft {f})',AR:'some (alignmentRight {f})',AC:'some (alignmentCenter {f})'}
for i in range(N//2):
    c=(R.random()<.5,R.random()<.6); f=fl(c)
    nc=R.choice([0,1,1,2,3])
    cols=[(R.choice([b'a',b'b',b'c']),string(),string(),R.choice([None,AL,AR,AC])) for _ in range(nc)]
    cw={k:R.choice([0,1,2,3,5,8,65535 if R.random()<.05 else 4,R.randrange(70)]) for k in (b'a',b'b',b'c')}
    t=Tab(cols,cw); n=R.choice([0,1,2,3,5,8,9]); items=[[string()[:12] for _ in range(nc - (R.random()<.03))] for _ in range(n)]
    arg=R.choice([-5,-1,0,1,5,10,20,30,40,60,80,100,R.randrange(200),65535,70000,65536*3+20]); sep=R.choice([b'',b' ',b'|',b' | ','é'.encode()])
    compact=R.random()<.6; fails=R.choice([None,None,None,0,1,2]); fuel=40
    colL='['+', '.join('({getter:=G0, alignment:=%s, name:=%s, title:=%s, shortTitle:=%s} : Column Unit Unit Unit Unit)'%(AN[a].format(f=f),L(x),L(y),L(z)) for x,y,z,a in cols)+']'
    tab=f'(⟨{colL}, fun k => if k = [97] then {cw[b"a"]} else if k = [98] then {cw[b"b"]} else if k = [99] then {cw[b"c"]} else 0⟩ : Table Unit Unit Unit Unit)'
    body.append(f'  chk "hdr" {i} (({tab}).formatHeader {f} {L(sep)} == {L(t.header(c,sep))})')
    body.append(f'  chk "tw" {i} (({tab}).tableWidth {len(sep)} == {t.tableWidth(len(sep))})')
    il='(⟨%d, fun k => ([%s] : List (List GoString)).getD k.toNat []⟩ : Items)'%(n,', '.join('['+','.join(map(L,r))+']' for r in items))
    ff='(fun _ => false)' if fails is None else f'(fun k => decide (k = {fails}))'
    fn=(lambda k: False) if fails is None else (lambda k: k==fails)
    def enc(r): return '⟨[%s], %s⟩'%(', '.join(map(L,r[0])),'none' if r[1] is None else 'some .'+r[1])
    r=t.merge(c,items,arg,sep,compact,False,fuel,fn)
    body.append(f'  chk "mh" {i} (mergeRowsHorizontal {f} {tab} {il} ({arg}) {L(sep)} {str(compact).lower()} {ff} {fuel} == {"none" if r is None else "some "+enc(r)})')
    r=t.merge(c,items,arg,sep,compact,True,fuel,fn)
    body.append(f'  chk "mv" {i} (mergeRowsVertical {f} {tab} {il} ({arg}) {L(sep)} {str(compact).lower()} {ff} == {enc(r)})')
k=0
for j in range(0,len(body),40):
    o.append(f'def t{k} : IO Unit := do'); o+=body[j:j+40]; o.append(f'#eval! t{k}'); k+=1
open(sys.argv[3],'w').write('\n'.join(o)+'\n#eval IO.println "done"\n'); print(len(body))
