"""Random comparison of the Lean model with a transliteration of the Go text: locales and generators.

usage: compare_generators.py SEED COUNT OUT.lean, then `lake env lean OUT.lean` in lean/; prints a line for each mismatch.
"""
import random, sys, os
sys.path.insert(0, os.path.dirname(os.path.abspath(__file__)))
from port_generators import *
R=random.Random(int(sys.argv[1])); N=int(sys.argv[2])
def L(b):
    if isinstance(b,str): b=b.encode()
    return '['+','.join(map(str,b))+']'
o=['import Verif','open GoTable','set_option maxRecDepth 100000','set_option maxHeartbeats 0','def chk (name : String) (i : Nat) (b : Bool) : IO Unit := unless b do IO.println s!"MISMATCH {name} {i}"']
body=[]
def loc():
    a=R.choice(['ja','ko','zh','en','C','POSIX','jaa','j','JA','',"C.",'C-']); b=R.choice(['','_JP','_CN','_jp','_K']); c=R.choice(['','.','.'+R.choice(list(k.decode() for k in MB)),'.UTF-8','.eucJP','.Big5','utf8','.\n','.utf8@x','.gbk@cjk_narrow','.@','.utf-8@cjk_narrow@'])
    d=R.choice(['','','@x','@cjk_narrow'])
    return (a+b+c+d).encode()
def hx(): return R.choice(['%04X','%X','%04x','%06X','+%X','%X ',' %X'])%R.choice([0,1,0x41,0xfe,0xff,0x100,0x300,0x1100,0x4e00,0x1f600,0x10ffff,0x7fffffff,0x80000000,0xabcdef01])
def pline():
    a=R.choice(['%04X','%06X','%X','%04x'])%R.choice([1,0x41,0x1234,0x10ffff,0xabcdef1]); b=R.choice(['','..1234','..12','..10FFFFF','.1234','..'])
    return a+b+R.choice([' ',' \t','','\v','\xa0'])+R.choice([';',';',';;',''])+R.choice([' ','','\f'])+R.choice(['Extend','Regional_Indicator','E B','','A1_'])+R.choice([' ',''])+R.choice(['# x','#y','# ','#  Lo [2] A..B','#\tq\xe9','# a\nb'])
def eline():
    k=R.random()
    if k<.1: return R.choice(['','#x','# COMBINING','Extended_Pictographic ; No','0041..0042 ; Extended_Pictographic ; No'])
    return hx()+R.choice(['','..'+hx(),'..','.. '+hx()])+R.choice([';','; ','',' ',' ;'])+R.choice(['W','F','A','Na','N','H','WW'])+R.choice([' ','','\t','　','#'])+R.choice(['# x','COMBINING','COMBININ','é'])
def emline(): 
    k=R.random()
    if k<.15: return R.choice(['','#x','# Extended_Pictographic ; No','#Extended_Pictographic ; No y'])
    return hx()+R.choice(['','..'+hx(),'..'])+R.choice([' ; Emoji','; E','',' ','\t#'])
for i in range(N):
    l=[R.choice([b'',loc()]) for _ in range(3)]
    body.append(f'  chk "loc" {i} (isEastAsian asciiLower {L(l[0])} {L(l[1])} {L(l[2])} == some {str(bool(IsEastAsian(*l))).lower()})')
    p=pline().encode(); r=parseProperty(p)
    body.append(f'  chk "prop" {i} (decide (parseProperty {L(p)} = {"none" if r is None else "some ⟨"+", ".join(map(L,r))+"⟩"}))')
for i in range(N//10):
    ls=[eline() for _ in range(R.choice([0,1,5,20]))]; t=eastasian(ls)
    body.append(f'  chk "ea" {i} (decide (eastasianTables [{", ".join(map(L,ls))}] = ⟨{t["cmb"]}, {t["dbl"]}, {t["amb"]}, {t["na"]}, {t["nu"]}⟩))')
    ls=[emline() for _ in range(R.choice([1,5,20]))]; t=emoji(ls)
    body.append(f'  chk "em" {i} (emojiTable [{", ".join(map(L,ls))}] == {t})')
    arr=[(R.choice([0,5,0x123,0x1234,0x12345,0x10ffff]),R.choice([0,0xfff,0x12345])) for _ in range(R.randrange(9))]
    body.append(f'  chk "gt" {i} (generateText {L("abc")} {arr} == {L(gentext("abc",arr))})')
k=0
for j in range(0,len(body),40):
    o.append(f'def t{k} : IO Unit := do'); o+=body[j:j+40]; o.append(f'#eval! t{k}'); k+=1
open(sys.argv[3],'w').write('\n'.join(o)+'\n#eval IO.println "done"\n'); print(len(body))
