#!/usr/bin/env python3
"""Writes the box checks of lean/Verif/Lemmas/Cover{A,B,C,D,E}.lean.

A check is cut into pieces, so that each one needs little memory: tools/cover_splits.json lists the boxes that are cut.
`gen_cover.py --count FILE` writes a Lean script that prints this list."""
from fractions import Fraction as Fr
import math, os, sys, json
S=2**44
OUT=os.path.join(os.path.dirname(__file__),'..','lean','Verif','Lemmas')
def itv(a,b):
    a=Fr(a);b=Fr(b)
    return '⟨%d, %d⟩'%(math.floor(a*S),math.ceil(b*S))
def u(v):
    n=Fr(v)*10**10
    assert n.denominator==1,v
    return str(int(n))
Y=(Fr('0.2126'),Fr('0.7152'),Fr('0.0722'))
E=lambda i:tuple(Fr(int(i==j)) for j in range(3))
def comb(*ts):
    return tuple(sum(Fr(c)*v[j] for c,v in ts) for j in range(3))
def cut(v,k=0): return '⟨%s, %s, %s, %s⟩'%(u(v[0]),u(v[1]),u(v[2]),u(k))
def lin(a,b): return '⟨%s, %s, %s, %s, %s, %s⟩'%tuple(u(w) for w in a+b)
GAM=[cut(comb((1,E(i)),('0.000001',Y))) for i in range(3)]
def ge(v,y): return cut(v,-Fr(y))
def le(v,y): return cut(comb((-1,v)),Fr(y))
mods={}
def box(i): return '⟨%d, %d⟩'%i
def halves(i):
    m=(i[0]+i[1])//2
    return (i[0],m),(m,i[1])
SPLITS=os.path.join(os.path.dirname(__file__),'cover_splits.json')
splits=set(json.load(open(SPLITS))) if os.path.exists(SPLITS) else set()
counts=[]
IMPORT={'C':'CoverA','D':'CoverB','E':'CoverC'}
def check(mod,name,doc,cuts,test,T,w):
    pre=f"{w[0]} {w[1]} {w[2]} ({test[0]} [{', '.join(GAM+cuts)}] {test[1]})"
    short=f"{w[0]} {w[1]} {w[2]} test_{name[6:]}"
    out=[f"abbrev test_{name[6:]} : Cell → Bool := {test[0]} [{', '.join(GAM+cuts)}] {test[1]}\n"]
    def go(n,x,z,t,path):
        nm=name+path
        st=f"cover {short if path else pre} {n}{' ' if path else chr(10)+'    '}{box(x)} {box(z)} {box(t)} = true"
        if nm not in splits:
            out.append(f"theorem {nm} : {st} := by decide +kernel\n")
            return nm
        W=lambda i:i[1]-i[0]
        if W(x)*w[0]<=W(z)*w[1] and W(t)*w[2]<=W(z)*w[1]: k='z'; kids=[(x,h,t) for h in halves(z)]
        elif W(t)*w[2]<=W(x)*w[0]: k='x'; kids=[(h,z,t) for h in halves(x)]
        else: k='t'; kids=[(x,z,h) for h in halves(t)]
        l,r=[go(n-1,*kid,(path or '_')+c) for kid,c in zip(kids,'lr')]
        out.append((f"/-- {doc} -/\n" if not path else '')+f"theorem {nm} : {st} :=\n  cover_{k} (by decide +kernel) rfl {l} {r}\n")
        return nm
    iv=lambda a,b:(math.floor(Fr(a)*S),math.ceil(Fr(b)*S))
    counts.append(f'#eval walk "{name}" {pre} 40 {itv("0.995","1.0146")} {itv("0.965","1.0475")} {itv(T,1)} false')
    go(40,iv('0.995','1.0146'),iv('0.965','1.0475'),iv(T,1),'')
    mods.setdefault(mod,[]).extend(out)
k42=Fr('0.42')
def goal(a,b): return ('linTest',lin(tuple(k42*w for w in a),b))
Z=(Fr(0),)*3
base=lambda y,m:[ge(Y,y),le(Y,m)]
for i,w in enumerate([(100,4,1),(60,12,1),(15,25,1)]):
    check('A',f'check_rise{i}','Every component rises at a tenth of the luminance.',base('0.002','165'),goal(comb(('-0.1',Y)),E(i)),'0.78',w)
for nm,y,p,T,w in [('0','0.002','1.72','0.78',(50,3,2)),('7','7','1.765','0.92',(40,3,2)),('16','16','1.78','0.93',(20,1,1)),('64','64','1.795','0.96',(10,1,1))]:
    check('A','check_fast'+nm,f'The luminance grows at least like the power {p}.',base(y,'165'),goal(comb((-Fr(p),Y)),Y),T,w)
check('A','check_slow','The luminance grows at most like the power 2.2.',base('0.002','165'),goal(comb(('2.2',Y)),comb((-1,Y))),'0.78',(20,4,1))
for i,(m,w) in enumerate([('1.7',(25,4,1)),('2.4',(25,25,1)),('0.8',(15,15,1))]):
    check('A',f'check_steep{i}','No component rises too fast.',base('0.002','165'),goal(comb(('2.2',E(i)),(m,Y)),comb((-1,E(i)))),'0.78',w)
check('A','check_blue','Blue rises at most 4.9 times as fast as the luminance.',base('0.002','165'),goal(Z,comb(('4.9',Y),(-1,E(2)))),'0.78',(15,25,1))
check('B','check_full_r','A large red component.',base('16','155')+[cut(comb((1,E(0)),('-0.97',Y)))],goal(comb(('2.2',E(0))),comb((-1,E(0)))),'0.93',(50,5,2))
check('B','check_full_g','A large green component.',base('64','155')+[cut(comb((1,E(1)),('-0.97',Y)))],goal(comb(('2.2',E(1))),comb((-1,E(1)))),'0.96',(35,8,1))
check('B','check_full_b','A large blue component.',base('7','155')+[cut(comb((1,E(2)),('-0.97',Y)))],goal(comb(('2',E(2))),comb((-1,E(2)))),'0.92',(15,20,1))
check('B','check_most_b','A very large blue component.',base('7','155')+[cut(comb((1,E(2)),('-4.5',Y)))],goal(comb(('1.5',E(2))),comb((-1,E(2)))),'0.92',(10,8,1))
K=Fr(400)/Fr('27.13')
def pw(kind,R2,pWhite):
    c=Fr('0.0121')/Fr(R2); k=K/Fr(pWhite)
    n=c*10**26; m=k*10**26
    # the factor of the luminance is rounded against the claim, and so is the other one
    return (kind, ('%d %d')%((math.floor(n),math.ceil(m)) if kind=='loTest' else (math.ceil(n),math.floor(m))))
check('B','check_start','The first guess is too large.',base('0.002','101')+[le(E(i),101) for i in range(3)],pw('loTest','1.0404','29.4'),'0.78',(10,1,1))
for nm,y,R2,T,w in [('0','0.002','4.39','0.78',(20,1,1)),('01','0.1','2.82','0.84',(6,1,1)),('1','1','2.225','0.88',(10,1,1)),('4','4','1.934','0.91',(35,1,1)),('16','16','1.648','0.93',(10,1,1)),('64','64','1.462','0.96',(10,1,1))]:
    check('B','check_guess'+nm,'The first guess is not much too large.',base(y,'101'),pw('hiTest',R2,'29.5'),T,w)
check('B','check_guess_r','The first guess for full red.',base('16','101')+[ge(E(0),95)]+[le(E(i),'100.1') for i in range(3)],pw('hiTest','1.349','29.5'),'0.93',(10,1,1))
check('B','check_guess_b','The first guess for full blue.',base('7','101')+[ge(E(2),95)]+[le(E(i),'100.1') for i in range(3)],pw('hiTest','1.419','29.5'),'0.92',(6,1,1))
check('C','check_power0','The luminance grows at most like the power 2.03.',base('0.002','155')+[le(E(2),360)],goal(comb(('2.03',Y)),comb((-1,Y))),'0.78',(25,6,1))
check('C','check_power003','The luminance grows at most like the power 2.003.',base('0.03','155')+[le(E(2),360)],goal(comb(('2.003',Y)),comb((-1,Y))),'0.82',(25,10,1))
check('D','check_power01','The luminance grows at most like the power 1.9995.',base('0.1','155')+[le(E(2),360)],goal(comb(('1.9995',Y)),comb((-1,Y))),'0.84',(20,10,1))
check('E','check_power8','The luminance grows at most like the power 1.998.',base('8','155')+[le(E(2),360)],goal(comb(('1.998',Y)),comb((-1,Y))),'0.92',(20,10,1))
check('E','check_power60','The luminance grows at most like the power 1.98.',base('60','155')+[le(E(2),360)],goal(comb(('1.98',Y)),comb((-1,Y))),'0.95',(10,5,1))
if len(sys.argv)>2 and sys.argv[1]=='--count':
    with open(sys.argv[2],'w') as f:
        f.write('''import Verif.Lemmas.Cover
open Mcu.Lemmas
def count (kx kz kt : Int) (test : Cell → Bool) : Nat → Itv → Itv → Itv → Nat
  | 0, _, _, _ => 0
  | n + 1, x, z, t =>
    if (Cell.of x z t).ok && test (Cell.of x z t) then 1
    else if decide (x.width * kx ≤ z.width * kz) && decide (t.width * kt ≤ z.width * kz) then 1 + count kx kz kt test n x z.left t + count kx kz kt test n x z.right t
    else if decide (t.width * kt ≤ x.width * kx) then 1 + count kx kz kt test n x.left z t + count kx kz kt test n x.right z t
    else 1 + count kx kz kt test n x z t.left + count kx kz kt test n x z t.right
def walk (nm : String) (kx kz kt : Int) (test : Cell → Bool) : Nat → Itv → Itv → Itv → Bool → IO Unit
  | 0, _, _, _, _ => pure ()
  | n + 1, x, z, t, inner => do
    let c := count kx kz kt test (n + 1) x z t
    if c ≤ 300 then pure () else
    IO.println s!"SPLIT {nm} {c}"
    let nm := if inner then nm else nm ++ "_"
    if decide (x.width * kx ≤ z.width * kz) && decide (t.width * kt ≤ z.width * kz) then
      walk (nm ++ "l") kx kz kt test n x z.left t true; walk (nm ++ "r") kx kz kt test n x z.right t true
    else if decide (t.width * kt ≤ x.width * kx) then
      walk (nm ++ "l") kx kz kt test n x.left z t true; walk (nm ++ "r") kx kz kt test n x.right z t true
    else walk (nm ++ "l") kx kz kt test n x z t.left true; walk (nm ++ "r") kx kz kt test n x z t.right true
'''+'\n'.join(counts)+'\n')
    sys.exit()
for m,cs in mods.items():
    with open(os.path.join(OUT,f'Cover{m}.lean'),'w') as f:
        f.write('import Verif.Lemmas.'+IMPORT.get(m,'CoverSplit')+'\n\n/-! Box checks, written by tools/gen_cover.py. -/\n\nset_option maxRecDepth 100000\n\nnamespace Mcu.Lemmas\n\n'+'\n'.join(cs)+'\nend Mcu.Lemmas\n')
