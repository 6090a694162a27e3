#!/usr/bin/env python3
"""Writes lean/Verif/Lemmas/Opponent.lean (the tables and the test) and OpponentA.lean, OpponentB.lean (the test of every
pair of a red and a green channel).  The tables are only hints: the theorems do not trust how they were made."""
from fractions import Fraction as Fr
import math, os, sys
sys.set_int_max_str_digits(0)
OUT=os.path.join(os.path.dirname(__file__),'..','lean','Verif','Lemmas')
def iroot(n,k):
    hi=1<<((n.bit_length()+k-1)//k+1); lo=0
    while lo<hi:
        m=(lo+hi+1)//2
        if m**k<=n: lo=m
        else: hi=m-1
    return lo
# linear light of the channel values, times 2^42
def lin(c):
    if c<=10: return (10000*c<<42)//(255*1292)
    return iroot((100<<42)**5*(200*c+2805)**12//53805**12,5)
LT=[lin(c) for c in range(256)]
SC=['0.0039670859853499817','0.0038316226060267998','0.0036282633602984441']
MX=[['0.30269915328759','0.6023803116433','0.07047346329738'],['0.15374913599554','0.77736002827076','0.08535981854956'],
    ['0.02796570007202','0.14784523135458','0.90895832236388']]
# weights of the channels in the stimuli, times 2^64
W=[[math.floor(Fr(SC[i])*Fr(MX[i][j])*2**64) for j in range(3)] for i in range(3)]
WL=[[w-200 for w in r] for r in W]; WH=[[w+200 for w in r] for r in W]
KM=33
# 0.42nd powers, times 2^34, of numbers given times 2^52
Q=[iroot((m<<(k-6))**21<<608,50) for k in range(KM,52) for m in range(64,128)]
C=[round(v*2**40) for v in (0.42,0.42*0.58/2,0.42*0.58*1.58/6,0.42*0.58*1.58*2.58/24)]
A=(2713<<34)//100
D=math.ceil(Fr(19,10**7)*2**68)
def float_b(R,G,B,L=[c/2**42 for c in LT],w=[[x/2**64 for x in r] for r in W]):
    s=[]
    for i in range(3):
        q=(w[i][0]*L[R]+w[i][1]*L[G]+w[i][2]*L[B])**0.42
        s.append(q/(q+27.13))
    return s[0]+s[1]-2*s[2]
def crossing(R,G):
    """number of blue channels with a positive opponent coordinate, which decreases with blue"""
    if R==0 and G==0: return 1
    lo,hi=0,256
    while lo<hi:
        m=(lo+hi)//2
        if float_b(R,G,m)>0: lo=m+1
        else: hi=m
    return lo
def tree(lo,hi):
    if lo==hi: return str(lo-6)
    m=(lo+hi+1)//2
    return f"(sel (Nat.ble {2**m} t) {tree(m,hi)} {tree(lo,m-1)})"
hexn=lambda n:'0x%x'%n
pack=lambda l,b:hexn(sum(v<<(b*i) for i,v in enumerate(l)))
open(os.path.join(OUT,'Opponent.lean'),'w').write(f"""/-! The sign of the opponent coordinate yellow-blue of every colour: the test that the kernel evaluates.
Generated by tools/gen_opponent.py. -/

namespace Mcu.Lemmas.Opp

/-- Linear light of the channel values, times 2 ^ 42, 49 bits each. -/
def linT : Nat := {pack(LT,49)}

/-- Some powers with exponent 0.42, times 2 ^ 34, 36 bits each. -/
def rootT : Nat := {pack(Q,36)}

noncomputable def sel (b : Bool) (x y : Nat) : Nat := Bool.rec y x b
noncomputable def both (b k : Bool) : Bool := Bool.rec false k b
noncomputable def other (b k : Bool) : Bool := Bool.rec k true b

def lin (c : Nat) : Nat := Nat.land (Nat.shiftRight linT (Nat.mul 49 c)) {2**49-1}

/-- A guess of a power with exponent 0.42 (`down` and `up` test it). -/
def series (e : Nat) : Nat :=
  Nat.shiftRight (Nat.mul (Nat.sub {C[0]} (Nat.shiftRight (Nat.mul (Nat.sub {C[1]} (Nat.shiftRight (Nat.mul (Nat.sub {C[2]}
    (Nat.shiftRight (Nat.mul {C[3]} e) 40)) e) 40)) e) 40)) e) 40
def guess3 (q e : Nat) : Nat := Nat.add q (Nat.shiftRight (Nat.mul q (series e)) 40)
def guess2 (t s m : Nat) : Nat :=
  guess3 (Nat.land (Nat.shiftRight rootT (Nat.mul 36 (Nat.add (Nat.mul 64 (Nat.sub s {KM-6})) (Nat.sub m 64)))) {2**36-1})
    (Nat.div (Nat.shiftLeft (Nat.sub t (Nat.shiftLeft m s)) 40) (Nat.shiftLeft m s))
def guess1 (t s : Nat) : Nat := guess2 t s (Nat.shiftRight t s)
noncomputable def guess (t : Nat) : Nat := guess1 t {tree(KM,51)}

def sum3 (a b c r g bl : Nat) : Nat := Nat.shiftRight (Nat.add (Nat.add (Nat.mul a r) (Nat.mul b g)) (Nat.mul c bl)) 54

noncomputable def low (t q : Nat) (k : Nat → Bool) : Bool :=
  both (Nat.ble (Nat.pow q 50) (Nat.shiftLeft (Nat.pow t 21) 608)) (k (Nat.add q {A}))
noncomputable def high (t q : Nat) (k : Nat → Bool) : Bool :=
  both (Nat.ble (Nat.shiftLeft (Nat.pow t 21) 608) (Nat.pow q 50)) (k (Nat.add q {A+1}))
/-- Passes on a lower bound of `t ^ 0.42 + 27.13`. -/
noncomputable def down (t : Nat) (k : Nat → Bool) : Bool := low t (Nat.sub (guess t) 2) k
/-- Passes on an upper bound of `t ^ 0.42 + 27.13`. -/
noncomputable def up (t : Nat) (k : Nat → Bool) : Bool := high t (Nat.add (guess t) 3) k

/-- Bounds of the stimuli, times 2 ^ 52. -/
"""+''.join(f"def lo{i} (r g b : Nat) : Nat := sum3 {WL[i][0]} {WL[i][1]} {WL[i][2]} (lin r) (lin g) (lin b)\n" for i in range(3))
+''.join(f"def hi{i} (r g b : Nat) : Nat :=\n  Nat.succ (sum3 {WH[i][0]} {WH[i][1]} {WH[i][2]} (Nat.succ (lin r)) (Nat.succ (lin g)) (Nat.succ (lin b)))\n" for i in range(3))
+f"""
/-- The colour is clearly yellowish. -/
noncomputable def yellow (r g b : Nat) : Bool := down (lo0 r g b) fun x => down (lo1 r g b) fun y => up (hi2 r g b) fun z =>
  Nat.ble (Nat.add (Nat.mul z (Nat.add x y)) {D}) (Nat.mul (Nat.mul 2 x) y)
/-- The colour is clearly bluish. -/
noncomputable def blue (r g b : Nat) : Bool := up (hi0 r g b) fun x => up (hi1 r g b) fun y => down (lo2 r g b) fun z =>
  Nat.ble (Nat.add (Nat.mul (Nat.mul 2 x) y) {D}) (Nat.mul z (Nat.add x y))

/-- With red `r` and green `g` the colours are bluish from the blue channel `n` on and yellowish below. -/
noncomputable def pair (r g n : Nat) : Bool := both (Nat.ble n 256) (both (other (Nat.ble 256 n) (blue r g n))
  (other (Nat.ble n 0) (other (Nat.ble (Nat.add (Nat.add r g) n) 1) (yellow r g (Nat.sub n 1)))))

/-- All pairs of one red channel; `T` holds the numbers `n` of `pair`, 9 bits each. -/
noncomputable def row (r T g : Nat) : Bool :=
  Nat.rec true (fun g ih => both (pair r g (Nat.land (Nat.shiftRight T (Nat.mul 9 g)) 511)) ih) g

/-- Successive red channels. -/
noncomputable def rows (r : Nat) (l : List Nat) : Bool :=
  List.rec (fun _ => true) (fun T _ ih r => both (row r T 256) (ih (Nat.succ r))) l r

end Mcu.Lemmas.Opp
""")
for name,a,b in (('A',0,128),('B',128,256)):
    o=[f"import Verif.Lemmas.Opponent\n\n/-! The sign of the opponent coordinate yellow-blue, red channels {a} to {b-1}.\nGenerated by tools/gen_opponent.py. -/\n\nnamespace Mcu.Lemmas.Opp\n"]
    for c in range(a,b,8):
        ts=',\n    '.join(pack([crossing(R,G) for G in range(256)],9) for R in range(c,c+8))
        o.append(f"theorem rows{c} : rows {c} [{ts}] = true := by decide +kernel\n")
    o.append("end Mcu.Lemmas.Opp")
    open(os.path.join(OUT,f'Opponent{name}.lean'),'w').write('\n'.join(o)+'\n')
