"""generates lean/Verif/Lemmas/RectRound.lean: the polynomial part of the rectifying round trip"""
from poly import *
n=P.v('n'); k=[P.v(f'k{i}') for i in range(4)]; s=[None]+[P.v(f's{i}') for i in range(1,5)]; c=[None]+[P.v(f'c{i}') for i in range(1,4)]
K=k[0]+n*k[1]+n**2*k[2]+n**3*k[3]
b1=P.c(Fr(3,2))-Fr(27,32)*n**2; b2=P.c(Fr(21,16))-Fr(55,32)*n**2; b3=Fr(151,96); b4=Fr(1097,512)
T=K+b1*(s[1]*(1-2*n**2*K**2)+c[1]*(2*n*K-Fr(4,3)*n**3*K**3))+n*b2*(s[2]*(1-8*n**2*K**2)+4*c[2]*n*K)+n**2*b3*(s[3]+6*c[3]*n*K)+n**3*b4*s[4]
co=T.coeffs('n')
B={'k0':Fr(3,2),'k1':Fr(15,16),'k2':Fr(31,24),'k3':Fr(555,512)}
for i in range(1,5): B[f's{i}']=1
for i in range(1,4): B[f'c{i}']=1
N=Fr(9,50)
tot=sum(co[e].l1(B)*N**(e-4) for e in co if e>=4); print(float(tot))
S=P.v('S'); C=P.v('C')
def sub(p,m):
    r=P()
    for mon,v in p.d.items():
        t=P.c(v)
        for x,e in mon: t=t*(m[x]**e if x in m else P.v(x)**e)
        r=r+t
    return r
s1=S;c1=C;s2=2*S*C;c2=1-2*S**2;s3=3*S-4*S**3;c3=4*C**3-3*C;s4=4*S*C*(1-2*S**2)
m=dict(s1=s1,c1=c1,s2=s2,c2=c2,s3=s3,c3=c3,s4=s4,k0=-Fr(3,2)*s1,k1=Fr(15,16)*s2,k2=Fr(9,16)*s1-Fr(35,48)*s3,k3=-Fr(15,32)*s2+Fr(315,512)*s4)
ren=lambda q:q.show().replace('S','s1').replace('C','c1')
def divC(p):
    """p = q (S^2+C^2-1) + r, deg_C r < 2"""
    q=P(); d=S**2+C**2-1
    while True:
        cs=p.coeffs('C'); e=max(cs) if cs else 0
        if e<2: return q,p
        t=cs[e]*C**(e-2); q=q+t; p=p-t*d
out=[]
for e in range(4):
    q,r=divC(sub(co[e],m)); print(e,q.show(),'| rem',r.show()); out.append(q)
R=int(tot)+1
w=open('/verif/lean/Verif/Lemmas/RectRound.lean','w')
w.write(f'''import Verif.Lemmas.Bd
import Mathlib.Tactic.LinearCombination
/-!
Generated by tools/series/rect_rt.py: the polynomial part of the rectifying-latitude round trip.
-/
namespace RectRound

/-- the first four orders cancel -/
theorem orders {{s1 c1 : ℝ}} (h : s1 ^ 2 + c1 ^ 2 = 1) {{s2 s3 s4 c2 c3 k0 k1 k2 k3 : ℝ}}
    (hs2 : s2 = 2 * s1 * c1) (hs3 : s3 = 3 * s1 - 4 * s1 ^ 3) (hs4 : s4 = 4 * s1 * c1 * (1 - 2 * s1 ^ 2))
    (hc2 : c2 = 1 - 2 * s1 ^ 2) (hc3 : c3 = 4 * c1 ^ 3 - 3 * c1)
    (hk0 : k0 = -(3 / 2) * s1) (hk1 : k1 = 15 / 16 * s2) (hk2 : k2 = 9 / 16 * s1 - 35 / 48 * s3)
    (hk3 : k3 = -(15 / 32) * s2 + 315 / 512 * s4) :
''' + ' ∧\n'.join(f'    {co[e].show()} = 0' for e in range(4)) + ''' := by
  subst hk0 hk1 hk2 hk3 hs2 hs3 hs4 hc2 hc3
  refine ⟨?_, ?_, ?_, ?_⟩
''' + ''.join(f'  · linear_combination ({ren(q)}) * h\n' for q in out))
hy='\n    '.join(f'(h{v} : |{v}| ≤ {b})' for v,b in list(B.items())+[('n',N)])
w.write(f'''
set_option linter.unusedVariables false in
set_option maxHeartbeats 4000000 in
/-- what remains is of order four, with an explicit constant -/
theorem remainder {{n k0 k1 k2 k3 s1 s2 s3 s4 c1 c2 c3 : ℝ}}
    {hy}
''' + '\n'.join(f'    (e{e} : {co[e].show()} = 0)' for e in range(4)) + f''' :
    |(k0 + n * k1 + n ^ 2 * k2 + n ^ 3 * k3) +
      (3 / 2 - 27 / 32 * n ^ 2) * (s1 * (1 - 2 * n ^ 2 * (k0 + n * k1 + n ^ 2 * k2 + n ^ 3 * k3) ^ 2) +
        c1 * (2 * n * (k0 + n * k1 + n ^ 2 * k2 + n ^ 3 * k3) - 4 / 3 * n ^ 3 * (k0 + n * k1 + n ^ 2 * k2 + n ^ 3 * k3) ^ 3)) +
      n * (21 / 16 - 55 / 32 * n ^ 2) * (s2 * (1 - 8 * n ^ 2 * (k0 + n * k1 + n ^ 2 * k2 + n ^ 3 * k3) ^ 2) +
        4 * c2 * n * (k0 + n * k1 + n ^ 2 * k2 + n ^ 3 * k3)) +
      n ^ 2 * (151 / 96) * (s3 + 6 * c3 * n * (k0 + n * k1 + n ^ 2 * k2 + n ^ 3 * k3)) + n ^ 3 * (1097 / 512) * s4| ≤ {R} * n ^ 4 := by
''')
rem=[(e,co[e]) for e in sorted(co) if e>=4]
remtxt=' +\n      '.join(f'({p.show()})' if e==4 else f'n ^ {e-4} * ({p.show()})' for e,p in rem)
w.write(f'''  obtain ⟨R, hR⟩ : ∃ R : ℝ, R = {remtxt} := ⟨_, rfl⟩
  have hb : |R| ≤ {R} := by
    rw [hR]; bdnum
  have key : ∀ T : ℝ, T = n ^ 4 * R → |T| ≤ {R} * n ^ 4 := by
    intro T hT
    rw [hT, abs_mul, abs_of_nonneg (by positivity), mul_comm]
    exact mul_le_mul_of_nonneg_right hb (by positivity)
  apply key
  rw [hR]
  linear_combination e0 + n * e1 + n ^ 2 * e2 + n ^ 3 * e3

end RectRound
''')
w.close()
