"""generates lean/Verif/Lemmas/AuthRound.lean: the polynomial part of the authalic round trip"""
from poly import *
n=P.v('n'); k=[P.v(f'k{i}') for i in range(3)]; s=[None]+[P.v(f's{i}') for i in range(1,5)]; c=[None]+[P.v(f'c{i}') for i in range(1,4)]
K=k[0]+n*k[1]+n**2*k[2]
b1=P.c(Fr(1,3))+Fr(31,180)*n+Fr(517,5040)*n**2; b2=P.c(Fr(23,360))+Fr(251,3780)*n; b3=Fr(761,45360)
T=K+b1*(s[1]*(1-2*n**2*K**2)+c[1]*(2*n*K))+n*b2*(s[2]+4*c[2]*n*K)+n**2*b3*s[3]
co=T.coeffs('n')
B={'k0':Fr(1,3),'k1':Fr(79,360),'k2':Fr(59,560)+Fr(61,1260)+Fr(383,45360)}
for i in range(1,4): B[f's{i}']=1
for i in range(1,3): B[f'c{i}']=1
N=Fr(1,2)
tot=sum(co[e].l1(B)*N**(e-3) for e in co if e>=3); print(float(tot),float(co[3].l1(B)))
S=P.v('S'); C=P.v('C')
def sub(p,m):
    r=P()
    for mon,v in p.d.items():
        t=P.c(v)
        for x,e in mon: t=t*(m[x]**e if x in m else P.v(x)**e)
        r=r+t
    return r
s1=S;c1=C;s2=2*S*C;c2=1-2*S**2;s3=3*S-4*S**3
m=dict(s1=s1,c1=c1,s2=s2,c2=c2,s3=s3,k0=-Fr(1,3)*s1,k1=-Fr(31,180)*s1+Fr(17,360)*s2,k2=-Fr(59,560)*s1+Fr(61,1260)*s2-Fr(383,45360)*s3)
ren=lambda q:q.show().replace('S','s1').replace('C','c1')
def divC(p):
    q=P(); d=S**2+C**2-1
    while True:
        cs=p.coeffs('C'); e=max(cs) if cs else 0
        if e<2: return q,p
        t=cs[e]*C**(e-2); q=q+t; p=p-t*d
out=[]
for e in range(3):
    q,r=divC(sub(co[e],m)); print(e,q.show(),'| rem',r.show()); out.append(q)
R='7/10' if tot<Fr(7,10) else str(int(tot)+1)
KK='(k0 + n * k1 + n ^ 2 * k2)'
w=open('/verif/lean/Verif/Lemmas/AuthRound.lean','w')
w.write(f'''import Verif.Lemmas.Bd
import Mathlib.Tactic.LinearCombination
/-!
Generated by tools/series/auth_rt.py: the polynomial part of the authalic-latitude round trip (`n` stands for `e^2`).
-/
namespace AuthRound

/-- the first three orders cancel -/
theorem orders {{s1 c1 : ℝ}} (h : s1 ^ 2 + c1 ^ 2 = 1) {{s2 s3 c2 k0 k1 k2 : ℝ}}
    (hs2 : s2 = 2 * s1 * c1) (hs3 : s3 = 3 * s1 - 4 * s1 ^ 3) (hc2 : c2 = 1 - 2 * s1 ^ 2)
    (hk0 : k0 = -(1 / 3) * s1) (hk1 : k1 = -(31 / 180) * s1 + 17 / 360 * s2)
    (hk2 : k2 = -(59 / 560) * s1 + 61 / 1260 * s2 - 383 / 45360 * s3) :
''' + ' ∧\n'.join(f'    {co[e].show()} = 0' for e in range(3)) + ''' := by
  subst hk0 hk1 hk2 hs2 hs3 hc2
  refine ⟨?_, ?_, ?_⟩
''' + ''.join(f'  · linear_combination ({ren(q)}) * h\n' for q in out))
hy='\n    '.join(f'(h{v} : |{v}| ≤ {b})' for v,b in list(B.items())+[('n',N)])
rem=[(e,co[e]) for e in sorted(co) if e>=3]
remtxt=' +\n      '.join(f'({p.show()})' if e==3 else f'n ^ {e-3} * ({p.show()})' for e,p in rem)
w.write(f'''
set_option linter.unusedVariables false in
set_option maxHeartbeats 4000000 in
/-- what remains is of order three, with an explicit constant -/
theorem remainder {{n k0 k1 k2 s1 s2 s3 c1 c2 : ℝ}} (n0 : 0 ≤ n)
    {hy}
''' + '\n'.join(f'    (e{e} : {co[e].show()} = 0)' for e in range(3)) + f''' :
    |{KK} + (1 / 3 + 31 / 180 * n + 517 / 5040 * n ^ 2) * (s1 * (1 - 2 * n ^ 2 * {KK} ^ 2) + c1 * (2 * n * {KK})) +
      n * (23 / 360 + 251 / 3780 * n) * (s2 + 4 * c2 * n * {KK}) + n ^ 2 * (761 / 45360) * s3| ≤ {R} * n ^ 3 := by
  obtain ⟨R, hR⟩ : ∃ R : ℝ, R = {remtxt} := ⟨_, rfl⟩
  have hb : |R| ≤ {R} := by
    rw [hR]; bdnum
  have key : ∀ T : ℝ, T = n ^ 3 * R → |T| ≤ {R} * n ^ 3 := by
    intro T hT
    rw [hT, abs_mul, abs_of_nonneg (by positivity), mul_comm]
    exact mul_le_mul_of_nonneg_right hb (by positivity)
  apply key
  rw [hR]
  linear_combination e0 + n * e1 + n ^ 2 * e2

end AuthRound
''')
w.close()
