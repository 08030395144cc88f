"""generates lean/Verif/Lemmas/KarneyLen.lean: A1 (1 + sum 2 l C1[l] cos 2 l x) against sqrt(1 - 2 e cos 2x + e^2)/(1-e), and the longitude integrand"""
from poly import *
import math
e=P.v('e'); c=P.v('c'); n=P.v('n'); f=Fr
def cheb(k):
    T=[P.c(1),c]
    while len(T)<=k: T.append(2*c*T[-1]-T[-2])
    return T[k]
def up(x):
    x=Fr(x)
    if x==0: return x
    k=0
    while x*10**k<1000: k+=1
    return Fr(math.ceil(x*10**k),10**k)
sh=lambda x:f'({x.numerator}/{x.denominator})' if x.denominator!=1 else f'{x.numerator}'
C1=[None,-f(1,2)*e+f(3,16)*e**3-f(1,32)*e**5,-f(1,16)*e**2+f(1,32)*e**4-f(9,2048)*e**6,-f(1,48)*e**3+f(3,256)*e**5,-f(5,512)*e**4+f(3,512)*e**6,-f(7,1280)*e**5,-f(7,2048)*e**6]
a=1+f(1,4)*e**2+f(1,64)*e**4+f(1,256)*e**6
E=f(1,18)
d=P.c(1)
for l in range(1,7): d=d+2*l*C1[l]*cheb(l)
Q=a*d
D=Q*Q-(1-2*e*c+e*e)
co=D.coeffs('e'); assert min(co)==7
def horner(co,lo,var):
    top=max(co); r=None
    for k in range(top,lo-1,-1):
        t=co.get(k,P()).show()
        r=f'({t})' if r is None else f'(({t}) + {var} * {r})'
    return r
K1=up(sum(co[k].l1({'c':1})*E**(k-7) for k in co))
dtxt='1 + '+' + '.join(f'{2*l} * ({C1[l].show()}) * q{l}' for l in range(1,7))
hyp=' '.join(f'(hq{l} : q{l} = {cheb(l).show()})' for l in range(1,7))
w=open('/verif/lean/Verif/Lemmas/KarneyLen.lean','w')
w.write(f'''import Verif.Lemmas.Bd
import Mathlib.Tactic.LinearCombination
import Mathlib.Tactic.Positivity
/-!
Generated by tools/series/karney_len.py: the length and longitude integrands of `karney.py`.
-/
set_option linter.unusedVariables false
namespace KarneyLen

set_option maxHeartbeats 2000000 in
/-- the length series, squared -/
theorem len_sq {{e c {' '.join(f'q{l}' for l in range(1,7))} : ℝ}} (he : |e| ≤ {sh(E)}) (hc : |c| ≤ 1) {hyp} :
    |(({a.show()}) * ({dtxt})) ^ 2 - (1 - 2 * e * c + e ^ 2)| ≤ {sh(K1)} * |e| ^ 7 := by
  obtain ⟨R, hR⟩ : ∃ R : ℝ, R = {horner(co,7,'e')} := ⟨_, rfl⟩
  have hb : |R| ≤ {sh(K1)} := by rw [hR]; bdnum
  have e2 : (({a.show()}) * ({dtxt})) ^ 2 - (1 - 2 * e * c + e ^ 2) = R * e ^ 7 := by
    rw [hR]; subst {' '.join(f'hq{l}' for l in range(1,7))}; ring
  rw [e2, abs_mul, abs_pow]
  exact mul_le_mul_of_nonneg_right hb (by positivity)
''')
# longitude
A3=1+(f(1,2)*n-f(1,2))*e+(f(3,8)*n**2-f(1,8)*n-f(1,4))*e**2+(-f(1,16)*n**2-f(3,16)*n-f(1,16))*e**3+(-f(1,32)*n-f(3,64))*e**4-f(3,128)*e**5
C3=[None,(-f(1,4)*n+f(1,4))*e+(-f(1,8)*n**2+f(1,8))*e**2+(-f(1,64)*n**2+f(3,64)*n+f(3,64))*e**3+(f(1,64)*n+f(5,128))*e**4+f(3,128)*e**5,
 (f(1,32)*n**2-f(3,32)*n+f(1,16))*e**2+(-f(3,64)*n**2-f(1,32)*n+f(3,64))*e**3+(f(1,128)*n+f(3,128))*e**4+f(5,256)*e**5,
 (f(5,192)*n**2-f(3,64)*n+f(5,192))*e**3+(-f(5,192)*n+f(3,128))*e**4+f(7,512)*e**5,
 (-f(7,256)*n+f(7,512))*e**4+f(7,512)*e**5, f(21,2560)*e**5]
d3=P.c(1)
for l in range(1,6): d3=d3+2*l*C3[l]*cheb(l)
P3=A3*d3
# truncation of sqrt(1-2ec+e^2) to order 5
s=[P.c(1)]
def trunc(p,k): return sum((v*e**i for i,v in p.coeffs('e').items() if i<=k),P())
S=P.c(1); tgt=1-2*e*c+e*e
for k in range(1,6):
    r=(tgt-S*S).coeffs('e').get(k,P())
    S=S+f(1,2)*r*e**k
cs=(S*S-tgt).coeffs('e'); assert min(cs)==6
KS=up(sum(cs[k].l1({'c':1})*E**(k-6) for k in cs))
D3=P3*((1+n)*(1-e)+(1-n)*S)-2*(1-e)
lo=min(sum(x[1] for x in m if x[0] in 'en') for m in D3.d); print('lowest joint order',lo)
assert lo==6; print('min e',min(D3.coeffs('e')))
# group: every monomial e^i n^j c^k with i>=1, i+j>=6 ; write as  sum_{i,j} e^i n^j p_ij(c)
grp={}
for m,v in D3.d.items():
    m=dict(m); i=m.pop('e',0); j=m.pop('n',0); k=m.pop('c',0)
    grp.setdefault((i,j),P()); grp[(i,j)]=grp[(i,j)]+v*c**k
tot=sum(p.l1({'c':1})*E**(i+j-6) for (i,j),p in grp.items()); print('K3',float(tot),len(D3.d),len(grp),'KS',float(KS),'P3 l1',float(P3.l1({'c':1,'e':E,'n':E})))
K3=up(tot)
import itertools
# write with e = n*t, |t|<=1 : D3 = n^6 * sum t^i n^(i+j-6) p_ij
d3txt='1 + '+' + '.join(f'{2*l} * ({C3[l].show()}) * q{l}' for l in range(1,6))
hyp3=' '.join(f'(hq{l} : q{l} = {cheb(l).show()})' for l in range(1,6))
byk={}
for (i,j),p in grp.items(): byk.setdefault(i+j,[]).append((i,p))
def term(i,p): return f't ^ {i} * ({p.show()})'
top=max(byk); ks=list(range(6,top+1))
ktx={k:' + '.join(term(i,p) for i,p in sorted(byk.get(k,[]),key=lambda z:z[0])) or '0' for k in ks}
kb={k:up(sum(p.l1({'c':1}) for i,p in byk.get(k,[]))) for k in ks}
obt=''.join(f"  obtain ⟨R{k}, hR{k}⟩ : ∃ R : ℝ, R = {ktx[k]} := ⟨_, rfl⟩\n  have hb{k} : |R{k}| ≤ {sh(kb[k])} := by rw [hR{k}]; bdnum\n" for k in ks)
K3=up(sum(kb[k]*E**(k-6) for k in ks))
Rt=None
for k in reversed(ks): Rt=f'R{k}' if Rt is None else f'(R{k} + n * {Rt})'
w.write(f'''
set_option maxRecDepth 20000 in
set_option maxHeartbeats 4000000 in
/-- the square root to order five -/
theorem root_sq {{e c : ℝ}} (he : |e| ≤ {sh(E)}) (hc : |c| ≤ 1) :
    |({S.show()}) ^ 2 - (1 - 2 * e * c + e ^ 2)| ≤ {sh(KS)} * |e| ^ 6 := by
  obtain ⟨R, hR⟩ : ∃ R : ℝ, R = {horner(cs,6,'e')} := ⟨_, rfl⟩
  have hb : |R| ≤ {sh(KS)} := by rw [hR]; bdnum
  have e2 : ({S.show()}) ^ 2 - (1 - 2 * e * c + e ^ 2) = R * e ^ 6 := by rw [hR]; ring
  rw [e2, abs_mul, abs_pow]
  exact mul_le_mul_of_nonneg_right hb (by positivity)

set_option maxRecDepth 20000 in
set_option maxHeartbeats 4000000 in
/-- the longitude series times the denominator of the integrand; `e = n t` -/
theorem lon_poly {{e n t c {' '.join(f'q{l}' for l in range(1,6))} : ℝ}} (he : e = n * t) (hn : |n| ≤ {sh(E)}) (ht : |t| ≤ 1) (hc : |c| ≤ 1)
    {hyp3} :
    |({A3.show()}) * ({d3txt}) *
      ((1 + n) * (1 - e) + (1 - n) * ({S.show()})) - 2 * (1 - e)| ≤ {sh(K3)} * |n| ^ 6 := by
{obt}  obtain ⟨R, hR⟩ : ∃ R : ℝ, R = {Rt} := ⟨_, rfl⟩
  have hb : |R| ≤ {sh(K3)} := by rw [hR]; clear {' '.join(f'hR{k}' for k in ks)}; bdnum
  have e2 : ({A3.show()}) * ({d3txt}) *
      ((1 + n) * (1 - e) + (1 - n) * ({S.show()})) - 2 * (1 - e) = R * n ^ 6 := by
    rw [hR, {', '.join(f'hR{k}' for k in ks)}]; subst {' '.join(f'hq{l}' for l in range(1,6))}; subst he; ring
  rw [e2, abs_mul, abs_pow]
  exact mul_le_mul_of_nonneg_right hb (by positivity)

end KarneyLen
''')
w.close(); print('K1',float(K1)); print('S',S.show())
