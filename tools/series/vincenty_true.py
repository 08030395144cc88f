"""Generates lean/Verif/Lemmas/VincentySeries.lean: Vincenty's length and longitude series against the exact integrands."""
import sys; sys.path.insert(0,'/verif/tools/series')
from poly import *
from math import comb
w=P.v('w'); c=P.v('c'); f=P.v('f'); p=P.v('p'); m=P.v('m')
def sh(x): x=Fr(x); return f'({x.numerator}/{x.denominator})' if x.denominator!=1 else f'{x.numerator}'
def up(x,d=1000): 
    import math
    return Fr(math.ceil(x*d),d)
def horner(cs,lo,v):
    r=None
    for k in range(max(cs),lo-1,-1):
        q=cs.get(k,P()).show()
        r=f'({q})' if r is None else f'(({q}) + {v} * {r})'
    return r
A=1+w/16384*(4096+w*(-768+w*(320-175*w)))
B=w/1024*(256+w*(-128+w*(74-47*w)))
Q=A*(1-B*c-B*B/4*(2*c*c-1)-B**3/8*(4*c**3-3*c))
cs=(Q*Q-(1+w*(1-c)/2)).coeffs('w'); assert min(cs)==4
KL=up(sum(cs[k].l1({'c':1})*Fr(1,4)**(k-5) for k in cs if k>=5))
C=f/16*p*(4+f*(4-3*p)); V=f*(1-C)*(1+C*c+C*C*(2*c*c-1)); y=p*(1-c)/2
ct=(V*V*(1-y)-2*V+f*(2-f)).coeffs('f'); assert min(ct)==4
KT=up(sum(ct[k].l1({'c':1,'p':1})*Fr(1,10)**(k-5) for k in ct if k>=5))
def sub(Pl,var,val):
    r=P()
    for e,q in Pl.coeffs(var).items(): r=r+q*val**e
    return r
G=sub(ct[4],'c',2*m-1)
k=P.v('k'); z=P.v('z')
kk=p/4+f*p*(4-3*p)/16; KB=Fr(11,40)
Vk=1+f*k*(c-1)+f*f*k*k*((2*c*c-1)-c)-f**3*k**3*(2*c*c-1)
assert (Vk-(1-f*k)*(1+f*k*c+f*f*k*k*(2*c*c-1))).d=={}
Ek=(f*Vk*Vk*z-2*Vk+2-f).coeffs('f')
# written with z = 1-y
x123=' + '.join(f'f ^ {e} * ({Ek[e].show()})' for e in (1,2,3))
r1=horner(Ek,4,'f'); K1=up(sum(Ek[e].l1({'c':1,'k':KB,'z':1})*Fr(1,10)**(e-4) for e in Ek if e>=4))
assert 0 not in Ek or Ek[0].d=={}
X=f*sum((Ek[e]*f**e for e in (1,2,3)),P())
X=sub(sub(X,'z',1-p*(1-c)/2),'k',kk).coeffs('f'); assert min(X)==4 and (X[4]-ct[4]).d=={}, (min(X),(X[4]-ct[4]).show())
r2=horner(X,5,'f'); K2=up(sum(X[e].l1({'c':1,'p':1})*Fr(1,10)**(e-5) for e in X if e>=5))
KT=K1+K2; print('K1 K2',float(K1),float(K2))
def bern(Pl,n):
    a={}
    for mon,v in Pl.d.items():
        d=dict(mon); a[(d.get('p',0),d.get('m',0))]=v
    out={}
    for i in range(n+1):
        for j in range(n+1):
            s=Fr(0)
            for (x,z),v in a.items():
                if x<=i and z<=j: s+=v*Fr(comb(i,x),comb(n,x))*Fr(comb(j,z),comb(n,z))
            out[i,j]=s*comb(n,i)*comb(n,j)
    return out
def btxt(b): 
    assert all(v>=0 for v in b.values())
    return ' + '.join(f'p ^ {i} * q ^ {4-i} * ('+' + '.join(f'{sh(b[i,j])} * (m ^ {j} * r ^ {4-j})' for j in range(5) if b[i,j])+')' for i in range(5))
lo=btxt(bern(G+Fr(1,4),4)); hi=btxt(bern(Fr(1,4)-G,4))
o=open('/verif/lean/Verif/Lemmas/VincentySeries.lean','w')
o.write(f'''import Verif.Lemmas.Bd
import Mathlib.Tactic.LinearCombination
import Mathlib.Tactic.Positivity
/-!
Generated by tools/series/vincenty_true.py: Vincenty's length and longitude series against the exact integrands.
-/
set_option linter.unusedVariables false
namespace VincentySeries

theorem len4 {{c : ℝ}} (hc : |c| ≤ 1) : |{cs[4].show()}| ≤ (11/10000) := by
  have h1 : c ^ 2 ≤ 1 := by rw [← sq_abs]; nlinarith [abs_nonneg c]
  have h0 := sq_nonneg c
  have e : c ^ 4 = (c ^ 2) ^ 2 := by ring
  rw [e]
  generalize c ^ 2 = t at *
  rw [abs_le]; constructor
  · nlinarith [sq_nonneg (t - 2 / 5)]
  · nlinarith

set_option maxRecDepth 20000 in
set_option maxHeartbeats 4000000 in
/-- the derivative of Vincenty's length series, squared, against the square of the exact one; `w = u²`, `c = cos 2x` -/
theorem len_sq {{w c A B : ℝ}} (hw : |w| ≤ (1/4)) (hc : |c| ≤ 1) (hA : A = {A.show()}) (hB : B = {B.show()}) :
    |(A * (1 - B * c - B ^ 2 / 4 * (2 * c ^ 2 - 1) - B ^ 3 / 8 * (4 * c ^ 3 - 3 * c))) ^ 2 - (1 + w * (1 - c) / 2)|
      ≤ ((11/10000) + {sh(KL)} * |w|) * |w| ^ 4 := by
  obtain ⟨R, hR⟩ : ∃ R : ℝ, R = {horner(cs,5,'w')} := ⟨_, rfl⟩
  have hb : |R| ≤ {sh(KL)} := by rw [hR]; bdnum
  have e2 : (A * (1 - B * c - B ^ 2 / 4 * (2 * c ^ 2 - 1) - B ^ 3 / 8 * (4 * c ^ 3 - 3 * c))) ^ 2 - (1 + w * (1 - c) / 2) =
      (({cs[4].show()}) + R * w) * w ^ 4 := by
    rw [hR]; subst hA hB; ring
  rw [e2, abs_mul, abs_pow]
  refine mul_le_mul_of_nonneg_right ?_ (by positivity)
  exact Bd.add (len4 hc) (Bd.mul hb le_rfl)

set_option maxHeartbeats 2000000 in
theorem turn4 {{p c : ℝ}} (h0 : 0 ≤ p) (h1 : p ≤ 1) (hc : |c| ≤ 1) : |{ct[4].show()}| ≤ (1/4) := by
  obtain ⟨m, hm⟩ : ∃ m, m = (1 + c) / 2 := ⟨_, rfl⟩
  obtain ⟨q, hq⟩ : ∃ q, q = 1 - p := ⟨_, rfl⟩
  obtain ⟨r, hr⟩ : ∃ r, r = 1 - m := ⟨_, rfl⟩
  rw [abs_le] at hc
  have m0 : 0 ≤ m := by rw [hm]; linarith
  have r0 : 0 ≤ r := by rw [hr, hm]; linarith
  have q0 : 0 ≤ q := by rw [hq]; linarith
  have ec : c = 2 * m - 1 := by rw [hm]; ring
  have e1 : ({ct[4].show()}) + 1 / 4 = {lo} := by
    rw [ec, hr, hq]; ring
  have e2 : 1 / 4 - ({ct[4].show()}) = {hi} := by
    rw [ec, hr, hq]; ring
  have p1 : 0 ≤ ({ct[4].show()}) + 1 / 4 := by rw [e1]; positivity
  have p2 : 0 ≤ 1 / 4 - ({ct[4].show()}) := by rw [e2]; positivity
  rw [abs_le]; constructor <;> linarith

set_option maxHeartbeats 2000000 in
/-- the derivative `V` of Vincenty's longitude series in the quadratic equation of the exact one; `p = cos²α`, `c = cos 2x` -/
theorem turn_eq {{f p c C V : ℝ}} (hf : |f| ≤ (1/10)) (h0 : 0 ≤ p) (h1 : p ≤ 1) (hc : |c| ≤ 1) (hC : C = f / 16 * p * (4 + f * (4 - 3 * p)))
    (hV : V = f * (1 - C) * (1 + C * c + C ^ 2 * (2 * c ^ 2 - 1))) :
    |V ^ 2 * (1 - p * (1 - c) / 2) - 2 * V + f * (2 - f)| ≤ ((1/4) + {sh(KT)} * |f|) * |f| ^ 4 := by
  have hp : |p| ≤ 1 := by rw [abs_of_nonneg h0]; exact h1
  obtain ⟨k, hk⟩ : ∃ k, k = {kk.show()} := ⟨_, rfl⟩
  have hkb : |k| ≤ {sh(KB)} := by
    have : k = p * (1/4 + f * ((4 - 3 * p) / 16)) := by rw [hk]; ring
    have h2 : |(4 - 3 * p) / 16| ≤ 1/4 := by rw [abs_le]; constructor <;> linarith
    rw [this]
    refine (Bd.mul hp (Bd.add (Bd.num (by norm_num)) (Bd.mul hf h2))).trans ?_
    norm_num
  obtain ⟨y, hy⟩ : ∃ y, y = p * (1 - c) / 2 := ⟨_, rfl⟩
  have hyb : |1 - y| ≤ 1 := by
    rw [abs_le] at hc
    rw [hy, abs_le]; constructor <;> nlinarith
  obtain ⟨z, hz⟩ : ∃ z, z = 1 - y := ⟨_, rfl⟩
  rw [← hz] at hyb
  obtain ⟨R1, hR1⟩ : ∃ R : ℝ, R = {r1} := ⟨_, rfl⟩
  have hb1 : |R1| ≤ {sh(K1)} := by rw [hR1]; bdnum
  obtain ⟨R2, hR2⟩ : ∃ R : ℝ, R = {r2} := ⟨_, rfl⟩
  have hb2 : |R2| ≤ {sh(K2)} := by rw [hR2]; clear hR1 hb1; bdnum
  have e1 : V ^ 2 * z - 2 * V + f * (2 - f) = f * ({x123}) + R1 * f ^ 5 := by
    rw [hR1, hV, show C = f * k by rw [hC, hk]; ring]; ring
  have e3 : f * ({x123}) = (({ct[4].show()}) + R2 * f) * f ^ 4 := by
    rw [hR2, hz, hy, hk]; ring
  have e2 : V ^ 2 * (1 - p * (1 - c) / 2) - 2 * V + f * (2 - f) = (({ct[4].show()}) + (R2 + R1) * f) * f ^ 4 := by
    rw [← hy, ← hz, e1, e3]; ring
  rw [e2, abs_mul, abs_pow]
  refine mul_le_mul_of_nonneg_right ?_ (by positivity)
  refine Bd.add (turn4 h0 h1 hc) (Bd.mul ((Bd.add hb2 hb1).trans ?_) le_rfl)
  norm_num

end VincentySeries
''')
print(float(KL),float(KT))
