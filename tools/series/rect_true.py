"""generates lean/Verif/Lemmas/RectTrue.lean: p^2 w^3 - kappa^2 = n^5 * remainder, remainder expanded in cosines of multiples"""
from poly import *
n=P.v('n');t=P.v('t')
def cheb(m):
    T=[P.c(1),t]
    while len(T)<=m: T.append(2*t*T[-1]-T[-2])
    return T
TT=cheb(16)
def tocheb(p):
    """p poly in t -> dict k -> coeff"""
    out={}
    while p.d:
        cs=p.coeffs('t'); e=max(cs); lead=list(TT[e].coeffs('t')[e].d.values())[0]
        v=list(cs[e].d.values())[0]/lead; out[e]=v; p=p-v*TT[e]
    return out
if __name__=='__main__':
    c1,c2,c3,c4=TT[1:5]
    p=1-2*(Fr(3,2)*n-Fr(9,16)*n**3)*c1+4*(Fr(15,16)*n**2-Fr(15,32)*n**4)*c2-6*Fr(35,48)*n**3*c3+8*Fr(315,512)*n**4*c4
    w=1+2*n*t+n**2
    k=1-Fr(9,4)*n**2+Fr(99,64)*n**4
    D=p*p*w**3-k*k
    co=D.coeffs('n'); N=Fr(9,50); tot=0
    for e in sorted(co):
        d=tocheb(co[e]); l=sum(abs(v) for v in d.values()); print(e,float(l),d); tot+=l*N**(e-5)
    print(float(tot))

    w=open('/verif/lean/Verif/Lemmas/RectTrue.lean','w')
    q=lambda v:f'({v.numerator}/{v.denominator})' if v>0 else f'(-({-v.numerator}/{v.denominator}))'
    terms=[]
    for e in sorted(co):
        d=tocheb(co[e])
        terms.append(f'n^{e-5} * ('+' + '.join(q(v)+(f' * c{k}' if k else '') for k,v in sorted(d.items()))+')')
    R=' +\n      '.join(terms)
    M=11
    vs=' '.join(f'c{i}' for i in range(1,M+1))
    bs=' '.join(f'(b{i} : |c{i}| ≤ 1)' for i in range(1,M+1))
    hs='(h2 : c2 = 2 * c1 * c1 - 1) '+' '.join(f'(h{i} : c{i} = 2 * c1 * c{i-1} - c{i-2})' for i in range(3,M+1))
    w.write(f"""import Verif.Lemmas.Bd
import Mathlib.Tactic.LinearCombination
/-!
Generated by tools/series/rect_true.py: the derivative of the rectifying series against the meridian radius of curvature.
-/
namespace RectTrue

set_option linter.unusedVariables false in
set_option maxHeartbeats 4000000 in
theorem square_defect {{n {vs} : ℝ}} (h0 : 0 ≤ n) (h1 : n ≤ 9 / 50)
    {bs}
    {hs} :
    |(1 - 2 * (3 / 2 * n - 9 / 16 * n ^ 3) * c1 + 4 * (15 / 16 * n ^ 2 - 15 / 32 * n ^ 4) * c2 - 6 * (35 / 48 * n ^ 3) * c3 +
      8 * (315 / 512 * n ^ 4) * c4) ^ 2 * (1 + 2 * n * c1 + n ^ 2) ^ 3 - (1 - 9 / 4 * n ^ 2 + 99 / 64 * n ^ 4) ^ 2| ≤ 23 * n ^ 5 := by
  have hn : |n| ≤ 9 / 50 := by rwa [abs_of_nonneg h0]
  obtain ⟨R, hR⟩ : ∃ R : ℝ, R = {R} := ⟨_, rfl⟩
  have hb : |R| ≤ 23 := by
    rw [hR]; bdnum
  have key : ∀ T : ℝ, T = n ^ 5 * R → |T| ≤ 23 * n ^ 5 := by
    intro T hT
    rw [hT, abs_mul, abs_of_nonneg (by positivity), mul_comm]
    exact mul_le_mul_of_nonneg_right hb (by positivity)
  apply key
  rw [hR]
  subst {' '.join(f'h{i}' for i in range(11,1,-1))}
  ring

end RectTrue
""")
