"""generates lean/Verif/Lemmas/AuthTrue.lean"""
from poly import *
E=P.v('E');g=P.v('g')
X=-2*(P.c(Fr(1,3))+Fr(31,180)*E+Fr(59,560)*E**2)+4*(1-2*g)*(Fr(17,360)*E+Fr(61,1260)*E**2)-Fr(383,45360)*E**2*(6-32*g*(1-g))
A=1-g*(1-g)*E**2*X**2/2+(1-g)*E*X-g*(1-g)**2*E**3*X**3/6
f=lambda s:P.c(1)+Fr(2,3)*E*s+Fr(3,5)*E**2*s**2+Fr(4,7)*E**3*s**3+Fr(5,9)*E**4*s**4
D=A*f(P.c(1))-f(g)
co=D.coeffs('E')
for e in sorted(co): print(e,len(co[e].d),float(co[e].l1({'g':1})), co[e].show() if e<5 else '')
tot=float(sum(co[e].l1({'g':1})*Fr(1,2)**(e-5) for e in co if e>4)); print(tot)
C5=int(tot)+1
rem=' +\n      '.join((f'E ^ {e-5} * ' if e>5 else '')+f'({co[e].show()})' for e in sorted(co) if e>4)
open('/verif/lean/Verif/Lemmas/AuthTrue.lean','w').write(f'''import Verif.Lemmas.Bd
import Mathlib.Tactic.LinearCombination
/-!
Generated by tools/series/auth_true.py: the authalic series against the area of a zone.
-/
namespace AuthTrue

/-- `h = E * sin t * cos t * X` is the shift of the authalic series -/
noncomputable def X (E g : ℝ) : ℝ := -2 * (1 / 3 + 31 / 180 * E + 59 / 560 * E ^ 2) + 4 * (1 - 2 * g) * (17 / 360 * E + 61 / 1260 * E ^ 2) -
  383 / 45360 * E ^ 2 * (6 - 32 * g * (1 - g))

/-- Taylor polynomial of the sine of the authalic latitude, divided by `sin t` (`g = sin t ^ 2`) -/
noncomputable def A (E g : ℝ) : ℝ := 1 - g * (1 - g) * E ^ 2 * X E g ^ 2 / 2 + (1 - g) * E * X E g - g * (1 - g) ^ 2 * E ^ 3 * X E g ^ 3 / 6

/-- Taylor polynomial of the area of the zone, divided by `sin t` -/
noncomputable def f (E g : ℝ) : ℝ := 1 + 2 / 3 * E * g + 3 / 5 * E ^ 2 * g ^ 2 + 4 / 7 * E ^ 3 * g ^ 3 + 5 / 9 * E ^ 4 * g ^ 4

set_option maxHeartbeats 4000000 in
theorem defect {{E g : ℝ}} (h0 : 0 ≤ E) (h1 : E ≤ 1 / 2) (g0 : 0 ≤ g) (g1 : g ≤ 1) :
    |A E g * f E 1 - f E g| ≤ 1 / 2 * E ^ 4 + {C5} * E ^ 5 := by
  have bE : |E| ≤ 1 / 2 := by rwa [abs_of_nonneg h0]
  have bg : |g| ≤ 1 := by rwa [abs_of_nonneg g0]
  obtain ⟨R, hR⟩ : ∃ R : ℝ, R = {co[4].show()} := ⟨_, rfl⟩
  obtain ⟨S, hS⟩ : ∃ S : ℝ, S = {rem} := ⟨_, rfl⟩
  have hb : |R| ≤ 1 / 2 := by
    rw [hR]; bdnum
  have hc : |S| ≤ {C5} := by
    rw [hS]; bdnum
  have key : ∀ T : ℝ, T = R * E ^ 4 + S * E ^ 5 → |T| ≤ 1 / 2 * E ^ 4 + {C5} * E ^ 5 := by
    intro T hT
    rw [hT]
    exact Bd.add (Bd.mul hb (Bd.num (by positivity))) (Bd.mul hc (Bd.num (by positivity)))
  apply key
  rw [hR, hS]
  unfold A f X
  ring

end AuthTrue
''')
