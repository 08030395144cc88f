import Verif.Lemmas.Bd
import Mathlib.Tactic.LinearCombination
/-!
Generated by tools/series/auth_rt.py: the polynomial part of the authalic-latitude round trip (`n` stands for `e^2`).
-/
namespace AuthRound

/-- the first three orders cancel -/
theorem orders {s1 c1 : ℝ} (h : s1 ^ 2 + c1 ^ 2 = 1) {s2 s3 c2 k0 k1 k2 : ℝ}
    (hs2 : s2 = 2 * s1 * c1) (hs3 : s3 = 3 * s1 - 4 * s1 ^ 3) (hc2 : c2 = 1 - 2 * s1 ^ 2)
    (hk0 : k0 = -(1 / 3) * s1) (hk1 : k1 = -(31 / 180) * s1 + 17 / 360 * s2)
    (hk2 : k2 = -(59 / 560) * s1 + 61 / 1260 * s2 - 383 / 45360 * s3) :
    (1) * k0 + (1/3) * s1 = 0 ∧
    (2/3) * c1 * k0 + (1) * k1 + (31/180) * s1 + (23/360) * s2 = 0 ∧
    (31/90) * c1 * k0 + (2/3) * c1 * k1 + (23/90) * c2 * k0 + (-2/3) * k0^2 * s1 + (1) * k2 + (517/5040) * s1 + (251/3780) * s2 + (761/45360) * s3 = 0 := by
  subst hk0 hk1 hk2 hs2 hs3 hc2
  refine ⟨?_, ?_, ?_⟩
  · linear_combination (0) * h
  · linear_combination (0) * h
  · linear_combination ((17/270) * s1) * h

set_option linter.unusedVariables false in
set_option maxHeartbeats 4000000 in
/-- what remains is of order three, with an explicit constant -/
theorem remainder {n k0 k1 k2 s1 s2 s3 c1 c2 : ℝ} (n0 : 0 ≤ n)
    (hk0 : |k0| ≤ 1/3)
    (hk1 : |k1| ≤ 79/360)
    (hk2 : |k2| ≤ 3679/22680)
    (hs1 : |s1| ≤ 1)
    (hs2 : |s2| ≤ 1)
    (hs3 : |s3| ≤ 1)
    (hc1 : |c1| ≤ 1)
    (hc2 : |c2| ≤ 1)
    (hn : |n| ≤ 1/2)
    (e0 : (1) * k0 + (1/3) * s1 = 0)
    (e1 : (2/3) * c1 * k0 + (1) * k1 + (31/180) * s1 + (23/360) * s2 = 0)
    (e2 : (31/90) * c1 * k0 + (2/3) * c1 * k1 + (23/90) * c2 * k0 + (-2/3) * k0^2 * s1 + (1) * k2 + (517/5040) * s1 + (251/3780) * s2 + (761/45360) * s3 = 0) :
    |(k0 + n * k1 + n ^ 2 * k2) + (1 / 3 + 31 / 180 * n + 517 / 5040 * n ^ 2) * (s1 * (1 - 2 * n ^ 2 * (k0 + n * k1 + n ^ 2 * k2) ^ 2) + c1 * (2 * n * (k0 + n * k1 + n ^ 2 * k2))) +
      n * (23 / 360 + 251 / 3780 * n) * (s2 + 4 * c2 * n * (k0 + n * k1 + n ^ 2 * k2)) + n ^ 2 * (761 / 45360) * s3| ≤ 1 * n ^ 3 := by
  obtain ⟨R, hR⟩ : ∃ R : ℝ, R = ((517/2520) * c1 * k0 + (31/90) * c1 * k1 + (2/3) * c1 * k2 + (251/945) * c2 * k0 + (23/90) * c2 * k1 + (-4/3) * k0 * k1 * s1 + (-31/90) * k0^2 * s1) +
      n ^ 1 * ((517/2520) * c1 * k1 + (31/90) * c1 * k2 + (251/945) * c2 * k1 + (23/90) * c2 * k2 + (-31/45) * k0 * k1 * s1 + (-4/3) * k0 * k2 * s1 + (-517/2520) * k0^2 * s1 + (-2/3) * k1^2 * s1) +
      n ^ 2 * ((517/2520) * c1 * k2 + (251/945) * c2 * k2 + (-517/1260) * k0 * k1 * s1 + (-31/45) * k0 * k2 * s1 + (-4/3) * k1 * k2 * s1 + (-31/90) * k1^2 * s1) +
      n ^ 3 * ((-517/1260) * k0 * k2 * s1 + (-31/45) * k1 * k2 * s1 + (-517/2520) * k1^2 * s1 + (-2/3) * k2^2 * s1) +
      n ^ 4 * ((-517/1260) * k1 * k2 * s1 + (-31/90) * k2^2 * s1) +
      n ^ 5 * ((-517/2520) * k2^2 * s1) := ⟨_, rfl⟩
  have hb : |R| ≤ 1 := by
    rw [hR]; bdnum
  have key : ∀ T : ℝ, T = n ^ 3 * R → |T| ≤ 1 * n ^ 3 := by
    intro T hT
    rw [hT, abs_mul, abs_of_nonneg (by positivity), mul_comm]
    exact mul_le_mul_of_nonneg_right hb (by positivity)
  apply key
  rw [hR]
  linear_combination e0 + n * e1 + n ^ 2 * e2

end AuthRound
