import Verif.Lemmas.Bd
import Mathlib.Tactic.LinearCombination
/-!
Generated by tools/series/rect_rt.py: the polynomial part of the rectifying-latitude round trip.
-/
namespace RectRound

/-- the first four orders cancel -/
theorem orders {s1 c1 : ℝ} (h : s1 ^ 2 + c1 ^ 2 = 1) {s2 s3 s4 c2 c3 k0 k1 k2 k3 : ℝ}
    (hs2 : s2 = 2 * s1 * c1) (hs3 : s3 = 3 * s1 - 4 * s1 ^ 3) (hs4 : s4 = 4 * s1 * c1 * (1 - 2 * s1 ^ 2))
    (hc2 : c2 = 1 - 2 * s1 ^ 2) (hc3 : c3 = 4 * c1 ^ 3 - 3 * c1)
    (hk0 : k0 = -(3 / 2) * s1) (hk1 : k1 = 15 / 16 * s2) (hk2 : k2 = 9 / 16 * s1 - 35 / 48 * s3)
    (hk3 : k3 = -(15 / 32) * s2 + 315 / 512 * s4) :
    (1) * k0 + (3/2) * s1 = 0 ∧
    (3) * c1 * k0 + (1) * k1 + (21/16) * s2 = 0 ∧
    (3) * c1 * k1 + (21/4) * c2 * k0 + (-3) * k0^2 * s1 + (1) * k2 + (-27/32) * s1 + (151/96) * s3 = 0 ∧
    (-27/16) * c1 * k0 + (-2) * c1 * k0^3 + (3) * c1 * k2 + (21/4) * c2 * k1 + (151/16) * c3 * k0 + (-6) * k0 * k1 * s1 + (-21/2) * k0^2 * s2 + (1) * k3 + (-55/32) * s2 + (1097/512) * s4 = 0 := by
  subst hk0 hk1 hk2 hk3 hs2 hs3 hs4 hc2 hc3
  refine ⟨?_, ?_, ?_, ?_⟩
  · linear_combination (0) * h
  · linear_combination (0) * h
  · linear_combination ((45/8) * s1) * h
  · linear_combination ((-453/8) * c1 * s1) * h

set_option linter.unusedVariables false in
set_option maxHeartbeats 4000000 in
/-- what remains is of order four, with an explicit constant -/
theorem remainder {n k0 k1 k2 k3 s1 s2 s3 s4 c1 c2 c3 : ℝ}
    (hk0 : |k0| ≤ 3/2)
    (hk1 : |k1| ≤ 15/16)
    (hk2 : |k2| ≤ 31/24)
    (hk3 : |k3| ≤ 555/512)
    (hs1 : |s1| ≤ 1)
    (hs2 : |s2| ≤ 1)
    (hs3 : |s3| ≤ 1)
    (hs4 : |s4| ≤ 1)
    (hc1 : |c1| ≤ 1)
    (hc2 : |c2| ≤ 1)
    (hc3 : |c3| ≤ 1)
    (hn : |n| ≤ 9/50)
    (e0 : (1) * k0 + (3/2) * s1 = 0)
    (e1 : (3) * c1 * k0 + (1) * k1 + (21/16) * s2 = 0)
    (e2 : (3) * c1 * k1 + (21/4) * c2 * k0 + (-3) * k0^2 * s1 + (1) * k2 + (-27/32) * s1 + (151/96) * s3 = 0)
    (e3 : (-27/16) * c1 * k0 + (-2) * c1 * k0^3 + (3) * c1 * k2 + (21/4) * c2 * k1 + (151/16) * c3 * k0 + (-6) * k0 * k1 * s1 + (-21/2) * k0^2 * s2 + (1) * k3 + (-55/32) * s2 + (1097/512) * s4 = 0) :
    |(k0 + n * k1 + n ^ 2 * k2 + n ^ 3 * k3) +
      (3 / 2 - 27 / 32 * n ^ 2) * (s1 * (1 - 2 * n ^ 2 * (k0 + n * k1 + n ^ 2 * k2 + n ^ 3 * k3) ^ 2) +
        c1 * (2 * n * (k0 + n * k1 + n ^ 2 * k2 + n ^ 3 * k3) - 4 / 3 * n ^ 3 * (k0 + n * k1 + n ^ 2 * k2 + n ^ 3 * k3) ^ 3)) +
      n * (21 / 16 - 55 / 32 * n ^ 2) * (s2 * (1 - 8 * n ^ 2 * (k0 + n * k1 + n ^ 2 * k2 + n ^ 3 * k3) ^ 2) +
        4 * c2 * n * (k0 + n * k1 + n ^ 2 * k2 + n ^ 3 * k3)) +
      n ^ 2 * (151 / 96) * (s3 + 6 * c3 * n * (k0 + n * k1 + n ^ 2 * k2 + n ^ 3 * k3)) + n ^ 3 * (1097 / 512) * s4| ≤ 127 * n ^ 4 := by
  obtain ⟨R, hR⟩ : ∃ R : ℝ, R = ((-6) * c1 * k0^2 * k1 + (-27/16) * c1 * k1 + (3) * c1 * k3 + (-55/8) * c2 * k0 + (21/4) * c2 * k2 + (151/16) * c3 * k1 + (-21) * k0 * k1 * s2 + (-6) * k0 * k2 * s1 + (27/16) * k0^2 * s1 + (-3) * k1^2 * s1) +
      n ^ 1 * ((-6) * c1 * k0 * k1^2 + (-6) * c1 * k0^2 * k2 + (9/8) * c1 * k0^3 + (-27/16) * c1 * k2 + (-55/8) * c2 * k1 + (21/4) * c2 * k3 + (151/16) * c3 * k2 + (27/8) * k0 * k1 * s1 + (-21) * k0 * k2 * s2 + (-6) * k0 * k3 * s1 + (55/4) * k0^2 * s2 + (-6) * k1 * k2 * s1 + (-21/2) * k1^2 * s2) +
      n ^ 2 * ((-12) * c1 * k0 * k1 * k2 + (27/8) * c1 * k0^2 * k1 + (-6) * c1 * k0^2 * k3 + (-2) * c1 * k1^3 + (-27/16) * c1 * k3 + (-55/8) * c2 * k2 + (151/16) * c3 * k3 + (55/2) * k0 * k1 * s2 + (27/8) * k0 * k2 * s1 + (-21) * k0 * k3 * s2 + (-21) * k1 * k2 * s2 + (-6) * k1 * k3 * s1 + (27/16) * k1^2 * s1 + (-3) * k2^2 * s1) +
      n ^ 3 * ((-12) * c1 * k0 * k1 * k3 + (27/8) * c1 * k0 * k1^2 + (-6) * c1 * k0 * k2^2 + (27/8) * c1 * k0^2 * k2 + (-6) * c1 * k1^2 * k2 + (-55/8) * c2 * k3 + (55/2) * k0 * k2 * s2 + (27/8) * k0 * k3 * s1 + (27/8) * k1 * k2 * s1 + (-21) * k1 * k3 * s2 + (55/4) * k1^2 * s2 + (-6) * k2 * k3 * s1 + (-21/2) * k2^2 * s2) +
      n ^ 4 * ((27/4) * c1 * k0 * k1 * k2 + (-12) * c1 * k0 * k2 * k3 + (27/8) * c1 * k0^2 * k3 + (-6) * c1 * k1 * k2^2 + (-6) * c1 * k1^2 * k3 + (9/8) * c1 * k1^3 + (55/2) * k0 * k3 * s2 + (55/2) * k1 * k2 * s2 + (27/8) * k1 * k3 * s1 + (-21) * k2 * k3 * s2 + (27/16) * k2^2 * s1 + (-3) * k3^2 * s1) +
      n ^ 5 * ((27/4) * c1 * k0 * k1 * k3 + (27/8) * c1 * k0 * k2^2 + (-6) * c1 * k0 * k3^2 + (-12) * c1 * k1 * k2 * k3 + (27/8) * c1 * k1^2 * k2 + (-2) * c1 * k2^3 + (55/2) * k1 * k3 * s2 + (27/8) * k2 * k3 * s1 + (55/4) * k2^2 * s2 + (-21/2) * k3^2 * s2) +
      n ^ 6 * ((27/4) * c1 * k0 * k2 * k3 + (27/8) * c1 * k1 * k2^2 + (-6) * c1 * k1 * k3^2 + (27/8) * c1 * k1^2 * k3 + (-6) * c1 * k2^2 * k3 + (55/2) * k2 * k3 * s2 + (27/16) * k3^2 * s1) +
      n ^ 7 * ((27/8) * c1 * k0 * k3^2 + (27/4) * c1 * k1 * k2 * k3 + (-6) * c1 * k2 * k3^2 + (9/8) * c1 * k2^3 + (55/4) * k3^2 * s2) +
      n ^ 8 * ((27/8) * c1 * k1 * k3^2 + (27/8) * c1 * k2^2 * k3 + (-2) * c1 * k3^3) +
      n ^ 9 * ((27/8) * c1 * k2 * k3^2) +
      n ^ 10 * ((9/8) * c1 * k3^3) := ⟨_, rfl⟩
  have hb : |R| ≤ 127 := by
    rw [hR]; bdnum
  have key : ∀ T : ℝ, T = n ^ 4 * R → |T| ≤ 127 * n ^ 4 := by
    intro T hT
    rw [hT, abs_mul, abs_of_nonneg (by positivity), mul_comm]
    exact mul_le_mul_of_nonneg_right hb (by positivity)
  apply key
  rw [hR]
  linear_combination e0 + n * e1 + n ^ 2 * e2 + n ^ 3 * e3

end RectRound
