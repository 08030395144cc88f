import Verif.Lemmas.Bd
import Mathlib.Tactic.LinearCombination
/-!
Generated by tools/series/rect_true.py: the derivative of the rectifying series against the meridian radius of curvature.
-/
namespace RectTrue

set_option linter.unusedVariables false in
set_option maxHeartbeats 4000000 in
theorem square_defect {n c1 c2 c3 c4 c5 c6 c7 c8 c9 c10 c11 : ℝ} (h0 : 0 ≤ n) (h1 : n ≤ 9 / 50)
    (b1 : |c1| ≤ 1) (b2 : |c2| ≤ 1) (b3 : |c3| ≤ 1) (b4 : |c4| ≤ 1) (b5 : |c5| ≤ 1) (b6 : |c6| ≤ 1) (b7 : |c7| ≤ 1) (b8 : |c8| ≤ 1) (b9 : |c9| ≤ 1) (b10 : |c10| ≤ 1) (b11 : |c11| ≤ 1)
    (h2 : c2 = 2 * c1 * c1 - 1) (h3 : c3 = 2 * c1 * c2 - c1) (h4 : c4 = 2 * c1 * c3 - c2) (h5 : c5 = 2 * c1 * c4 - c3) (h6 : c6 = 2 * c1 * c5 - c4) (h7 : c7 = 2 * c1 * c6 - c5) (h8 : c8 = 2 * c1 * c7 - c6) (h9 : c9 = 2 * c1 * c8 - c7) (h10 : c10 = 2 * c1 * c9 - c8) (h11 : c11 = 2 * c1 * c10 - c9) :
    |(1 - 2 * (3 / 2 * n - 9 / 16 * n ^ 3) * c1 + 4 * (15 / 16 * n ^ 2 - 15 / 32 * n ^ 4) * c2 - 6 * (35 / 48 * n ^ 3) * c3 +
      8 * (315 / 512 * n ^ 4) * c4) ^ 2 * (1 + 2 * n * c1 + n ^ 2) ^ 3 - (1 - 9 / 4 * n ^ 2 + 99 / 64 * n ^ 4) ^ 2| ≤ 23 * n ^ 5 := by
  have hn : |n| ≤ 9 / 50 := by rwa [abs_of_nonneg h0]
  obtain ⟨R, hR⟩ : ∃ R : ℝ, R = n^0 * ((3/8) * c1 + (-(315/64)) * c3 + (693/64) * c5) +
      n^1 * ((-(19/128)) + (-(1881/256)) * c2 + (945/64) * c4 + (1155/256) * c6) +
      n^2 * ((-(1335/512)) * c1 + (6597/512) * c3 + (-(8883/512)) * c5 + (-(495/512)) * c7) +
      n^3 * ((5175/8192) + (7815/512) * c2 + (-(7971/256)) * c4 + (-(5985/512)) * c6 + (3465/8192) * c8) +
      n^4 * ((19611/4096) * c1 + (-(3035/256)) * c3 + (117/256) * c5 + (23355/8192) * c7 + (-(1925/8192)) * c9) +
      n^5 * ((136305/8192) + (-(90669/4096)) * c2 + (4791/256) * c4 + (120555/8192) * c6 + (-(120015/8192)) * c8 + (121275/8192) * c10) +
      n^6 * ((160233/4096) * c1 + (-(87039/4096)) * c3 + (180585/8192) * c5 + (-(334095/8192)) * c7 + (288225/8192) * c9 + (99225/8192) * c11) +
      n^7 * ((442369/8192) + (-(67293/4096)) * c2 + (-(301445/8192)) * c6 + (137025/8192) * c8 + (297675/8192) * c10) +
      n^8 * ((164235/4096) * c1 + (-(1215/64)) * c3 + (-(555/64)) * c5 + (-(105525/8192)) * c7 + (297675/8192) * c9) +
      n^9 * ((113625/8192) + (-(4725/512)) * c2 + (225/128) * c4 + (-(4725/512)) * c6 + (99225/8192) * c8) := ⟨_, rfl⟩
  have hb : |R| ≤ 23 := by
    rw [hR]; bdnum
  have key : ∀ T : ℝ, T = n ^ 5 * R → |T| ≤ 23 * n ^ 5 := by
    intro T hT
    rw [hT, abs_mul, abs_of_nonneg (by positivity), mul_comm]
    exact mul_le_mul_of_nonneg_right hb (by positivity)
  apply key
  rw [hR]
  subst h11 h10 h9 h8 h7 h6 h5 h4 h3 h2
  ring

end RectTrue
