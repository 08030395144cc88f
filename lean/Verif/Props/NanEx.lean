import Verif.Props.Nan2
import Verif.Py.RealPi
/-!
Concrete instances of the **C84** theorems: missing data among ordinary arguments, over the real numbers.
-/
noncomputable section
namespace Pymap3d
open Py PyNan Nan

/-- a missing longitude leaves the `z` coordinate of a position alone and spoils `x` and `y` -/
example : (geodetic2ecef (num (45 : ℝ)) nan (num 100) none true).1 = nan ∧
    (geodetic2ecef (num (45 : ℝ)) nan (num 100) none true).2.2 = num (geodetic2ecef (45 : ℝ) 0 100 none true).2.2 :=
  ⟨(eq_nan _).mp (nan_geodetic2ecef (num (45 : ℝ)) nan (num 100) none true).1, (num_geodetic2ecef (45 : ℝ) 0 100 none true).2.2 nan⟩

/-- a missing `z` away from the axis: all but the longitude is lost -/
example : (ecef2geodetic .npArray (num (6378137 : ℝ)) (num 0) nan none true).1 = nan := by
  refine (eq_nan _).mp ((nan_ecef2geodetic .npArray (num (6378137 : ℝ)) (num 0) nan none true).2.2 rfl ?_).1
  apply decide_eq_false
  show ¬ (|Real.sqrt ((6378137 : ℝ) ^ 2 + 0 ^ 2)| ≤ (1e-8 : ℝ))
  rw [show (6378137 : ℝ) ^ 2 + 0 ^ 2 = 6378137 ^ 2 by norm_num, Real.sqrt_sq (by norm_num), abs_of_pos (by norm_num)]
  norm_num

/-- a missing `z` on the axis is reported as the south pole -/
example : (ecef2geodetic .npArray (num (0 : ℝ)) (num 0) nan none true).1 = num (ecef2geodetic .npArray (0 : ℝ) 0 (-6356752) none true).1 := by
  refine (nan_ecef2geodetic_axis .npArray (0 : ℝ) 0 (-6356752) ?_ ?_ ?_ none true).1
  · apply decide_eq_true
    show |Real.sqrt ((0 : ℝ) ^ 2 + 0 ^ 2)| ≤ (1e-8 : ℝ)
    norm_num
  · apply decide_eq_false
    show ¬ (|(-6356752 : ℝ)| ≤ (1e-8 : ℝ))
    norm_num [abs_of_neg]
  · norm_num

/-- missing longitude of one end -/
example : vdist (num (10 : ℝ)) (num 20) (num 30) nan none true = some (.ok (nan, nan)) := by
  refine nan_vdist none true (num (10 : ℝ)) (num 20) (num 30) nan rfl ?_ ?_
  · show ¬ (Real.pi / 2.0 < |10 * (Real.pi / 180)|)
    have := Real.pi_pos
    rw [abs_of_pos (by positivity)]
    norm_num
    nlinarith
  · show ¬ (Real.pi / 2.0 < |30 * (Real.pi / 180)|)
    have := Real.pi_pos
    rw [abs_of_pos (by positivity)]
    norm_num
    nlinarith

/-- missing range -/
example : vreckon (num (10 : ℝ)) (num 20) nan (num 30) none true = some (.ok none) := by
  refine nan_vreckon none true (num (10 : ℝ)) (num 20) nan (num 30) rfl ?_ (not_lt_of_nan rfl)
  show ¬ (Real.pi / 2.0 < |10 * (Real.pi / 180)|)
  have := Real.pi_pos
  rw [abs_of_pos (by positivity)]
  norm_num
  nlinarith

end Pymap3d
