import Verif.Props.FloatGeodetic4

set_option linter.unusedSectionVars false
/-!
**C78** numbers for WGS84 in binary64, and non-vacuity.
-/
namespace Pymap3d
open Py PyFloat
open Spec hiding norm dist

noncomputable section

variable {M : FloatArith}

theorem wgs84_stored (hM : M.u = (1 / 2) ^ 53) :
    let a := (resolveEllipsoid (none : Option (Ellipsoid (Fl M)))).semimajor_axis.val
    let b := (resolveEllipsoid (none : Option (Ellipsoid (Fl M)))).semiminor_axis.val
    6378136.9999 ≤ a ∧ a ≤ 6378137.0001 ∧ 6356752.3142 ≤ b ∧ b ≤ 6356752.3143 := by
  intro a b
  have hs := M.small
  have n1 : Near M.u 1 6378137 a := by
    obtain h := (sameAxes_none (M := M)).1
    have e : (resolveEllipsoid (none : Option (Ellipsoid ℝ))).semimajor_axis = 6378137 := by
      simp only [resolveEllipsoid, wgs84, Ellipsoid.ofArgs]; norm_num
    rw [e] at h; exact h
  have n2 : Near M.u 1 6356752.31424518 b := by
    obtain h := (sameAxes_none (M := M)).2
    have e : (resolveEllipsoid (none : Option (Ellipsoid ℝ))).semiminor_axis = 6356752.31424518 := by
      simp only [resolveEllipsoid, wgs84, Ellipsoid.ofArgs]
    rw [e] at h; exact h
  have g1 := g_le hs (show 1 ≤ 1000 by norm_num)
  have h1 := n1.abs_sub hs
  have h2 := n2.abs_sub hs
  have g0 : g M.u 1 - 1 ≤ 1e-12 := by
    refine g1.trans ?_
    rw [hM]; norm_num
  rw [abs_of_pos (show (0:ℝ) < 6378137 by norm_num)] at h1
  rw [abs_of_pos (show (0:ℝ) < 6356752.31424518 by norm_num)] at h2
  have k1 : (g M.u 1 - 1) * 6378137 ≤ 1e-12 * 6378137 := mul_le_mul_of_nonneg_right g0 (by norm_num)
  have k2 : (g M.u 1 - 1) * 6356752.31424518 ≤ 1e-12 * 6356752.31424518 := mul_le_mul_of_nonneg_right g0 (by norm_num)
  have h1' := abs_le.mp (h1.trans k1)
  have h2' := abs_le.mp (h2.trans k2)
  norm_num only at h1' h2'
  refine ⟨by linarith, by linarith, by linarith, by linarith⟩

theorem earthLike_none (hM : M.u = (1 / 2) ^ 53) : EarthLike (none : Option (Ellipsoid (Fl M))) := by
  obtain ⟨h1, h2, h3, h4⟩ := wgs84_stored hM
  exact ⟨by linarith, by linarith, by linarith⟩

theorem latErr_stored {a b h : ℝ} (ha : a ≤ 6378137.0001) (hb : 6356752.3142 ≤ b) (hab : b ≤ a) :
    (0 ≤ h → h ≤ 100000 → latErr a b h ≤ 3.33e-13) ∧ (|h| ≤ 12000 → latErr a b h ≤ 7e-16) := by
  have hb0 : 0 < b := by linarith
  have ha0 : 0 < a := by linarith
  have hq0 : 0 ≤ (a ^ 2 - b ^ 2) / b ^ 2 := div_nonneg (by nlinarith) (by positivity)
  have hq : (a ^ 2 - b ^ 2) / b ^ 2 ≤ 0.00674 := by
    rw [div_le_iff₀ (by positivity)]
    have h1 : a ^ 2 ≤ 6378137.0001 ^ 2 := pow_le_pow_left₀ ha0.le ha 2
    have h2 : (6356752.3142:ℝ) ^ 2 ≤ b ^ 2 := pow_le_pow_left₀ (by norm_num) hb 2
    norm_num only at h1 h2 ⊢
    linarith
  simp only [latErr]
  generalize (a ^ 2 - b ^ 2) / b ^ 2 = q at *
  constructor
  · intro h0 h1
    rw [if_pos h0]
    have f1 : h / (b + h) ≤ 0.01549 := by
      rw [div_le_iff₀ (by linarith)]; norm_num only; linarith
    have f0 : 0 ≤ h / (b + h) := by positivity
    generalize h / (b + h) = f at *
    calc (1 / 2 + q) * (q / 2 * f ^ 2) ^ 2 ≤ (1 / 2 + 0.00674) * (0.00674 / 2 * 0.01549 ^ 2) ^ 2 := by gcongr
      _ ≤ _ := by norm_num
  · intro h1
    have hh := abs_le.mp h1
    split_ifs with h0
    · have f1 : h / (b + h) ≤ 0.0019 := by
        rw [div_le_iff₀ (by linarith)]; norm_num only; linarith
      have f0 : 0 ≤ h / (b + h) := by positivity
      generalize h / (b + h) = f at *
      calc (1 / 2 + q) * (q / 2 * f ^ 2) ^ 2 ≤ (1 / 2 + 0.00674) * (0.00674 / 2 * 0.0019 ^ 2) ^ 2 := by gcongr
        _ ≤ _ := by norm_num
    · have f1 : (h / b) ^ 2 ≤ 0.0018878 ^ 2 := by
        rw [div_pow, div_le_iff₀ (by positivity)]
        have h2 : (6356752.3142:ℝ) ^ 2 ≤ b ^ 2 := pow_le_pow_left₀ (by norm_num) hb 2
        have h3 : h ^ 2 ≤ 12000 ^ 2 := by rw [← sq_abs]; exact pow_le_pow_left₀ (abs_nonneg h) h1 2
        norm_num only at h2 h3 ⊢
        linarith
      have f0 := sq_nonneg (h / b)
      generalize (h / b) ^ 2 = f at *
      calc (1 / 2 + q) * (3 / 2 * q * f) ^ 2 ≤ (1 / 2 + 0.00674) * (3 / 2 * 0.00674 * 0.0018878 ^ 2) ^ 2 := by gcongr
        _ ≤ _ := by norm_num

/-- **C78, numbers.** WGS84 (the default ellipsoid), binary64, degrees, up to latitude ±89.99999°: from 12 km below to 12 km above the surface
the round trip `geodetic2ecef` → `ecef2geodetic` reproduces the latitude within `5.8e-14` rad (0.4 µm on the ground), the altitude within 1.4 µm
and the longitude (modulo full turns) within `(423 / cos lat + 51) 2⁻⁵³` rad; up to 100 km the latitude within `4e-13` rad and the altitude
within 3.5 µm. -/
theorem geodetic_round_trip_float_wgs84 (hM : M.u = (1 / 2) ^ 53) (bk : Backend) (hbk : bk ≠ .npArray) (lat lon alt : ℝ)
    (hlat : |lat| ≤ 89.99999) (hlon : -180 < lon) (hlon' : lon ≤ 180) (halt : -12000 ≤ alt) (halt' : alt ≤ 100000) :
    let p := geodetic2ecef (Fl.of M lat) (Fl.of M lon) (Fl.of M alt)
    let q := ecef2geodetic bk p.1 p.2.1 p.2.2
    (|toRad true q.1.val - toRad true lat| ≤ 4e-13 ∧
    (∃ k : ℤ, |toRad true q.2.1.val - toRad true lon - 2 * Real.pi * k| ≤ (423 / Real.cos (toRad true lat) + 51) * (1 / 2) ^ 53) ∧
    |q.2.2.val - alt| ≤ 3.5e-6) ∧
    (alt ≤ 12000 → |toRad true q.1.val - toRad true lat| ≤ 5.8e-14 ∧ |q.2.2.val - alt| ≤ 1.4e-6) := by
  intro p q
  have hE := earthLike_none hM
  obtain ⟨a1, a2, b1, b2⟩ := wgs84_stored hM
  have hl := abs_le.mp hlat
  have hpi := Real.pi_pos
  have hft : fullTurn true = 360 := by simp [fullTurn]
  have hcos : 1e-7 ≤ Real.cos (toRad true lat) := by
    have h1 : |toRad true lat| ≤ Real.pi / 2 - 1e-7 * Real.pi / 2 := by
      simp only [toRad, if_true]
      rw [abs_mul, abs_of_pos (by positivity : 0 < Real.pi / 180)]
      have : |lat| * (Real.pi / 180) ≤ 89.99999 * (Real.pi / 180) := by gcongr
      linarith
    have h2 := Real.one_sub_mul_le_cos (x := |toRad true lat|) (abs_nonneg _) (by linarith)
    rw [Real.cos_abs] at h2
    have h3 : 2 / Real.pi * |toRad true lat| ≤ 2 / Real.pi * (Real.pi / 2 - 1e-7 * Real.pi / 2) := by
      gcongr
    have h4 : 2 / Real.pi * (Real.pi / 2 - 1e-7 * Real.pi / 2) = 1 - 1e-7 := by field_simp
    linarith
  have hrt := geodetic_round_trip_float (M := M) (by rw [hM]; norm_num) bk hbk none true hE lat lon alt
    (by rw [hft]; linarith) (by rw [hft]; linarith) (by rw [hft]; linarith) (by rw [hft]; linarith)
    (by rw [hM]; linarith) (by linarith)
  set a := (resolveEllipsoid (none : Option (Ellipsoid (Fl M)))).semimajor_axis.val
  set b := (resolveEllipsoid (none : Option (Ellipsoid (Fl M)))).semiminor_axis.val
  obtain ⟨r1, r2, r3⟩ := hrt
  obtain ⟨l1, l2⟩ := latErr_stored (h := alt) a2 b1 (by linarith)
  have hb0 : 0 < b := by linarith
  have hL0 : 0 ≤ latErr a b alt := latErr_nonneg alt hb0 (by linarith)
  have hab : a / b ≤ 1.004 := by rw [div_le_iff₀ hb0]; linarith
  have m1 : a / b * latErr a b alt ≤ 1.004 * latErr a b alt := mul_le_mul_of_nonneg_right hab hL0
  have m2 : a * latErr a b alt ≤ 6378137.0001 * latErr a b alt := mul_le_mul_of_nonneg_right a2 hL0
  have hL : latErr a b alt ≤ 3.33e-13 := by
    rcases le_or_gt 0 alt with h0 | h0
    · exact l1 h0 halt'
    · exact (l2 (abs_le.mpr ⟨by linarith, by linarith⟩)).trans (by norm_num)
  rw [hM] at r1 r2 r3
  have r1' : |toRad true q.1.val - toRad true lat| ≤ a / b * latErr a b alt + 513 * (1 / 2) ^ 53 := r1
  have r3' : |q.2.2.val - alt| ≤ a * latErr a b alt + 1840 * (1 / 2) ^ 53 * (a + |alt|) := r3
  clear r1 r3
  norm_num only at r1' r3' hL
  have ha1 : |alt| ≤ 100000 := abs_le.mpr ⟨by linarith, by linarith⟩
  refine ⟨⟨by norm_num only; linarith, r2, by norm_num only; linarith⟩, fun h12 => ?_⟩
  · have hL' := l2 (abs_le.mpr ⟨halt, h12⟩)
    have ha2 : |alt| ≤ 12000 := abs_le.mpr ⟨by linarith, by linarith⟩
    norm_num only at hL'
    exact ⟨by norm_num only; linarith, by norm_num only; linarith⟩

/- the hypotheses of the round-trip theorem are met: Boulder, 1600 m up, and a satellite-like altitude -/
example := geodetic_round_trip_float_wgs84 (M := binary64) rfl .pure (by decide) 40 (-105) 1600 (by norm_num [abs_of_pos]) (by norm_num)
  (by norm_num) (by norm_num) (by norm_num)
example := geodetic_round_trip_float_wgs84 (M := binary64) rfl .npScalar (by decide) (-89.9) 180 (-11000)
  (by rw [abs_of_neg (by norm_num)]; norm_num) (by norm_num) (by norm_num) (by norm_num) (by norm_num)

/- the hypotheses of `ecef2geodetic_float` are met at a point on the x axis, 1 km up, its coordinates exact -/
example := ecef2geodetic_float (M := binary64) (by show ((1:ℝ) / 2) ^ 53 ≤ _; norm_num) .pure (by decide) (Fl.of binary64 6379137) (Fl.of binary64 0)
  (Fl.of binary64 0) none true (earthLike_none rfl) 6379137 0 0 6379137 (by norm_num) (by norm_num)
  (by have := (wgs84_stored (M := binary64) rfl).2.1; linarith)
  (by show |(6379137:ℝ) - 6379137| ≤ 190 * (1 / 2) ^ 53 * 6379137; norm_num)
  (by show |(0:ℝ) - 0| ≤ 190 * (1 / 2) ^ 53 * 6379137; norm_num)
  (by show |(0:ℝ) - 0| ≤ 190 * (1 / 2) ^ 53 * 6379137; norm_num)
  (by norm_num)
  (by
    rw [show ((6379137:ℝ) ^ 2 + 0 ^ 2) = 6379137 ^ 2 by ring, Real.sqrt_sq (by norm_num)]
    show 500 * ((1:ℝ) / 2) ^ 53 * 6379137 ≤ 6379137
    norm_num)

end
end Pymap3d
