import Verif.Props.FloatGeodetic3
import Verif.Props.EcefAccuracy

set_option linter.unusedSectionVars false
/-!
**C78** the round trip `geodetic2ecef` → `ecef2geodetic` with rounded arithmetic.
-/
namespace Pymap3d
open Py PyFloat
open Spec hiding norm dist

noncomputable section

variable {M : FloatArith}

/-- geometry of a point given by its geodetic coordinates, on an Earth-like ellipsoid -/
theorem geo_point {a b c s h Δ N : ℝ} (hb : 0 < b) (hba : b ≤ a) (hab : a ≤ 1.01 * b) (hcs : c ^ 2 + s ^ 2 = 1) (hc : 0 ≤ c)
    (hΔ : Δ = Real.sqrt ((a * c) ^ 2 + (b * s) ^ 2)) (hN : N = a ^ 2 / Δ) (hh : -(a / 20) ≤ h) :
    let r := Real.sqrt (((N + h) * c) ^ 2 + ((N * (b / a) ^ 2 + h) * s) ^ 2)
    0.9 * a ≤ r ∧ r ≤ 1.01 * a + |h| ∧ r * c ≤ (N + h) * c ∧ 164 * (a ^ 2 / b + |h|) ≤ 190 * r ∧ 0 < N + h ∧
      1.94 * (|h| / a) ≤ |((N + h) * c) ^ 2 / a ^ 2 + ((N * (b / a) ^ 2 + h) * s) ^ 2 / b ^ 2 - 1| := by
  intro r
  have ha : 0 < a := by linarith
  have hbb : b ^ 2 ≤ a ^ 2 := pow_le_pow_left₀ hb.le hba 2
  have hs1 : 0 ≤ s ^ 2 := sq_nonneg s
  have hc1 : 0 ≤ c ^ 2 := sq_nonneg c
  have hQ1 : b ^ 2 ≤ (a * c) ^ 2 + (b * s) ^ 2 := by
    have : b ^ 2 = b ^ 2 * c ^ 2 + b ^ 2 * s ^ 2 := by rw [← mul_add, hcs, mul_one]
    rw [mul_pow, mul_pow]
    have := mul_le_mul_of_nonneg_right hbb hc1
    linarith
  have hQ2 : (a * c) ^ 2 + (b * s) ^ 2 ≤ a ^ 2 := by
    have : a ^ 2 = a ^ 2 * c ^ 2 + a ^ 2 * s ^ 2 := by rw [← mul_add, hcs, mul_one]
    rw [mul_pow, mul_pow]
    have := mul_le_mul_of_nonneg_right hbb hs1
    linarith
  have hΔ1 : b ≤ Δ := by rw [hΔ]; exact Real.le_sqrt_of_sq_le hQ1
  have hΔ2 : Δ ≤ a := by rw [hΔ]; exact Real.sqrt_le_iff.mpr ⟨ha.le, hQ2⟩
  have hΔs : Δ ^ 2 = a ^ 2 * c ^ 2 + b ^ 2 * s ^ 2 := by
    rw [hΔ, Real.sq_sqrt (by positivity)]; ring
  have hΔ0 : 0 < Δ := by linarith
  have hNa : a ≤ N := by rw [hN, le_div_iff₀ hΔ0]; nlinarith
  have hNb : N ≤ a ^ 2 / b := by rw [hN]; exact div_le_div_of_nonneg_left (by positivity) hb hΔ1
  have hab2 : a ^ 2 / b ≤ 1.01 * a := by rw [div_le_iff₀ hb]; nlinarith
  have hQ : N * (b / a) ^ 2 = b ^ 2 / Δ := by rw [hN]; field_simp
  have hb2 : 0.98 * a ≤ b ^ 2 / Δ := by
    rw [le_div_iff₀ hΔ0]
    have h1 : 0.98 * a * Δ ≤ 0.98 * a * a := by gcongr
    nlinarith
  have hb3 : b ^ 2 / Δ ≤ N := by rw [hN]; exact div_le_div_of_nonneg_right hbb hΔ0.le
  have hP : 0 < b ^ 2 / Δ + h := by linarith
  have hPN : b ^ 2 / Δ + h ≤ N + h := by linarith
  have hr1 : b ^ 2 / Δ + h ≤ r := by
    apply Real.le_sqrt_of_sq_le
    rw [hQ, mul_pow, mul_pow]
    have h1 : (b ^ 2 / Δ + h) ^ 2 ≤ (N + h) ^ 2 := pow_le_pow_left₀ hP.le hPN 2
    have h2 := mul_le_mul_of_nonneg_right h1 hc1
    have : (b ^ 2 / Δ + h) ^ 2 = (b ^ 2 / Δ + h) ^ 2 * c ^ 2 + (b ^ 2 / Δ + h) ^ 2 * s ^ 2 := by rw [← mul_add, hcs, mul_one]
    linarith
  have hr2 : r ≤ N + h := by
    apply Real.sqrt_le_iff.mpr ⟨by linarith, ?_⟩
    rw [hQ, mul_pow, mul_pow]
    have h1 : (b ^ 2 / Δ + h) ^ 2 ≤ (N + h) ^ 2 := pow_le_pow_left₀ hP.le hPN 2
    have h2 := mul_le_mul_of_nonneg_right h1 hs1
    have : (N + h) ^ 2 = (N + h) ^ 2 * c ^ 2 + (N + h) ^ 2 * s ^ 2 := by rw [← mul_add, hcs, mul_one]
    linarith
  have hha := le_abs_self h
  refine ⟨by linarith, by linarith, mul_le_mul_of_nonneg_right hr2 hc, ?_, by linarith, ?_⟩
  · rcases le_or_gt 0 h with h0 | h0
    · rw [abs_of_nonneg h0]; linarith
    · rw [abs_of_neg h0]; linarith
  · rw [hQ]
    have e1 : ((N + h) * c) ^ 2 / a ^ 2 + ((b ^ 2 / Δ + h) * s) ^ 2 / b ^ 2 - 1 = h * (2 / Δ + h * (c ^ 2 / a ^ 2 + s ^ 2 / b ^ 2)) := by
      have e2 : ((N + h) * c) ^ 2 / a ^ 2 + ((b ^ 2 / Δ + h) * s) ^ 2 / b ^ 2 =
          (a ^ 2 * c ^ 2 + b ^ 2 * s ^ 2) / Δ ^ 2 + 2 * h / Δ * (c ^ 2 + s ^ 2) + h ^ 2 * (c ^ 2 / a ^ 2 + s ^ 2 / b ^ 2) := by
        rw [hN]; field_simp; ring
      rw [e2, ← hΔs, hcs, div_self (by positivity)]
      ring
    rw [e1, abs_mul]
    have hK0 : 0 ≤ c ^ 2 / a ^ 2 + s ^ 2 / b ^ 2 := by positivity
    have hK : c ^ 2 / a ^ 2 + s ^ 2 / b ^ 2 ≤ 1.0201 / a ^ 2 := by
      have h1 : c ^ 2 / a ^ 2 ≤ c ^ 2 * (1.0201 / a ^ 2) := by
        rw [div_eq_mul_inv, div_eq_mul_inv]
        gcongr
        have : 0 < (a ^ 2)⁻¹ := by positivity
        linarith
      have h2 : s ^ 2 / b ^ 2 ≤ s ^ 2 * (1.0201 / a ^ 2) := by
        rw [div_eq_mul_one_div]
        apply mul_le_mul_of_nonneg_left _ hs1
        rw [div_le_div_iff₀ (by positivity) (by positivity)]
        have := pow_le_pow_left₀ ha.le hab 2
        rw [mul_pow] at this
        norm_num only at this ⊢
        linarith
      have : (1.0201 / a ^ 2 : ℝ) = c ^ 2 * (1.0201 / a ^ 2) + s ^ 2 * (1.0201 / a ^ 2) := by rw [← add_mul, hcs, one_mul]
      linarith
    have h2 : 2 / a ≤ 2 / Δ := div_le_div_of_nonneg_left (by norm_num) hΔ0 hΔ2
    have h3 : -(0.06 / a) ≤ h * (c ^ 2 / a ^ 2 + s ^ 2 / b ^ 2) := by
      have h4 : -(a / 20) * (1.0201 / a ^ 2) ≤ h * (c ^ 2 / a ^ 2 + s ^ 2 / b ^ 2) := by
        have h5 : -(a / 20) * (c ^ 2 / a ^ 2 + s ^ 2 / b ^ 2) ≤ h * (c ^ 2 / a ^ 2 + s ^ 2 / b ^ 2) := mul_le_mul_of_nonneg_right hh hK0
        have h6 : -(a / 20) * (1.0201 / a ^ 2) ≤ -(a / 20) * (c ^ 2 / a ^ 2 + s ^ 2 / b ^ 2) := mul_le_mul_of_nonpos_left hK (by linarith)
        linarith
      have e : -(a / 20) * (1.0201 / a ^ 2) = -(0.051005 / a) := by field_simp; norm_num
      rw [e] at h4
      have : 0.051005 / a ≤ 0.06 / a := by gcongr; norm_num
      linarith
    have h7 : 1.94 / a ≤ 2 / Δ + h * (c ^ 2 / a ^ 2 + s ^ 2 / b ^ 2) := by
      have : (1.94 / a : ℝ) = 2 / a - 0.06 / a := by rw [← sub_div]; norm_num
      linarith
    have h8 := h7.trans (le_abs_self _)
    calc 1.94 * (|h| / a) = |h| * (1.94 / a) := by ring
      _ ≤ _ := mul_le_mul_of_nonneg_left h8 (abs_nonneg h)

set_option maxHeartbeats 1600000 in
/-- **C78.** The round trip in floating point, on every Earth-like ellipsoid (the two stored axes within 1 %), scalar backends, at every
latitude not within `500` roundings of a pole and every altitude down to a twentieth of the radius below the surface: `geodetic2ecef` followed
by `ecef2geodetic` returns the latitude, the longitude (modulo full turns) and the altitude within the error of the closed formula itself
(`latErr`, C06) plus `513 u` radians, `(423 / cos lat + 51) u` radians and `1840 u (a + |alt|)`. -/
theorem geodetic_round_trip_float (hM : M.u ≤ 1 / 10 ^ 10) (bk : Backend) (hbk : bk ≠ .npArray) (ell : Option (Ellipsoid (Fl M))) (deg : Bool)
    (hell : EarthLike ell) (lat lon alt : ℝ) (hlat : -(fullTurn deg / 4) < lat) (hlat' : lat < fullTurn deg / 4)
    (hlon : -(fullTurn deg / 2) < lon) (hlon' : lon ≤ fullTurn deg / 2) (hcos : 500 * M.u ≤ Real.cos (toRad deg lat))
    (halt : -((resolveEllipsoid ell).semimajor_axis.val / 20) ≤ alt) :
    let a := (resolveEllipsoid ell).semimajor_axis.val
    let b := (resolveEllipsoid ell).semiminor_axis.val
    let p := geodetic2ecef (Fl.of M lat) (Fl.of M lon) (Fl.of M alt) ell deg
    let q := ecef2geodetic bk p.1 p.2.1 p.2.2 ell deg
    |toRad deg q.1.val - toRad deg lat| ≤ a / b * latErr a b alt + 513 * M.u ∧
    (∃ k : ℤ, |toRad deg q.2.1.val - toRad deg lon - 2 * Real.pi * k| ≤ (423 / Real.cos (toRad deg lat) + 51) * M.u) ∧
    |q.2.2.val - alt| ≤ a * latErr a b alt + 1840 * M.u * (a + |alt|) := by
  intro a b p q
  have hu0 := M.u_nonneg
  have b0 : 0 < b := hell.b_pos
  have ba : b ≤ a := hell.b_le_a
  have fl : a ≤ 1.01 * b := hell.flat
  have a0 : 0 < a := by linarith
  have h1 := toRad_gt_neg_half hlat
  have h2 := toRad_lt_half hlat'
  have h3 := toRad_gt_neg_pi hlon
  have h4 := toRad_le_pi hlon'
  have hpi := Real.pi_pos
  have hc0 : 0 < Real.cos (toRad deg lat) := Real.cos_pos_of_mem_Ioo ⟨h1, h2⟩
  have hreg : RegularO (storedEllipsoid M ell) := ofArgs_regular b0 ba _ _
  have hfl2 : a ^ 2 ≤ 2 * b ^ 2 := by
    have := pow_le_pow_left₀ a0.le fl 2
    rw [mul_pow] at this
    norm_num only at this
    nlinarith [sq_nonneg b]
  have hax : SameAxes M ell (storedEllipsoid M ell) := ⟨Near.refl M.u_nonneg M.small.lt 1 _, Near.refl M.u_nonneg M.small.lt 1 _⟩
  obtain ⟨ex, ey, ez⟩ := geodetic2ecef_float ell (storedEllipsoid M ell) hax hreg hfl2 lat lon alt deg
    (abs_le.mpr ⟨h1.le, h2.le⟩) (abs_le.mpr ⟨by linarith, by linarith⟩)
  have hacc := ecef2geodetic_geodetic2ecef_accuracy bk lat lon alt (storedEllipsoid M ell) deg hreg hfl2 hlat hlat' hlon hlon'
    (by
      have : b ^ 2 / (4 * a) ≥ a / 20 := by
        rw [ge_iff_le, le_div_iff₀ (by positivity)]
        nlinarith
      have e : -(b ^ 2 / (4 * a)) ≤ alt := by
        have halt' : -(a / 20) ≤ alt := halt
        linarith
      exact e) (fun h => absurd h hbk)
  obtain ⟨c1, -, c3, c4, -⟩ := hacc
  set P := geodetic2ecef lat lon alt (storedEllipsoid M ell) deg with hP
  have hP' : P = (_, _, _) := geodetic2ecef_real lat lon alt (storedEllipsoid M ell) deg
  set φ := toRad deg lat with hφ
  set Δ := Real.sqrt ((a * Real.cos φ) ^ 2 + (b * Real.sin φ) ^ 2) with hΔ
  set N := a ^ 2 / Δ with hN
  have hx : P.1 = (N + alt) * Real.cos φ * Real.cos (toRad deg lon) := by rw [hP']; rfl
  have hy : P.2.1 = (N + alt) * Real.cos φ * Real.sin (toRad deg lon) := by rw [hP']; rfl
  have hz : P.2.2 = (N * (b / a) ^ 2 + alt) * Real.sin φ := by rw [hP']; rfl
  have hxy : P.1 ^ 2 + P.2.1 ^ 2 = ((N + alt) * Real.cos φ) ^ 2 := by
    rw [hx, hy]
    have := Real.sin_sq_add_cos_sq (toRad deg lon)
    calc _ = ((N + alt) * Real.cos φ) ^ 2 * (Real.sin (toRad deg lon) ^ 2 + Real.cos (toRad deg lon) ^ 2) := by ring
      _ = _ := by rw [this, mul_one]
  obtain ⟨g1, g2, g3, g4, g5, g6⟩ := geo_point (c := Real.cos φ) (s := Real.sin φ) (h := alt) b0 ba fl (Real.cos_sq_add_sin_sq φ) hc0.le hΔ hN halt
  set r := Real.sqrt (((N + alt) * Real.cos φ) ^ 2 + ((N * (b / a) ^ 2 + alt) * Real.sin φ) ^ 2) with hr
  have hr0 : 0 < r := by linarith
  have hr2 : r ^ 2 = P.1 ^ 2 + P.2.1 ^ 2 + P.2.2 ^ 2 := by
    rw [hr, Real.sq_sqrt (by positivity), hxy, hz]
  have hρ : Real.sqrt (P.1 ^ 2 + P.2.1 ^ 2) = (N + alt) * Real.cos φ := by
    rw [hxy, Real.sqrt_sq (by positivity)]
  have hS : 164 * M.u * (a ^ 2 / b + |alt|) ≤ 190 * M.u * r := by
    have := mul_le_mul_of_nonneg_left g4 hu0
    linarith
  have hS' : 114 * M.u * (a ^ 2 / b + |alt|) ≤ 190 * M.u * r := by
    have : 0 ≤ M.u * (a ^ 2 / b + |alt|) := by positivity
    linarith
  obtain ⟨f1, ⟨k, f2⟩, f3, f4⟩ := ecef2geodetic_float hM bk hbk p.1 p.2.1 p.2.2 ell deg hell P.1 P.2.1 P.2.2 r hr0 hr2 g1
    (ex.trans hS) (ey.trans hS) (ez.trans hS')
    (by rw [hxy]; positivity)
    (by
      rw [hρ]
      have := mul_le_mul_of_nonneg_left hcos hr0.le
      linarith)
  set R := ecef2geodetic bk P.1 P.2.1 P.2.2 (storedEllipsoid M ell) deg with hR
  have c1' : |toRad deg R.1 - φ| ≤ a / b * latErr a b alt := c1
  have c4' : |R.2.2 - alt| ≤ a * latErr a b alt := c4
  have f1' : |toRad deg q.1.val - toRad deg R.1| ≤ 513 * M.u := f1
  have f3' : |(|q.2.2.val|) - (|R.2.2|)| ≤ 1108 * M.u * r := f3
  refine ⟨?_, ⟨k, ?_⟩, ?_⟩
  · have := abs_sub_le (toRad deg q.1.val) (toRad deg R.1) φ
    linarith
  · have e1 : R.2.1 = lon := c3
    rw [e1, hρ] at f2
    refine f2.trans ?_
    apply mul_le_mul_of_nonneg_right _ hu0
    have : r / ((N + alt) * Real.cos φ) ≤ 1 / Real.cos φ := by
      rw [div_le_div_iff₀ (by positivity) hc0]
      linarith
    have e2 : 423 / Real.cos φ = 423 * (1 / Real.cos φ) := by ring
    rw [e2]
    linarith
  · have hur : M.u * r ≤ M.u * (1.01 * a + |alt|) := mul_le_mul_of_nonneg_left g2 hu0
    have hua : 0 ≤ M.u * a := by positivity
    have hual : 0 ≤ M.u * |alt| := by positivity
    rcases f4 with f4 | f4
    · have f4' : |q.2.2.val - R.2.2| ≤ 1108 * M.u * r := f4
      have := abs_sub_le q.2.2.val R.2.2 alt
      linarith
    · have f4' : |((N + alt) * Real.cos φ) ^ 2 / a ^ 2 + ((N * (b / a) ^ 2 + alt) * Real.sin φ) ^ 2 / b ^ 2 - 1| ≤ 693 * M.u := by
        have e : level a b (P.1, P.2.1, P.2.2) = ((N + alt) * Real.cos φ) ^ 2 / a ^ 2 + ((N * (b / a) ^ 2 + alt) * Real.sin φ) ^ 2 / b ^ 2 := by
          simp only [level]
          rw [← add_div, hxy, hz]
        rw [← e]; exact f4
      have hh : |alt| ≤ 358 * (M.u * a) := by
        have h5 : |alt| / a ≤ 358 * M.u := by linarith
        rw [div_le_iff₀ a0] at h5
        linarith
      have t1 := abs_sub q.2.2.val alt
      have t2 := abs_sub_abs_le_abs_sub R.2.2 alt
      have t3 := le_abs_self (|q.2.2.val| - |R.2.2|)
      linarith

end
end Pymap3d
