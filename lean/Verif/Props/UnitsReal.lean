import Verif.Props.Units
import Verif.Props.Nvector
import Verif.Props.Lox
/-!
C57 / C58 for the functions whose degree mode is not literally the radian mode applied to converted arguments
(they agree over the real numbers, not bit for bit).
-/
set_option linter.unusedSectionVars false
noncomputable section
namespace Pymap3d
open Py
open Spec hiding norm dist

/-- **C57.** -/
theorem lookAtSpheroid_units (bk : Backend) (lat0 lon0 h0 az tilt : ℝ) (ell : Option (Ellipsoid ℝ)) :
    lookAtSpheroid bk lat0 lon0 h0 az tilt ell true =
      Except.map (Option.map degAngles) (lookAtSpheroid bk (radians lat0) (radians lon0) h0 (radians az) (radians tilt) ell false) := by
  have h : aer2enu az (tilt - 90.0) 1.0 true = aer2enu (radians az) (radians tilt - pi / 2.0) (1.0 : ℝ) false := by
    have : (radians (tilt - 90.0) : ℝ) = radians tilt - pi / 2.0 := by simp only [py_radians, py_pi, lit_90, lit_2]; ring
    show aer2enu (radians az) (radians (tilt - 90.0)) (1.0 : ℝ) false = _
    rw [this]
  have h2 : ∀ e n u : ℝ, enu2uvw e n u lat0 lon0 true = enu2uvw e n u (radians lat0) (radians lon0) false := fun _ _ _ => rfl
  have h3 : geodetic2ecef lat0 lon0 h0 none true = geodetic2ecef (radians lat0) (radians lon0) h0 none false := rfl
  simp only [lookAtSpheroid, if_true, Bool.false_eq_true, if_false, h, h2, h3]
  split_ifs <;> rfl

/-- **C57.** the unit flag of the n-vector / ECEF conversions has no effect at all -/
theorem nvector_units (bk : Backend) (x y z alt : ℝ) (ell : Option (Ellipsoid ℝ)) :
    ecef2nvector bk x y z ell true = ecef2nvector bk x y z ell false ∧
    nvector2ecef x y z alt ell true = nvector2ecef x y z alt ell false := by
  constructor
  · have h : ∀ a b : ℝ, geodetic2nvector (degrees a) (degrees b) true = geodetic2nvector a b false := by
      intro a b
      have := py_inAngle_out a true
      have := py_inAngle_out b true
      simp only [geodetic2nvector, inAngle, outAngle, if_true, Bool.false_eq_true, if_false] at *
      simp only [*]
    exact h _ _
  · have h : ∀ a b : ℝ, geodetic2ecef (degrees a) (degrees b) alt ell true = geodetic2ecef a b alt ell false := by
      intro a b
      have := py_inAngle_out a true
      have := py_inAngle_out b true
      simp only [geodetic2ecef, inAngle, outAngle, if_true, Bool.false_eq_true, if_false] at *
      simp only [*]
    exact h _ _

/-- **C57.** `loxodrome_inverse`: the radian azimuth is in (-pi, pi], the degree azimuth is its value modulo 360 -/
theorem loxodrome_inverse_units (lat1 lon1 lat2 lon2 : ℝ) (ell : Option (Ellipsoid ℝ)) :
    loxodrome_inverse lat1 lon1 lat2 lon2 ell true =
      (loxodrome_inverse (radians lat1) (radians lon1) (radians lat2) (radians lon2) ell false).map
        (fun p => (p.1, pymod (degrees p.2) 360.0)) := by
  simp only [loxodrome_inverse, inAngle, if_true, Bool.false_eq_true, if_false]
  split <;> simp_all

/-- **C58.** -/
theorem default_ellipsoid_rest (bk : Backend) (lat0 lon0 h0 az tilt x y z : ℝ) (deg : Bool) :
    lookAtSpheroid bk lat0 lon0 h0 az tilt none deg = lookAtSpheroid bk lat0 lon0 h0 az tilt (some wgs84) deg ∧
    ecef2nvector bk x y z none deg = ecef2nvector bk x y z (some wgs84) deg ∧
    nvector2ecef x y z h0 none deg = nvector2ecef x y z h0 (some wgs84) deg ∧
    loxodrome_inverse lat0 lon0 x y none deg = loxodrome_inverse lat0 lon0 x y (some wgs84) deg ∧
    rectifying none = rectifying (some (wgs84 : Ellipsoid ℝ)) ∧ authalic none = authalic (some (wgs84 : Ellipsoid ℝ)) ∧
    eqavol none = eqavol (some (wgs84 : Ellipsoid ℝ)) :=
  ⟨rfl, rfl, rfl, rfl, rfl, rfl, rfl⟩

end Pymap3d
end
