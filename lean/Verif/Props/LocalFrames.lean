import Verif.Model.Enu
import Verif.Model.Ned
import Verif.Model.Nwu
import Verif.Model.Sez
import Verif.Model.Frames
import Verif.Lemmas.Ell
import Verif.Lemmas.Trig
import Verif.Lemmas.SpecLemmas
/-!
C07, C08, C09, C10: local tangent frames (ENU, NED, NWU, SEZ).
-/
set_option linter.unusedSectionVars false
set_option linter.unnecessarySeqFocus false
noncomputable section
namespace Pymap3d
open Py
open Spec hiding norm dist

/-! ## C07 -/

/-- **C07.** `uvw2enu` returns the components of the vector along the east, north and up directions. -/
theorem uvw2enu_components (u v w lat0 lon0 : ℝ) (deg : Bool) :
    uvw2enu u v w lat0 lon0 deg =
      (dot (east (toRad deg lon0)) (u, v, w), dot (north (toRad deg lat0) (toRad deg lon0)) (u, v, w),
        dot (direction (toRad deg lat0) (toRad deg lon0)) (u, v, w)) := by
  simp only [uvw2enu, dot, east, north, direction, inAngle_toRad, py_sin, py_cos]
  ext <;> simp only [] <;> ring

/-- **C07.** `enu2uvw` is the corresponding combination of the three unit vectors. -/
theorem enu2uvw_combination (e n u lat0 lon0 : ℝ) (deg : Bool) :
    enu2uvw e n u lat0 lon0 deg =
      add (smul e (east (toRad deg lon0))) (add (smul n (north (toRad deg lat0) (toRad deg lon0)))
        (smul u (direction (toRad deg lat0) (toRad deg lon0)))) := by
  simp only [enu2uvw, add, smul, east, north, direction, inAngle_toRad, py_sin, py_cos]
  ext <;> simp only [] <;> ring

/-- The three unit vectors are an orthonormal right-handed frame whose third vector has the given
latitude and longitude and whose first is horizontal. -/
theorem frame_orthonormal (φ lam : ℝ) :
    dot (east lam) (east lam) = 1 ∧ dot (north φ lam) (north φ lam) = 1 ∧
    dot (direction φ lam) (direction φ lam) = 1 ∧ dot (east lam) (north φ lam) = 0 ∧
    dot (east lam) (direction φ lam) = 0 ∧ dot (north φ lam) (direction φ lam) = 0 ∧
    cross (east lam) (north φ lam) = direction φ lam ∧ dot (east lam) (0, 0, 1) = 0 := by
  have h1 := Real.sin_sq_add_cos_sq φ
  have h2 := Real.sin_sq_add_cos_sq lam
  refine ⟨?_, ?_, ?_, ?_, ?_, ?_, ?_, ?_⟩ <;>
    simp only [dot, east, north, direction, cross, Prod.mk.injEq]
  · linear_combination h2
  · linear_combination Real.sin φ ^ 2 * h2 + h1
  · linear_combination Real.cos φ ^ 2 * h2 + h1
  · ring
  · ring
  · linear_combination (-Real.sin φ * Real.cos φ) * h2
  · refine ⟨by ring, by ring, ?_⟩
    linear_combination Real.sin φ * h2
  · ring

/-- **C07.** `uvw2enu (enu2uvw v) = v` -/
theorem uvw2enu_enu2uvw (e n u lat0 lon0 : ℝ) (deg : Bool) :
    let p := enu2uvw e n u lat0 lon0 deg
    uvw2enu p.1 p.2.1 p.2.2 lat0 lon0 deg = (e, n, u) := by
  have h1 := Real.sin_sq_add_cos_sq (toRad deg lat0)
  have h2 := Real.sin_sq_add_cos_sq (toRad deg lon0)
  simp only [enu2uvw, uvw2enu, inAngle_toRad, py_sin, py_cos, Prod.mk.injEq]
  set s := Real.sin (toRad deg lat0); set c := Real.cos (toRad deg lat0)
  set S := Real.sin (toRad deg lon0); set C := Real.cos (toRad deg lon0)
  refine ⟨?_, ?_, ?_⟩
  · linear_combination e * h2
  · linear_combination (-(s * (c * u - s * n))) * h2 + n * h1
  · linear_combination (c * (c * u - s * n)) * h2 + u * h1

/-- **C07.** `enu2uvw (uvw2enu v) = v` -/
theorem enu2uvw_uvw2enu (u v w lat0 lon0 : ℝ) (deg : Bool) :
    let p := uvw2enu u v w lat0 lon0 deg
    enu2uvw p.1 p.2.1 p.2.2 lat0 lon0 deg = (u, v, w) := by
  have h1 := Real.sin_sq_add_cos_sq (toRad deg lat0)
  have h2 := Real.sin_sq_add_cos_sq (toRad deg lon0)
  simp only [enu2uvw, uvw2enu, inAngle_toRad, py_sin, py_cos, Prod.mk.injEq]
  set s := Real.sin (toRad deg lat0); set c := Real.cos (toRad deg lat0)
  set S := Real.sin (toRad deg lon0); set C := Real.cos (toRad deg lon0)
  refine ⟨?_, ?_, ?_⟩
  · linear_combination u * h2 + C * (C * u + S * v) * h1
  · linear_combination v * h2 + S * (C * u + S * v) * h1
  · linear_combination w * h1

/-- **C07.** dot products (hence lengths and angles) are preserved -/
theorem uvw2enu_dot (p q : V3) (lat0 lon0 : ℝ) (deg : Bool) :
    dot (uvw2enu p.1 p.2.1 p.2.2 lat0 lon0 deg) (uvw2enu q.1 q.2.1 q.2.2 lat0 lon0 deg) = dot p q := by
  have h1 := Real.sin_sq_add_cos_sq (toRad deg lat0)
  have h2 := Real.sin_sq_add_cos_sq (toRad deg lon0)
  simp only [uvw2enu, inAngle_toRad, py_sin, py_cos, dot]
  set s := Real.sin (toRad deg lat0); set c := Real.cos (toRad deg lat0)
  set S := Real.sin (toRad deg lon0); set C := Real.cos (toRad deg lon0)
  linear_combination ((C * p.1 + S * p.2.1) * (C * q.1 + S * q.2.1) + p.2.2 * q.2.2) * h1
    + (p.1 * q.1 + p.2.1 * q.2.1) * h2

theorem enu2uvw_dot (p q : V3) (lat0 lon0 : ℝ) (deg : Bool) :
    dot (enu2uvw p.1 p.2.1 p.2.2 lat0 lon0 deg) (enu2uvw q.1 q.2.1 q.2.2 lat0 lon0 deg) = dot p q := by
  have h := uvw2enu_dot (enu2uvw p.1 p.2.1 p.2.2 lat0 lon0 deg) (enu2uvw q.1 q.2.1 q.2.2 lat0 lon0 deg) lat0 lon0 deg
  rw [uvw2enu_enu2uvw, uvw2enu_enu2uvw] at h
  exact h.symm

theorem enu2uvw_norm (p : V3) (lat0 lon0 : ℝ) (deg : Bool) :
    Spec.norm (enu2uvw p.1 p.2.1 p.2.2 lat0 lon0 deg) = Spec.norm p := by
  rw [Spec.norm, Spec.norm, enu2uvw_dot]
theorem uvw2enu_norm (p : V3) (lat0 lon0 : ℝ) (deg : Bool) :
    Spec.norm (uvw2enu p.1 p.2.1 p.2.2 lat0 lon0 deg) = Spec.norm p := by
  rw [Spec.norm, Spec.norm, uvw2enu_dot]

/-- **C07.** The vector functions of `ecef.py`/`enu.py` are the same rotation. -/
theorem ecef2enuv_eq (u v w lat0 lon0 : ℝ) (deg : Bool) :
    ecef2enuv u v w lat0 lon0 deg = uvw2enu u v w lat0 lon0 deg := rfl
theorem enu2ecefv_eq (e n u lat0 lon0 : ℝ) (deg : Bool) :
    enu2ecefv e n u lat0 lon0 deg = enu2uvw e n u lat0 lon0 deg := by
  simp only [enu2ecefv, enu2uvw, inAngle_toRad, py_sin, py_cos]
  ext <;> simp only [] <;> ring

/-- witness: the up axis at 90N is the polar axis -/
example : enu2uvw (0 : ℝ) 0 1 (Real.pi / 2) 0 false = (0, 0, 1) := by
  rw [enu2uvw_combination]; simp [add, smul, east, north, direction, toRad]

/-! ## C08 -/
section c08
variable (lat0 lon0 h0 : ℝ) (ell : Option (Ellipsoid ℝ)) (deg : Bool)

/-- **C08.** `ecef2enu` then `enu2ecef` returns the point. -/
theorem enu2ecef_ecef2enu (x y z : ℝ) :
    let p := ecef2enu x y z lat0 lon0 h0 ell deg
    enu2ecef p.1 p.2.1 p.2.2 lat0 lon0 h0 ell deg = (x, y, z) := by
  simp only [ecef2enu, enu2ecef, enu2uvw_uvw2enu]
  ext <;> simp only [] <;> ring

/-- **C08.** `enu2ecef` then `ecef2enu` returns the point. -/
theorem ecef2enu_enu2ecef (e n u : ℝ) :
    let p := enu2ecef e n u lat0 lon0 h0 ell deg
    ecef2enu p.1 p.2.1 p.2.2 lat0 lon0 h0 ell deg = (e, n, u) := by
  simp only [ecef2enu, enu2ecef, add_sub_cancel_left, uvw2enu_enu2uvw]

/-- **C08.** The observer is the origin of its own local frame. -/
theorem ecef2enu_observer :
    let p := geodetic2ecef lat0 lon0 h0 ell deg
    ecef2enu p.1 p.2.1 p.2.2 lat0 lon0 h0 ell deg = (0, 0, 0) := by
  simp only [ecef2enu, sub_self, uvw2enu_components, dot]
  ext <;> simp

/-- **C08.** Distances between points are unchanged by the change of frame. -/
theorem ecef2enu_dist (p q : V3) :
    Spec.dist (ecef2enu p.1 p.2.1 p.2.2 lat0 lon0 h0 ell deg) (ecef2enu q.1 q.2.1 q.2.2 lat0 lon0 h0 ell deg)
      = Spec.dist p q := by
  rw [Spec.dist, Spec.dist, ← uvw2enu_norm (Spec.sub p q) lat0 lon0 deg]
  congr 1
  simp only [ecef2enu, uvw2enu_components, dot, Spec.sub]
  ext <;> simp only [] <;> ring

theorem enu2ecef_dist (p q : V3) :
    Spec.dist (enu2ecef p.1 p.2.1 p.2.2 lat0 lon0 h0 ell deg) (enu2ecef q.1 q.2.1 q.2.2 lat0 lon0 h0 ell deg)
      = Spec.dist p q := by
  have h := ecef2enu_dist lat0 lon0 h0 ell deg (enu2ecef p.1 p.2.1 p.2.2 lat0 lon0 h0 ell deg)
    (enu2ecef q.1 q.2.1 q.2.2 lat0 lon0 h0 ell deg)
  rw [ecef2enu_enu2ecef, ecef2enu_enu2ecef] at h
  exact h.symm

/-- **C08.** `geodetic2enu` is `ecef2enu` of `geodetic2ecef`. -/
theorem geodetic2enu_eq (lat lon h : ℝ) :
    geodetic2enu lat lon h lat0 lon0 h0 ell deg =
      (let p := geodetic2ecef lat lon h ell deg
       ecef2enu p.1 p.2.1 p.2.2 lat0 lon0 h0 ell deg) := rfl

/-- **C08.** the other frames -/
theorem ned2ecef_ecef2ned (x y z : ℝ) :
    let p := ecef2ned x y z lat0 lon0 h0 ell deg
    ned2ecef p.1 p.2.1 p.2.2 lat0 lon0 h0 ell deg = (x, y, z) := by
  simp only [ecef2ned, ned2ecef, neg_neg, enu2ecef_ecef2enu]
theorem ecef2ned_ned2ecef (n e d : ℝ) :
    let p := ned2ecef n e d lat0 lon0 h0 ell deg
    ecef2ned p.1 p.2.1 p.2.2 lat0 lon0 h0 ell deg = (n, e, d) := by
  simp only [ecef2ned, ned2ecef, ecef2enu_enu2ecef, neg_neg]
theorem nwu2ecef_ecef2nwu (x y z : ℝ) :
    let p := ecef2nwu x y z lat0 lon0 h0 ell deg
    nwu2ecef p.1 p.2.1 p.2.2 lat0 lon0 h0 ell deg = (x, y, z) := by
  simp only [ecef2nwu, nwu2ecef, neg_neg, enu2ecef_ecef2enu]
theorem ecef2nwu_nwu2ecef (n w u : ℝ) :
    let p := nwu2ecef n w u lat0 lon0 h0 ell deg
    ecef2nwu p.1 p.2.1 p.2.2 lat0 lon0 h0 ell deg = (n, w, u) := by
  simp only [ecef2nwu, nwu2ecef, ecef2enu_enu2ecef, neg_neg]
theorem sez2ecef_ecef2sez (x y z : ℝ) :
    let p := ecef2sez x y z lat0 lon0 h0 ell deg
    sez2ecef p.1 p.2.1 p.2.2 lat0 lon0 h0 ell deg = (x, y, z) := by
  simp only [ecef2sez, sez2ecef, neg_neg, enu2ecef_ecef2enu]
theorem ecef2sez_sez2ecef (s e z : ℝ) :
    let p := sez2ecef s e z lat0 lon0 h0 ell deg
    ecef2sez p.1 p.2.1 p.2.2 lat0 lon0 h0 ell deg = (s, e, z) := by
  simp only [ecef2sez, sez2ecef, ecef2enu_enu2ecef, neg_neg]

theorem ecef2ned_dist (p q : V3) :
    Spec.dist (ecef2ned p.1 p.2.1 p.2.2 lat0 lon0 h0 ell deg) (ecef2ned q.1 q.2.1 q.2.2 lat0 lon0 h0 ell deg)
      = Spec.dist p q := by
  rw [← ecef2enu_dist lat0 lon0 h0 ell deg p q]
  simp only [ecef2ned, Spec.dist, Spec.norm, dot, Spec.sub]; congr 1; ring
theorem ecef2nwu_dist (p q : V3) :
    Spec.dist (ecef2nwu p.1 p.2.1 p.2.2 lat0 lon0 h0 ell deg) (ecef2nwu q.1 q.2.1 q.2.2 lat0 lon0 h0 ell deg)
      = Spec.dist p q := by
  rw [← ecef2enu_dist lat0 lon0 h0 ell deg p q]
  simp only [ecef2nwu, Spec.dist, Spec.norm, dot, Spec.sub]; congr 1; ring
theorem ecef2sez_dist (p q : V3) :
    Spec.dist (ecef2sez p.1 p.2.1 p.2.2 lat0 lon0 h0 ell deg) (ecef2sez q.1 q.2.1 q.2.2 lat0 lon0 h0 ell deg)
      = Spec.dist p q := by
  rw [← ecef2enu_dist lat0 lon0 h0 ell deg p q]
  simp only [ecef2sez, Spec.dist, Spec.norm, dot, Spec.sub]; congr 1; ring

theorem ecef2ned_observer :
    let p := geodetic2ecef lat0 lon0 h0 ell deg
    ecef2ned p.1 p.2.1 p.2.2 lat0 lon0 h0 ell deg = (0, 0, 0) := by
  simp only [ecef2ned, ecef2enu_observer, neg_zero]
theorem ecef2nwu_observer :
    let p := geodetic2ecef lat0 lon0 h0 ell deg
    ecef2nwu p.1 p.2.1 p.2.2 lat0 lon0 h0 ell deg = (0, 0, 0) := by
  simp only [ecef2nwu, ecef2enu_observer, neg_zero]
theorem ecef2sez_observer :
    let p := geodetic2ecef lat0 lon0 h0 ell deg
    ecef2sez p.1 p.2.1 p.2.2 lat0 lon0 h0 ell deg = (0, 0, 0) := by
  simp only [ecef2sez, ecef2enu_observer, neg_zero]

/-- A point straight above the observer is on the up axis: moving the observer's own altitude by `d`. -/
theorem ecef2enu_above (d : ℝ) :
    let p := geodetic2ecef lat0 lon0 (h0 + d) ell deg
    ecef2enu p.1 p.2.1 p.2.2 lat0 lon0 h0 ell deg = (0, 0, d) := by
  have h1 := Real.sin_sq_add_cos_sq (toRad deg lat0)
  have h2 := Real.sin_sq_add_cos_sq (toRad deg lon0)
  simp only [ecef2enu, uvw2enu, geodetic2ecef, inAngle_toRad, py_sin, py_cos, Prod.mk.injEq]
  set s := Real.sin (toRad deg lat0); set c := Real.cos (toRad deg lat0)
  set S := Real.sin (toRad deg lon0); set C := Real.cos (toRad deg lon0)
  refine ⟨by ring, ?_, ?_⟩
  · linear_combination (-(s * c * d)) * h2
  · linear_combination c ^ 2 * d * h2 + d * h1

end c08

/-! ## C09 : relabelling, in any arithmetic -/
section c09
variable {F : Type} [Add F] [Sub F] [Mul F] [Div F] [Neg F] [Pow F Nat] [OfScientific F] [LT F] [LE F]
  [DecidableLT F] [DecidableLE F] [PyMath F]

/-- (E, N, U) to (N, E, D) -/
def toNED (p : F × F × F) : F × F × F := (p.2.1, p.1, -p.2.2)
/-- (E, N, U) to (N, W, U) -/
def toNWU (p : F × F × F) : F × F × F := (p.2.1, -p.1, p.2.2)
/-- (E, N, U) to (S, E, Z) -/
def toSEZ (p : F × F × F) : F × F × F := (-p.2.1, p.1, p.2.2)

/-- **C09.** Every function producing NED, NWU or SEZ coordinates is the ENU function with the axes
relabelled, for any arithmetic whatsoever. -/
theorem relabel_out (x y z lat lon h lat0 lon0 h0 az el r : F) (ell : Option (Ellipsoid F)) (deg : Bool) :
    ecef2ned x y z lat0 lon0 h0 ell deg = toNED (ecef2enu x y z lat0 lon0 h0 ell deg) ∧
    ecef2nwu x y z lat0 lon0 h0 ell deg = toNWU (ecef2enu x y z lat0 lon0 h0 ell deg) ∧
    ecef2sez x y z lat0 lon0 h0 ell deg = toSEZ (ecef2enu x y z lat0 lon0 h0 ell deg) ∧
    geodetic2ned lat lon h lat0 lon0 h0 ell deg = toNED (geodetic2enu lat lon h lat0 lon0 h0 ell deg) ∧
    geodetic2nwu lat lon h lat0 lon0 h0 ell deg = toNWU (geodetic2enu lat lon h lat0 lon0 h0 ell deg) ∧
    geodetic2sez lat lon h lat0 lon0 h0 ell deg = toSEZ (geodetic2enu lat lon h lat0 lon0 h0 ell deg) ∧
    aer2ned az el r deg = toNED (aer2enu az el r deg) ∧
    aer2nwu az el r deg = toNWU (aer2enu az el r deg) ∧
    aer2sez az el r deg = toSEZ (aer2enu az el r deg) ∧
    ecef2nedv x y z lat0 lon0 deg = toNED (ecef2enuv x y z lat0 lon0 deg) ∧
    ecef2nwuv x y z lat0 lon0 deg = toNWU (ecef2enuv x y z lat0 lon0 deg) ∧
    ecef2sezv x y z lat0 lon0 deg = toSEZ (ecef2enuv x y z lat0 lon0 deg) :=
  ⟨rfl, rfl, rfl, rfl, rfl, rfl, rfl, rfl, rfl, rfl, rfl, rfl⟩

/-- **C09.** Every function consuming NED, NWU or SEZ coordinates is the ENU function applied to the
inverse relabelling, for any arithmetic in which double negation is the identity (true of IEEE floats). -/
theorem relabel_in (e n u lat0 lon0 h0 : F) (ell : Option (Ellipsoid F)) (deg : Bool) (bk : Backend)
    (negneg : ∀ a : F, - -a = a) :
    (let p := toNED (e, n, u); ned2ecef p.1 p.2.1 p.2.2 lat0 lon0 h0 ell deg) = enu2ecef e n u lat0 lon0 h0 ell deg ∧
    (let p := toNWU (e, n, u); nwu2ecef p.1 p.2.1 p.2.2 lat0 lon0 h0 ell deg) = enu2ecef e n u lat0 lon0 h0 ell deg ∧
    (let p := toSEZ (e, n, u); sez2ecef p.1 p.2.1 p.2.2 lat0 lon0 h0 ell deg) = enu2ecef e n u lat0 lon0 h0 ell deg ∧
    (let p := toNED (e, n, u); ned2aer p.1 p.2.1 p.2.2 deg) = enu2aer e n u deg ∧
    (let p := toNWU (e, n, u); nwu2aer p.1 p.2.1 p.2.2 deg) = enu2aer e n u deg ∧
    (let p := toSEZ (e, n, u); sez2aer p.1 p.2.1 p.2.2 deg) = enu2aer e n u deg ∧
    (let p := toNED (e, n, u); ned2geodetic bk p.1 p.2.1 p.2.2 lat0 lon0 h0 ell deg)
      = enu2geodetic bk e n u lat0 lon0 h0 ell deg ∧
    (let p := toNWU (e, n, u); nwu2geodetic bk p.1 p.2.1 p.2.2 lat0 lon0 h0 ell deg)
      = enu2geodetic bk e n u lat0 lon0 h0 ell deg ∧
    (let p := toSEZ (e, n, u); sez2geodetic bk p.1 p.2.1 p.2.2 lat0 lon0 h0 ell deg)
      = enu2geodetic bk e n u lat0 lon0 h0 ell deg ∧
    (let p := toNWU (e, n, u); nwu2ecefv p.1 p.2.1 p.2.2 lat0 lon0 deg) = enu2ecefv e n u lat0 lon0 deg ∧
    (let p := toSEZ (e, n, u); sez2ecefv p.1 p.2.1 p.2.2 lat0 lon0 deg) = enu2ecefv e n u lat0 lon0 deg := by
  simp only [toNED, toNWU, toSEZ, ned2ecef, nwu2ecef, sez2ecef, ned2aer, nwu2aer, sez2aer, ned2geodetic,
    nwu2geodetic, sez2geodetic, nwu2ecefv, sez2ecefv, enu2geodetic, negneg, and_self]
end c09

/-- witness: reals satisfy the side condition -/
example : ∀ a : ℝ, - -a = a := neg_neg
/-- what the relabelling means geometrically: the NED basis is (north, east, down) -/
example (φ lam : ℝ) (v : V3) :
    toNED (dot (east lam) v, dot (north φ lam) v, dot (direction φ lam) v)
      = (dot (north φ lam) v, dot (east lam) v, dot (smul (-1) (direction φ lam)) v) := by
  simp only [toNED, dot, smul]; ext <;> simp only [] <;> ring

/-! ## C10 : published matrices -/

/-- entry-wise determinant, the independent definition of handedness -/
def Mat3.det (m : Mat3 ℝ) : ℝ := dot (m.m00, m.m01, m.m02) (cross (m.m10, m.m11, m.m12) (m.m20, m.m21, m.m22))

/-- the matrix is a proper rotation: its transpose is a two-sided inverse, determinant 1 -/
structure Mat3.IsRotation (m : Mat3 ℝ) : Prop where
  left : ∀ v : V3, matvec3 (transpose3 m) (matvec3 m v) = v
  right : ∀ v : V3, matvec3 m (matvec3 (transpose3 m) v) = v
  det : m.det = 1

theorem matvec3_real (m : Mat3 ℝ) (v : V3) : matvec3 m v =
    (m.m00 * v.1 + m.m01 * v.2.1 + m.m02 * v.2.2, m.m10 * v.1 + m.m11 * v.2.1 + m.m12 * v.2.2,
      m.m20 * v.1 + m.m21 * v.2.1 + m.m22 * v.2.2) := by
  simp [matvec3, sum3]

theorem matvec3_matmul3 (a b : Mat3 ℝ) (v : V3) : matvec3 (matmul3 a b) v = matvec3 a (matvec3 b v) := by
  simp only [matvec3_real, matmul3, sum3, lit_0]
  ext <;> simp only [] <;> ring

theorem transpose3_transpose3 {F : Type} (a : Mat3 F) : transpose3 (transpose3 a) = a := rfl

theorem transpose3_matmul3 (a b : Mat3 ℝ) : transpose3 (matmul3 a b) = matmul3 (transpose3 b) (transpose3 a) := by
  simp only [transpose3, matmul3, sum3, lit_0, Mat3.mk.injEq]
  refine ⟨?_, ?_, ?_, ?_, ?_, ?_, ?_, ?_, ?_⟩ <;> ring

theorem Mat3.det_matmul3 (a b : Mat3 ℝ) : (matmul3 a b).det = a.det * b.det := by
  simp only [Mat3.det, matmul3, sum3, lit_0, dot, cross]; ring
theorem Mat3.det_transpose3 (a : Mat3 ℝ) : (transpose3 a).det = a.det := by
  simp only [Mat3.det, transpose3, dot, cross]; ring

theorem Mat3.IsRotation.mul {a b : Mat3 ℝ} (ha : a.IsRotation) (hb : b.IsRotation) : (matmul3 a b).IsRotation := by
  refine ⟨fun v => ?_, fun v => ?_, ?_⟩
  · rw [transpose3_matmul3, matvec3_matmul3, matvec3_matmul3, ha.left, hb.left]
  · rw [transpose3_matmul3, matvec3_matmul3, matvec3_matmul3, hb.right, ha.right]
  · rw [Mat3.det_matmul3, ha.det, hb.det, one_mul]

theorem Mat3.IsRotation.transpose {a : Mat3 ℝ} (ha : a.IsRotation) : (transpose3 a).IsRotation :=
  ⟨ha.right, ha.left, by rw [Mat3.det_transpose3, ha.det]⟩

theorem dot_matvec3 (m : Mat3 ℝ) (p q : V3) : dot (matvec3 m p) q = dot p (matvec3 (transpose3 m) q) := by
  simp only [matvec3_real, transpose3, dot]; ring

/-- rotations preserve dot products -/
theorem Mat3.IsRotation.dot {m : Mat3 ℝ} (hm : m.IsRotation) (p q : V3) :
    Spec.dot (matvec3 m p) (matvec3 m q) = Spec.dot p q := by
  rw [dot_matvec3, hm.left]
theorem Mat3.IsRotation.norm {m : Mat3 ℝ} (hm : m.IsRotation) (p : V3) :
    Spec.norm (matvec3 m p) = Spec.norm p := by rw [Spec.norm, Spec.norm, hm.dot]

theorem rot_ENU2NED : (ENU2NED : Mat3 ℝ).IsRotation := by
  refine ⟨fun v => ?_, fun v => ?_, ?_⟩ <;> simp [ENU2NED, transpose3, matvec3_real, Mat3.det, Spec.dot, cross]
theorem rot_ENU2SEZ : (ENU2SEZ : Mat3 ℝ).IsRotation := by
  refine ⟨fun v => ?_, fun v => ?_, ?_⟩ <;> simp [ENU2SEZ, transpose3, matvec3_real, Mat3.det, Spec.dot, cross]
theorem rot_ENU2NWU : (ENU2NWU : Mat3 ℝ).IsRotation := by
  refine ⟨fun v => ?_, fun v => ?_, ?_⟩ <;> simp [ENU2NWU, transpose3, matvec3_real, Mat3.det, Spec.dot, cross]

/-- **C10.** matrix and function agree (ENU) -/
theorem ecef2enu_matrix_apply (x y z lat0 lon0 : ℝ) (deg : Bool) :
    matvec3 (ecef2enu_matrix lat0 lon0 deg) (x, y, z) = ecef2enuv x y z lat0 lon0 deg := by
  simp only [matvec3_real, ecef2enu_matrix, ecef2enuv, inAngle_toRad, py_sin, py_cos, lit_0]
  ext <;> simp only [] <;> ring
theorem enu2ecef_matrix_apply (e n u lat0 lon0 : ℝ) (deg : Bool) :
    matvec3 (enu2ecef_matrix lat0 lon0 deg) (e, n, u) = enu2ecefv e n u lat0 lon0 deg := by
  simp only [matvec3_real, enu2ecef_matrix, transpose3, ecef2enu_matrix, enu2ecefv, inAngle_toRad, py_sin, py_cos,
    lit_0]
  ext <;> simp only [] <;> ring

theorem rot_ecef2enu (lat0 lon0 : ℝ) (deg : Bool) : (ecef2enu_matrix lat0 lon0 deg).IsRotation := by
  refine ⟨fun v => ?_, fun v => ?_, ?_⟩
  · have h1 := ecef2enu_matrix_apply v.1 v.2.1 v.2.2 lat0 lon0 deg
    rw [Prod.mk.eta] at h1
    rw [h1]
    have h2 := enu2ecef_matrix_apply (ecef2enuv v.1 v.2.1 v.2.2 lat0 lon0 deg).1
      (ecef2enuv v.1 v.2.1 v.2.2 lat0 lon0 deg).2.1 (ecef2enuv v.1 v.2.1 v.2.2 lat0 lon0 deg).2.2 lat0 lon0 deg
    rw [Prod.mk.eta] at h2
    rw [show transpose3 (ecef2enu_matrix lat0 lon0 deg) = enu2ecef_matrix lat0 lon0 deg from rfl, h2,
      enu2ecefv_eq, ecef2enuv_eq, enu2uvw_uvw2enu]
  · have h2 := enu2ecef_matrix_apply v.1 v.2.1 v.2.2 lat0 lon0 deg
    rw [Prod.mk.eta] at h2
    rw [show transpose3 (ecef2enu_matrix lat0 lon0 deg) = enu2ecef_matrix lat0 lon0 deg from rfl, h2]
    have h1 := ecef2enu_matrix_apply (enu2ecefv v.1 v.2.1 v.2.2 lat0 lon0 deg).1
      (enu2ecefv v.1 v.2.1 v.2.2 lat0 lon0 deg).2.1 (enu2ecefv v.1 v.2.1 v.2.2 lat0 lon0 deg).2.2 lat0 lon0 deg
    rw [Prod.mk.eta] at h1
    rw [h1, enu2ecefv_eq, ecef2enuv_eq, uvw2enu_enu2uvw]
  · have h1 := Real.sin_sq_add_cos_sq (toRad deg lat0)
    have h2 := Real.sin_sq_add_cos_sq (toRad deg lon0)
    simp only [Mat3.det, ecef2enu_matrix, Spec.dot, cross, inAngle_toRad, py_sin, py_cos, lit_0]
    set s := Real.sin (toRad deg lat0); set c := Real.cos (toRad deg lat0)
    set S := Real.sin (toRad deg lon0); set C := Real.cos (toRad deg lon0)
    linear_combination (s ^ 2 + c ^ 2) * h2 + h1

/-- **C10.** All eight published matrices are rotations (transpose = inverse, determinant 1), and the
`X2ecef` matrix is the transpose of the `ecef2X` matrix. -/
theorem published_matrices_rotation (lat0 lon0 : ℝ) (deg : Bool) :
    (ecef2enu_matrix lat0 lon0 deg).IsRotation ∧ (ecef2ned_matrix lat0 lon0 deg).IsRotation ∧
    (ecef2sez_matrix lat0 lon0 deg).IsRotation ∧ (ecef2nwu_matrix lat0 lon0 deg).IsRotation ∧
    (enu2ecef_matrix lat0 lon0 deg).IsRotation ∧ (ned2ecef_matrix lat0 lon0 deg).IsRotation ∧
    (sez2ecef_matrix lat0 lon0 deg).IsRotation ∧ (nwu2ecef_matrix lat0 lon0 deg).IsRotation := by
  have h := rot_ecef2enu lat0 lon0 deg
  exact ⟨h, rot_ENU2NED.mul h, rot_ENU2SEZ.mul h, rot_ENU2NWU.mul h, h.transpose, (rot_ENU2NED.mul h).transpose,
    (rot_ENU2SEZ.mul h).transpose, (rot_ENU2NWU.mul h).transpose⟩

theorem published_matrices_transpose (lat0 lon0 : ℝ) (deg : Bool) :
    enu2ecef_matrix lat0 lon0 deg = transpose3 (ecef2enu_matrix lat0 lon0 deg) ∧
    ned2ecef_matrix lat0 lon0 deg = transpose3 (ecef2ned_matrix lat0 lon0 deg) ∧
    sez2ecef_matrix lat0 lon0 deg = transpose3 (ecef2sez_matrix lat0 lon0 deg) ∧
    nwu2ecef_matrix lat0 lon0 deg = transpose3 (ecef2nwu_matrix lat0 lon0 deg) := ⟨rfl, rfl, rfl, rfl⟩

theorem ENU2NED_apply (v : V3) : matvec3 ENU2NED v = toNED v := by simp [matvec3_real, ENU2NED, toNED]
theorem ENU2NWU_apply (v : V3) : matvec3 ENU2NWU v = toNWU v := by simp [matvec3_real, ENU2NWU, toNWU]
theorem ENU2SEZ_apply (v : V3) : matvec3 ENU2SEZ v = toSEZ v := by simp [matvec3_real, ENU2SEZ, toSEZ]

/-- **C10.** matrix and function agree (NED, NWU, SEZ) -/
theorem ecef2ned_matrix_apply (x y z lat0 lon0 : ℝ) (deg : Bool) :
    matvec3 (ecef2ned_matrix lat0 lon0 deg) (x, y, z) = ecef2nedv x y z lat0 lon0 deg := by
  rw [ecef2ned_matrix, matvec3_matmul3, ecef2enu_matrix_apply, ENU2NED_apply]; rfl
theorem ecef2nwu_matrix_apply (x y z lat0 lon0 : ℝ) (deg : Bool) :
    matvec3 (ecef2nwu_matrix lat0 lon0 deg) (x, y, z) = ecef2nwuv x y z lat0 lon0 deg := by
  rw [ecef2nwu_matrix, matvec3_matmul3, ecef2enu_matrix_apply, ENU2NWU_apply]; rfl
theorem ecef2sez_matrix_apply (x y z lat0 lon0 : ℝ) (deg : Bool) :
    matvec3 (ecef2sez_matrix lat0 lon0 deg) (x, y, z) = ecef2sezv x y z lat0 lon0 deg := by
  rw [ecef2sez_matrix, matvec3_matmul3, ecef2enu_matrix_apply, ENU2SEZ_apply]; rfl
theorem nwu2ecef_matrix_apply (n w u lat0 lon0 : ℝ) (deg : Bool) :
    matvec3 (nwu2ecef_matrix lat0 lon0 deg) (n, w, u) = nwu2ecefv n w u lat0 lon0 deg := by
  have : nwu2ecef_matrix lat0 lon0 deg = matmul3 (transpose3 (ecef2enu_matrix lat0 lon0 deg)) (transpose3 ENU2NWU) :=
    transpose3_matmul3 _ _
  rw [this, matvec3_matmul3, nwu2ecefv, ← enu2ecef_matrix_apply]
  simp [matvec3_real, ENU2NWU, transpose3, enu2ecef_matrix]
theorem sez2ecef_matrix_apply (s e z lat0 lon0 : ℝ) (deg : Bool) :
    matvec3 (sez2ecef_matrix lat0 lon0 deg) (s, e, z) = sez2ecefv s e z lat0 lon0 deg := by
  have : sez2ecef_matrix lat0 lon0 deg = matmul3 (transpose3 (ecef2enu_matrix lat0 lon0 deg)) (transpose3 ENU2SEZ) :=
    transpose3_matmul3 _ _
  rw [this, matvec3_matmul3, sez2ecefv, ← enu2ecef_matrix_apply]
  simp [matvec3_real, ENU2SEZ, transpose3, enu2ecef_matrix]

/-- **C10.** the point function is the matrix applied to the offset from the observer -/
theorem ecef2enu_matrix_point (x y z lat0 lon0 h0 : ℝ) (ell : Option (Ellipsoid ℝ)) (deg : Bool) :
    ecef2enu x y z lat0 lon0 h0 ell deg =
      matvec3 (ecef2enu_matrix lat0 lon0 deg) (Spec.sub (x, y, z) (geodetic2ecef lat0 lon0 h0 ell deg)) := by
  rw [Spec.sub, ecef2enu_matrix_apply]; rfl

/-- concrete instance at Null Island: ENU = (y, z, x) -/
example (x y z : ℝ) : matvec3 (ecef2enu_matrix (0 : ℝ) 0 true) (x, y, z) = (y, z, x) := by
  simp [matvec3_real, ecef2enu_matrix, py_inAngle]

end Pymap3d
end
