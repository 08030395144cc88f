import Verif.Lemmas.FloatMat
import Verif.Props.FloatSidereal
import Verif.Props.Eci
/-!
**C87** the conversions between inertial and Earth-fixed coordinates in double precision.
-/
set_option linter.unusedSectionVars false
namespace Pymap3d
open Py PyFloat
open Spec hiding norm dist
noncomputable section

variable {M : FloatArith} {c θ : ℝ}

/-! ### the elementary rotations -/

theorem op_X {p q p' q' : ℝ} (hc : 0 ≤ c) (hp : |p' - p| ≤ c * w53) (hq : |q' - q| ≤ c * w53) :
    OpNear (1.415 * c) ⟨1, 0, 0, 0, p', q', 0, -q', p'⟩ ⟨1, 0, 0, 0, p, q, 0, -q, p⟩ := by
  refine op_of_sq hc fun v => ?_
  have h := plane_sq (x := v.2.1) (y := v.2.2) hp hq
  simp only [matvec3_real, sub, dot]
  have := mul_nonneg (sq_nonneg (c * w53)) (sq_nonneg v.1)
  nlinarith

theorem op_Y {p q p' q' : ℝ} (hc : 0 ≤ c) (hp : |p' - p| ≤ c * w53) (hq : |q' - q| ≤ c * w53) :
    OpNear (1.415 * c) ⟨p', 0, -q', 0, 1, 0, q', 0, p'⟩ ⟨p, 0, -q, 0, 1, 0, q, 0, p⟩ := by
  refine op_of_sq hc fun v => ?_
  have h := plane_sq (x := v.2.2) (y := v.1) hp hq
  simp only [matvec3_real, sub, dot]
  have := mul_nonneg (sq_nonneg (c * w53)) (sq_nonneg v.2.1)
  nlinarith

theorem op_Z {p q p' q' : ℝ} (hc : 0 ≤ c) (hp : |p' - p| ≤ c * w53) (hq : |q' - q| ≤ c * w53) :
    OpNear (1.415 * c) ⟨p', q', 0, -q', p', 0, 0, 0, 1⟩ ⟨p, q, 0, -q, p, 0, 0, 0, 1⟩ := by
  refine op_of_sq hc fun v => ?_
  have h := plane_sq (x := v.1) (y := v.2.1) hp hq
  simp only [matvec3_real, sub, dot]
  have := mul_nonneg (sq_nonneg (c * w53)) (sq_nonneg v.2.2)
  nlinarith

theorem ang_refl (x : ℝ) : Ang 0 x x := ⟨0, by simp⟩

theorem rotX_fl (D : Double M) {a : Fl M} (h : Ang c θ a.val) (hc : 0 ≤ c) : OpNear (1.415 * (c + 8.1)) (mval (eoRotationX a)) (eoRotationX θ) := by
  have e1 : mval (eoRotationX a) = ⟨1, 0, 0, 0, (PyMath.cos a).val, (PyMath.sin a).val, 0, -(PyMath.sin a).val, (PyMath.cos a).val⟩ := by
    simp only [mval, eoRotationX, fl_zero D, fl_one D]; rfl
  have e2 : eoRotationX θ = ⟨1, 0, 0, 0, Real.cos θ, Real.sin θ, 0, -Real.sin θ, Real.cos θ⟩ := by simp only [eoRotationX, lit_0, lit_1]; rfl
  rw [e1, e2]
  exact op_X (by linarith) (h.cos D le_rfl).2 (h.sin D le_rfl).2

theorem rotY_fl (D : Double M) {a : Fl M} (h : Ang c θ a.val) (hc : 0 ≤ c) : OpNear (1.415 * (c + 8.1)) (mval (eoRotationY a)) (eoRotationY θ) := by
  have e1 : mval (eoRotationY a) = ⟨(PyMath.cos a).val, 0, -(PyMath.sin a).val, 0, 1, 0, (PyMath.sin a).val, 0, (PyMath.cos a).val⟩ := by
    simp only [mval, eoRotationY, fl_zero D, fl_one D]; rfl
  have e2 : eoRotationY θ = ⟨Real.cos θ, 0, -Real.sin θ, 0, 1, 0, Real.sin θ, 0, Real.cos θ⟩ := by simp only [eoRotationY, lit_0, lit_1]; rfl
  rw [e1, e2]
  exact op_Y (by linarith) (h.cos D le_rfl).2 (h.sin D le_rfl).2

theorem rotZ_fl (D : Double M) {a : Fl M} (h : Ang c θ a.val) (hc : 0 ≤ c) : OpNear (1.415 * (c + 8.1)) (mval (eoRotationZ a)) (eoRotationZ θ) := by
  have e1 : mval (eoRotationZ a) = ⟨(PyMath.cos a).val, (PyMath.sin a).val, 0, -(PyMath.sin a).val, (PyMath.cos a).val, 0, 0, 0, 1⟩ := by
    simp only [mval, eoRotationZ, fl_zero D, fl_one D]; rfl
  have e2 : eoRotationZ θ = ⟨Real.cos θ, Real.sin θ, 0, -Real.sin θ, Real.cos θ, 0, 0, 0, 1⟩ := by simp only [eoRotationZ, lit_0, lit_1]; rfl
  rw [e1, e2]
  exact op_Z (by linarith) (h.cos D le_rfl).2 (h.sin D le_rfl).2

/-! ### the matrix is a rotation up to rounding, whatever the angles -/

/-- the rotation about the computed angles, with exact sines, cosines and products -/
def idealMatrix (j k xp yp : Fl M) : Mat3 ℝ :=
  let t := julianCenturies k
  let p := precessionAngles t
  let n := nutationShort t
  matmul3 (matmul3 (eoRotationY (xp * ARCSEC2RAD : Fl M).val) (eoRotationX (yp * ARCSEC2RAD : Fl M).val))
    (matmul3 (eoRotationZ (greenwichApparentSiderealTime j k).val)
      (matmul3
        (matmul3 (eoRotationX (-(meanObliquity t + n.2)).val) (matmul3 (eoRotationZ (-n.1).val) (eoRotationX (meanObliquity t).val)))
        (matmul3 (eoRotationZ (-p.2.2).val) (matmul3 (eoRotationY p.2.1.val) (eoRotationZ (-p.1).val)))))

theorem idealMatrix_rot (j k xp yp : Fl M) : (idealMatrix j k xp yp).IsRotation :=
  ((rot_eoY _).mul (rot_eoX _)).mul ((rot_eoZ _).mul (((rot_eoX _).mul ((rot_eoZ _).mul (rot_eoX _))).mul ((rot_eoZ _).mul ((rot_eoY _).mul (rot_eoZ _)))))

theorem matrix_near_rotation (D : Double M) (j k xp yp : Fl M) : OpNear 330 (mval (eciMatrixOfJd j k xp yp)) (idealMatrix j k xp yp) := by
  have X : ∀ a : Fl M, OpNear 11.5 (mval (eoRotationX a)) (eoRotationX a.val) := fun a => (rotX_fl D (ang_refl _) le_rfl).mono (by norm_num)
  have Y : ∀ a : Fl M, OpNear 11.5 (mval (eoRotationY a)) (eoRotationY a.val) := fun a => (rotY_fl D (ang_refl _) le_rfl).mono (by norm_num)
  have Z : ∀ a : Fl M, OpNear 11.5 (mval (eoRotationZ a)) (eoRotationZ a.val) := fun a => (rotZ_fl D (ang_refl _) le_rfl).mono (by norm_num)
  simp only [eciMatrixOfJd, idealMatrix, polarMotionMatrix, nutationMatrix, precessionMatrix]
  refine OpNear.fmul (c := 51) (d := 250) D (OpNear.fmul D (Y _) (X _) (rot_eoY _) (rot_eoX _) ?_ ?_ ?_ ?_)
    (OpNear.fmul (d := 210) D (Z _) (OpNear.fmul (c := 91) (d := 91) D
      (OpNear.fmul (d := 51) D (X _) (OpNear.fmul D (Z _) (X _) (rot_eoZ _) (rot_eoX _) ?_ ?_ ?_ ?_) (rot_eoX _) ((rot_eoZ _).mul (rot_eoX _)) ?_ ?_ ?_ ?_)
      (OpNear.fmul (d := 51) D (Z _) (OpNear.fmul D (Y _) (Z _) (rot_eoY _) (rot_eoZ _) ?_ ?_ ?_ ?_) (rot_eoZ _) ((rot_eoY _).mul (rot_eoZ _)) ?_ ?_ ?_ ?_)
      ((rot_eoX _).mul ((rot_eoZ _).mul (rot_eoX _))) ((rot_eoZ _).mul ((rot_eoY _).mul (rot_eoZ _))) ?_ ?_ ?_ ?_)
      (rot_eoZ _) (((rot_eoX _).mul ((rot_eoZ _).mul (rot_eoX _))).mul ((rot_eoZ _).mul ((rot_eoY _).mul (rot_eoZ _)))) ?_ ?_ ?_ ?_)
    ((rot_eoY _).mul (rot_eoX _))
    ((rot_eoZ _).mul (((rot_eoX _).mul ((rot_eoZ _).mul (rot_eoX _))).mul ((rot_eoZ _).mul ((rot_eoY _).mul (rot_eoZ _))))) ?_ ?_ ?_ ?_
  all_goals norm_num

/-- what the two conversions do, in any arithmetic: one matrix, computed from the time alone, applied to the point -/
theorem eci2ecef_form (x y z : Fl M) (t : DateTime) (d xp yp : Fl M) (p : Fl M × Fl M × Fl M) (h : eci2ecef x y z t d xp yp = .ok p) :
    ∃ j k, p = matvec3 (eciMatrixOfJd j k xp yp) (x, y, z) ∧
      ∀ q : Fl M × Fl M × Fl M, ecef2eci q.1 q.2.1 q.2.2 t d xp yp = .ok (matvec3 (transpose3 (eciMatrixOfJd j k xp yp)) q) ∧
        eci2ecef q.1 q.2.1 q.2.2 t d xp yp = .ok (matvec3 (eciMatrixOfJd j k xp yp) q) := by
  simp only [eci2ecef, eciToEcefMatrix] at h ⊢
  cases h1 : utcWithOffset t d with
  | error e => simp only [h1, bind, Except.bind] at h; cases h
  | ok u =>
    cases h2 : (juliandate u : Except PyErr (Fl M)) with
    | error e => simp only [h1, h2, bind, Except.bind] at h; cases h
    | ok j =>
      cases h3 : utcToTt (Fl M) t with
      | error e => simp only [h1, h2, h3, bind, Except.bind] at h; cases h
      | ok v =>
        cases h4 : (juliandate v : Except PyErr (Fl M)) with
        | error e => simp only [h1, h2, h3, h4, bind, Except.bind] at h; cases h
        | ok k =>
          simp only [h1, h2, h3, h4, bind, Except.bind, pure, Except.pure] at h
          refine ⟨j, k, ?_, fun q => ⟨?_, ?_⟩⟩
          · injection h with h; exact h.symm
          · simp only [ecef2eci, eciToEcefMatrix, h1, h2, h3, h4, bind, Except.bind, pure, Except.pure]
          · simp only [h2, h4, bind, Except.bind, pure, Except.pure]

/-- **C87.** In double precision `ecef2eci` undoes `eci2ecef`, and the distance from the origin is kept, to 10⁻¹³ of that distance: for every point, time and
Earth orientation parameters for which the call succeeds at all. -/
theorem eci_roundtrip_float (D : Double M) (x y z : Fl M) (t : DateTime) (d xp yp : Fl M) (p : Fl M × Fl M × Fl M) (h : eci2ecef x y z t d xp yp = .ok p) :
    (∃ q, ecef2eci p.1 p.2.1 p.2.2 t d xp yp = .ok q ∧ Spec.dist (vval q) (x.val, y.val, z.val) ≤ 1e-13 * Spec.norm (x.val, y.val, z.val)) ∧
    |Spec.norm (vval p) - Spec.norm (x.val, y.val, z.val)| ≤ 1e-13 * Spec.norm (x.val, y.val, z.val) := by
  obtain ⟨j, k, hp, hall⟩ := eci2ecef_form x y z t d xp yp p h
  have hO := matrix_near_rotation D j k xp yp
  have hR := idealMatrix_rot j k xp yp
  have hT : OpNear 330 (mval (transpose3 (eciMatrixOfJd j k xp yp))) (transpose3 (idealMatrix j k xp yp)) := hO.transpose (by norm_num)
  have hw := w53_pos
  have hw2 := w53_le
  obtain ⟨v, hv⟩ : ∃ v : Fl M × Fl M × Fl M, v = (x, y, z) := ⟨_, rfl⟩
  have hvv : ((x.val, y.val, z.val) : V3) = vval v := by rw [hv]; rfl
  rw [hvv]
  rw [← hv] at hp
  have hn := Spec.norm_nonneg (vval v)
  have h1 := hO.fvec D hR (by norm_num) v (e := 351) (by norm_num)
  rw [← hp] at h1
  have n1 := norm_le_add (vval p) (matvec3 (idealMatrix j k xp yp) (vval v))
  have n2 := norm_le_add (matvec3 (idealMatrix j k xp yp) (vval v)) (vval p)
  rw [Spec.dist_comm] at n2
  have h1' : Spec.dist (vval p) (matvec3 (idealMatrix j k xp yp) (vval v)) ≤ 3.9e-14 * Spec.norm (vval v) :=
    h1.trans (mul_le_mul_of_nonneg_right (by linarith) hn)
  have hrn : Spec.norm (matvec3 (idealMatrix j k xp yp) (vval v)) = Spec.norm (vval v) := hR.norm _
  rw [hrn] at n1 n2
  constructor
  · refine ⟨_, (hall p).1, ?_⟩
    have h2 := hT.fvec D hR.transpose (by norm_num) p (e := 351) (by norm_num)
    have h3 := dist_tri (vval (matvec3 (transpose3 (eciMatrixOfJd j k xp yp)) p)) (matvec3 (transpose3 (idealMatrix j k xp yp)) (vval p)) (vval v)
    have h4 : Spec.dist (matvec3 (transpose3 (idealMatrix j k xp yp)) (vval p)) (vval v) = Spec.dist (vval p) (matvec3 (idealMatrix j k xp yp) (vval v)) := by
      conv_lhs => rw [← hR.left (vval v)]
      have e : ∀ (A : Mat3 ℝ) (p q : V3), sub (matvec3 A p) (matvec3 A q) = matvec3 A (sub p q) := by
        intro A p q; simp only [matvec3_real, sub]; refine Prod.ext ?_ (Prod.ext ?_ ?_) <;> dsimp only <;> ring
      rw [Spec.dist, e, hR.transpose.norm]; rfl
    have h5 : Spec.dist (vval (matvec3 (transpose3 (eciMatrixOfJd j k xp yp)) p)) (matvec3 (transpose3 (idealMatrix j k xp yp)) (vval p)) ≤
        3.9e-14 * (1.0001 * Spec.norm (vval v)) := by
      refine h2.trans (mul_le_mul (by linarith) (by linarith) (Spec.norm_nonneg _) (by norm_num))
    linarith
  · rw [abs_le]
    constructor <;> linarith

/-! ### accuracy -/

variable {T : ℝ} {t : Fl M}

theorem precession_fl (D : Double M) (h : Cl 2 80 T t.val) :
    Cl 0.03 8 (precZeta T) (precessionAngles t).1.val ∧ Cl 0.03 8 (precTheta T) (precessionAngles t).2.1.val ∧ Cl 0.03 8 (precZ T) (precessionAngles t).2.2.val := by
  have q2 := sq_fl D h (by norm_num)
  have q3 := cube_fl D h (by norm_num)
  simp only [precessionAngles, precZeta, precTheta, precZ, arcsec_real]
  have a1 : Cl 2307 2310 2306.2181 (2306.2181 : Fl M).val := Cl.lit D (by rw [abs_of_pos] <;> norm_num) (by norm_num)
  have m1 : Cl 4614 194000 _ (2306.2181 * t : Fl M).val := Cl.fmul D a1 h (by norm_num) (by norm_num) (by norm_num) (by norm_num)
  refine ⟨?_, ?_, ?_⟩
  · have a2 : Cl 0.31 0.32 0.30188 (0.30188 : Fl M).val := Cl.lit D (by rw [abs_of_pos] <;> norm_num) (by norm_num)
    have a3 : Cl 0.02 0.03 0.017998 (0.017998 : Fl M).val := Cl.lit D (by rw [abs_of_pos] <;> norm_num) (by norm_num)
    have m2 : Cl 1.3 130 _ (0.30188 * t ^ 2 : Fl M).val := Cl.fmul D a2 q2 (by norm_num) (by norm_num) (by norm_num) (by norm_num)
    have m3 : Cl 0.2 30 _ (0.017998 * t ^ 3 : Fl M).val := Cl.fmul D a3 q3 (by norm_num) (by norm_num) (by norm_num) (by norm_num)
    have s1 : Cl 4616 199000 _ (2306.2181 * t + 0.30188 * t ^ 2 : Fl M).val := Cl.fadd D m1 m2 (by norm_num) (by norm_num) (by norm_num)
    have s2 : Cl 4617 204000 _ (2306.2181 * t + 0.30188 * t ^ 2 + 0.017998 * t ^ 3 : Fl M).val := Cl.fadd D s1 m3 (by norm_num) (by norm_num) (by norm_num)
    exact Cl.fmul D s2 (arcsec_fl D) (by norm_num) (by norm_num) (by norm_num) (by norm_num)
  · have a1 : Cl 2005 2008 2004.3109 (2004.3109 : Fl M).val := Cl.lit D (by rw [abs_of_pos] <;> norm_num) (by norm_num)
    have m1 : Cl 4010 194000 _ (2004.3109 * t : Fl M).val := Cl.fmul D a1 h (by norm_num) (by norm_num) (by norm_num) (by norm_num)
    have a2 : Cl 0.43 0.44 0.42665 (0.42665 : Fl M).val := Cl.lit D (by rw [abs_of_pos] <;> norm_num) (by norm_num)
    have a3 : Cl 0.042 0.05 0.041833 (0.041833 : Fl M).val := Cl.lit D (by rw [abs_of_pos] <;> norm_num) (by norm_num)
    have m2 : Cl 1.8 180 _ (0.42665 * t ^ 2 : Fl M).val := Cl.fmul D a2 q2 (by norm_num) (by norm_num) (by norm_num) (by norm_num)
    have m3 : Cl 0.4 60 _ (0.041833 * t ^ 3 : Fl M).val := Cl.fmul D a3 q3 (by norm_num) (by norm_num) (by norm_num) (by norm_num)
    have s1 : Cl 4012 199000 _ (2004.3109 * t - 0.42665 * t ^ 2 : Fl M).val := Cl.fsub D m1 m2 (by norm_num) (by norm_num) (by norm_num)
    have s2 : Cl 4013 204000 _ (2004.3109 * t - 0.42665 * t ^ 2 - 0.041833 * t ^ 3 : Fl M).val := Cl.fsub D s1 m3 (by norm_num) (by norm_num) (by norm_num)
    exact Cl.fmul D s2 (arcsec_fl D) (by norm_num) (by norm_num) (by norm_num) (by norm_num)
  · have a2 : Cl 1.1 1.11 1.09468 (1.09468 : Fl M).val := Cl.lit D (by rw [abs_of_pos] <;> norm_num) (by norm_num)
    have a3 : Cl 0.02 0.03 0.018203 (0.018203 : Fl M).val := Cl.lit D (by rw [abs_of_pos] <;> norm_num) (by norm_num)
    have m2 : Cl 4.5 410 _ (1.09468 * t ^ 2 : Fl M).val := Cl.fmul D a2 q2 (by norm_num) (by norm_num) (by norm_num) (by norm_num)
    have m3 : Cl 0.2 30 _ (0.018203 * t ^ 3 : Fl M).val := Cl.fmul D a3 q3 (by norm_num) (by norm_num) (by norm_num) (by norm_num)
    have s1 : Cl 4619 199500 _ (2306.2181 * t + 1.09468 * t ^ 2 : Fl M).val := Cl.fadd D m1 m2 (by norm_num) (by norm_num) (by norm_num)
    have s2 : Cl 4620 204500 _ (2306.2181 * t + 1.09468 * t ^ 2 + 0.018203 * t ^ 3 : Fl M).val := Cl.fadd D s1 m3 (by norm_num) (by norm_num) (by norm_num)
    exact Cl.fmul D s2 (arcsec_fl D) (by norm_num) (by norm_num) (by norm_num) (by norm_num)

/-- the rotation of the published formulas (with the code's polar motion) as a matrix -/
def iauMatrix (J K xp yp : ℝ) : Mat3 ℝ :=
  let T := centuries K
  matmul3 (matmul3 (eoRotationY (arcsec xp)) (eoRotationX (arcsec yp)))
    (matmul3 (eoRotationZ (gast J K))
      (matmul3
        (matmul3 (eoRotationX (-trueObliquity T)) (matmul3 (eoRotationZ (-nutLon T)) (eoRotationX (obliquity T))))
        (matmul3 (eoRotationZ (-precZ T)) (matmul3 (eoRotationY (precTheta T)) (eoRotationZ (-precZeta T))))))

theorem iauMatrix_rot (J K xp yp : ℝ) : (iauMatrix J K xp yp).IsRotation :=
  ((rot_eoY _).mul (rot_eoX _)).mul ((rot_eoZ _).mul (((rot_eoX _).mul ((rot_eoZ _).mul (rot_eoX _))).mul ((rot_eoZ _).mul ((rot_eoY _).mul (rot_eoZ _)))))

theorem iauMatrix_apply (J K xp yp : ℝ) (v : V3) : matvec3 (iauMatrix J K xp yp) v = turnY (arcsec xp) (turnX (arcsec yp) (pseudoEarthFixed J K v)) := by
  simp only [iauMatrix, matvec3_matmul3, eoX_apply, eoY_apply, eoZ_apply, pseudoEarthFixed, nutate, precess]

theorem ang_neg {x : ℝ} {a : Fl M} (h : Ang c x a.val) : Ang c (-x) (-a).val := by
  obtain ⟨k, hk⟩ := h
  refine ⟨-k, ?_⟩
  rw [val_neg, show -a.val - -x - 2 * Real.pi * ((-k : ℤ) : ℝ) = -(a.val - x - 2 * Real.pi * k) by push_cast; ring, abs_neg]
  exact hk

theorem matrix_iau (D : Double M) {J K : ℝ} {j k xp yp : Fl M} (hJ : Cl 2 75.4 (centuries J) (julianCenturies j).val)
    (hK : Cl 2 80 (centuries K) (julianCenturies k).val) (hx : |xp.val| ≤ 10000) (hy : |yp.val| ≤ 10000) :
    OpNear 3.22e7 (mval (eciMatrixOfJd j k xp yp)) (iauMatrix J K xp.val yp.val) := by
  have g1 := (gast_core D hJ (by norm_num) hK).1
  obtain ⟨p1, p2, p3⟩ := precession_fl D hK
  obtain ⟨n1, n2⟩ := nutation_fl D hK
  have o1 := obliquity_fl D hK
  have o2 : Cl 0.42 99 (trueObliquity (centuries K)) (meanObliquity (julianCenturies k) + (nutationShort (julianCenturies k)).2).val :=
    Cl.fadd D o1 n2 (by norm_num) (by norm_num) (by norm_num)
  have x1 : Cl 0.05 12 (arcsec xp.val) (xp * ARCSEC2RAD : Fl M).val := by
    rw [arcsec_real]; exact Cl.fmul D (Cl.exact hx) (arcsec_fl D) (by norm_num) (by norm_num) (by norm_num) (by norm_num)
  have y1 : Cl 0.05 12 (arcsec yp.val) (yp * ARCSEC2RAD : Fl M).val := by
    rw [arcsec_real]; exact Cl.fmul D (Cl.exact hy) (arcsec_fl D) (by norm_num) (by norm_num) (by norm_num) (by norm_num)
  have rx := (rotY_fl D (Ang.of_cl x1) (by norm_num)).mono (d := 30) (by norm_num)
  have ry := (rotX_fl D (Ang.of_cl y1) (by norm_num)).mono (d := 30) (by norm_num)
  have rg := (rotZ_fl D g1 (by norm_num)).mono (d := 3.214e7) (by norm_num)
  have re := (rotX_fl D (ang_neg (Ang.of_cl o2)) (by norm_num)).mono (d := 160) (by norm_num)
  have rn := (rotZ_fl D (ang_neg (Ang.of_cl n1)) (by norm_num)).mono (d := 20) (by norm_num)
  have ro := (rotX_fl D (Ang.of_cl o1) (by norm_num)).mono (d := 160) (by norm_num)
  have rz := (rotZ_fl D (ang_neg (Ang.of_cl p3)) (by norm_num)).mono (d := 30) (by norm_num)
  have rt := (rotY_fl D (Ang.of_cl p2) (by norm_num)).mono (d := 30) (by norm_num)
  have rs := (rotZ_fl D (ang_neg (Ang.of_cl p1)) (by norm_num)).mono (d := 30) (by norm_num)
  simp only [eciMatrixOfJd, iauMatrix, polarMotionMatrix, nutationMatrix, precessionMatrix]
  refine OpNear.fmul (c := 90) (d := 3.2142e7) D (OpNear.fmul D rx ry (rot_eoY _) (rot_eoX _) ?_ ?_ ?_ ?_)
    (OpNear.fmul (d := 600) D rg (OpNear.fmul (c := 400) (d := 150) D
      (OpNear.fmul (d := 210) D re (OpNear.fmul D rn ro (rot_eoZ _) (rot_eoX _) ?_ ?_ ?_ ?_) (rot_eoX _) ((rot_eoZ _).mul (rot_eoX _)) ?_ ?_ ?_ ?_)
      (OpNear.fmul (d := 90) D rz (OpNear.fmul D rt rs (rot_eoY _) (rot_eoZ _) ?_ ?_ ?_ ?_) (rot_eoZ _) ((rot_eoY _).mul (rot_eoZ _)) ?_ ?_ ?_ ?_)
      ((rot_eoX _).mul ((rot_eoZ _).mul (rot_eoX _))) ((rot_eoZ _).mul ((rot_eoY _).mul (rot_eoZ _))) ?_ ?_ ?_ ?_)
      (rot_eoZ _) (((rot_eoX _).mul ((rot_eoZ _).mul (rot_eoX _))).mul ((rot_eoZ _).mul ((rot_eoY _).mul (rot_eoZ _)))) ?_ ?_ ?_ ?_)
    ((rot_eoY _).mul (rot_eoX _))
    ((rot_eoZ _).mul (((rot_eoX _).mul ((rot_eoZ _).mul (rot_eoX _))).mul ((rot_eoZ _).mul ((rot_eoY _).mul (rot_eoZ _))))) ?_ ?_ ?_ ?_
  all_goals norm_num

theorem eciToEcefMatrix_fl (D : Double M) {t : DateTime} (ht : t.Valid) (hy : Modern (Spec.instant t)) (d xp yp : Fl M) (hd : |d.val| ≤ 1)
    (hx : |xp.val| ≤ 10000) (hyp : |yp.val| ≤ 10000) :
    ∃ m : Mat3 (Fl M), eciToEcefMatrix t d xp yp = .ok m ∧
      OpNear 3.22e7 (mval m) (iauMatrix (1721425.5 + ((Spec.instant t : ℝ) + 1000000 * d.val) / 86400000000) (jdTt (Spec.instant t)) xp.val yp.val) := by
  obtain ⟨a, b, ja, jb, ha, hja, hb, hjb, hA, hB⟩ := julian_dates_fl D ht hy d hd
  refine ⟨eciMatrixOfJd ja jb xp yp, ?_, matrix_iau D hA hB hx hyp⟩
  simp only [eciToEcefMatrix, ha, hja, hb, hjb, bind, Except.bind, pure, Except.pure]

/-- **C87.** `eci2ecef` in double precision: for every point, every datetime from 1800 to 2200, every UT1−UTC of at most a second and polar motion up to
10 000″ the call succeeds and the result is the point the exact formulas (IAU 1976/1980/1982, and the code's polar motion) give at the exact instant, within
3.6·10⁻⁹ of its distance from the origin (25 mm at 7000 km). -/
theorem eci2ecef_float (D : Double M) (x y z : Fl M) {t : DateTime} (ht : t.Valid) (hy : Modern (Spec.instant t)) (d xp yp : Fl M) (hd : |d.val| ≤ 1)
    (hx : |xp.val| ≤ 10000) (hyp : |yp.val| ≤ 10000) :
    ∃ p, eci2ecef x y z t d xp yp = .ok p ∧
      Spec.dist (vval p) (turnY (arcsec xp.val) (turnX (arcsec yp.val)
        (pseudoEarthFixed (1721425.5 + ((Spec.instant t : ℝ) + 1000000 * d.val) / 86400000000) (jdTt (Spec.instant t)) (x.val, y.val, z.val))))
        ≤ 3.6e-9 * Spec.norm (x.val, y.val, z.val) := by
  obtain ⟨m, hm, hO⟩ := eciToEcefMatrix_fl D ht hy d xp yp hd hx hyp
  refine ⟨matvec3 m (x, y, z), by simp only [eci2ecef, hm]; rfl, ?_⟩
  have h1 := hO.fvec D (iauMatrix_rot _ _ _ _) (by norm_num) (x, y, z) (e := 3.221e7) (by norm_num)
  rw [iauMatrix_apply] at h1
  refine h1.trans (mul_le_mul_of_nonneg_right ?_ (Spec.norm_nonneg _))
  have := w53_le
  norm_num at this ⊢
  linarith

/-- **C87.** `ecef2eci` in double precision: the result is within 3.6·10⁻⁹ of its distance from the origin of the point that the exact formulas carry to the
given one. -/
theorem ecef2eci_float (D : Double M) (x y z : Fl M) {t : DateTime} (ht : t.Valid) (hy : Modern (Spec.instant t)) (d xp yp : Fl M) (hd : |d.val| ≤ 1)
    (hx : |xp.val| ≤ 10000) (hyp : |yp.val| ≤ 10000) :
    ∃ p, ecef2eci x y z t d xp yp = .ok p ∧ ∃ q : V3,
      turnY (arcsec xp.val) (turnX (arcsec yp.val)
        (pseudoEarthFixed (1721425.5 + ((Spec.instant t : ℝ) + 1000000 * d.val) / 86400000000) (jdTt (Spec.instant t)) q)) = (x.val, y.val, z.val) ∧
      Spec.dist (vval p) q ≤ 3.6e-9 * Spec.norm (x.val, y.val, z.val) := by
  obtain ⟨m, hm, hO⟩ := eciToEcefMatrix_fl D ht hy d xp yp hd hx hyp
  have hR := iauMatrix_rot (1721425.5 + ((Spec.instant t : ℝ) + 1000000 * d.val) / 86400000000) (jdTt (Spec.instant t)) xp.val yp.val
  refine ⟨matvec3 (transpose3 m) (x, y, z), by simp only [ecef2eci, hm]; rfl,
    matvec3 (transpose3 (iauMatrix (1721425.5 + ((Spec.instant t : ℝ) + 1000000 * d.val) / 86400000000) (jdTt (Spec.instant t)) xp.val yp.val)) (x.val, y.val, z.val), ?_, ?_⟩
  · rw [← iauMatrix_apply, hR.right]
  · have hT : OpNear 3.22e7 (mval (transpose3 m)) _ := hO.transpose (by norm_num)
    have h1 := hT.fvec D hR.transpose (by norm_num) (x, y, z) (e := 3.221e7) (by norm_num)
    refine h1.trans (mul_le_mul_of_nonneg_right ?_ (Spec.norm_nonneg _))
    have := w53_le
    norm_num at this ⊢
    linarith

/-- the hypotheses are met by IEEE arithmetic, a date given in Indian time and the Earth orientation parameters of that day -/
example : ∃ p q, eci2ecef (Fl.of binary64 7000000) (Fl.of _ 1000) (Fl.of _ 0) exampleIst (Fl.of _ 0.1) (Fl.of _ 0.05) (Fl.of _ 0.3) = .ok p ∧
    ecef2eci p.1 p.2.1 p.2.2 exampleIst (Fl.of _ 0.1) (Fl.of _ 0.05) (Fl.of _ 0.3) = .ok q ∧
    Spec.dist (vval q) (7000000, 1000, 0) ≤ 1e-13 * Spec.norm (7000000, 1000, 0) := by
  have hm : Modern (Spec.instant exampleIst) := by
    rw [exampleIst_instant]; unfold Modern; rw [abs_le]; constructor <;> norm_num
  obtain ⟨p, hp, -⟩ := eci2ecef_float binary64_double (Fl.of _ 7000000) (Fl.of _ 1000) (Fl.of _ 0) exampleIst_valid hm (Fl.of _ 0.1) (Fl.of _ 0.05) (Fl.of _ 0.3)
    (by simp only [of_val]; rw [abs_le]; constructor <;> norm_num) (by simp only [of_val]; rw [abs_le]; constructor <;> norm_num)
    (by simp only [of_val]; rw [abs_le]; constructor <;> norm_num)
  obtain ⟨⟨q, hq, e⟩, -⟩ := eci_roundtrip_float binary64_double _ _ _ _ _ _ _ _ hp
  exact ⟨p, q, hp, hq, e⟩

end
end Pymap3d
