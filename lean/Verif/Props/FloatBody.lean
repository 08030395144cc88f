import Verif.Props.FloatEci
import Verif.Props.Body
import Verif.Props.FloatFrames
/-!
**C88** the body-frame conversions and the rotation matrices in double precision.
-/
set_option linter.unusedSectionVars false
namespace Pymap3d
open Py PyFloat
open Spec hiding norm dist
noncomputable section

variable {M : FloatArith} {c θ : ℝ}

theorem bodyX_fl (D : Double M) {a : Fl M} (h : Ang c θ a.val) (hc : 0 ≤ c) : OpNear (1.415 * (c + 8.1)) (mval (rotationX a)) (rotationX θ) := by
  have e1 : mval (rotationX a) = ⟨1, 0, 0, 0, (PyMath.cos a).val, -(PyMath.sin a).val, 0, - -(PyMath.sin a).val, (PyMath.cos a).val⟩ := by
    simp only [mval, rotationX, fl_zero D, fl_one D, neg_neg]; rfl
  have e2 : rotationX θ = ⟨1, 0, 0, 0, Real.cos θ, -Real.sin θ, 0, - -Real.sin θ, Real.cos θ⟩ := by simp only [rotationX, lit_0, lit_1, neg_neg]; rfl
  rw [e1, e2]
  exact op_X (by linarith) (h.cos D le_rfl).2 (h.sin D le_rfl).neg.2

theorem bodyY_fl (D : Double M) {a : Fl M} (h : Ang c θ a.val) (hc : 0 ≤ c) : OpNear (1.415 * (c + 8.1)) (mval (rotationY a)) (rotationY θ) := by
  have e1 : mval (rotationY a) = ⟨(PyMath.cos a).val, 0, - -(PyMath.sin a).val, 0, 1, 0, -(PyMath.sin a).val, 0, (PyMath.cos a).val⟩ := by
    simp only [mval, rotationY, fl_zero D, fl_one D, neg_neg]; rfl
  have e2 : rotationY θ = ⟨Real.cos θ, 0, - -Real.sin θ, 0, 1, 0, -Real.sin θ, 0, Real.cos θ⟩ := by simp only [rotationY, lit_0, lit_1, neg_neg]; rfl
  rw [e1, e2]
  exact op_Y (by linarith) (h.cos D le_rfl).2 (h.sin D le_rfl).neg.2

theorem bodyZ_fl (D : Double M) {a : Fl M} (h : Ang c θ a.val) (hc : 0 ≤ c) : OpNear (1.415 * (c + 8.1)) (mval (rotationZ a)) (rotationZ θ) := by
  have e1 : mval (rotationZ a) = ⟨(PyMath.cos a).val, -(PyMath.sin a).val, 0, - -(PyMath.sin a).val, (PyMath.cos a).val, 0, 0, 0, 1⟩ := by
    simp only [mval, rotationZ, fl_zero D, fl_one D, neg_neg]; rfl
  have e2 : rotationZ θ = ⟨Real.cos θ, -Real.sin θ, 0, - -Real.sin θ, Real.cos θ, 0, 0, 0, 1⟩ := by simp only [rotationZ, lit_0, lit_1, neg_neg]; rfl
  rw [e1, e2]
  exact op_Z (by linarith) (h.cos D le_rfl).2 (h.sin D le_rfl).neg.2

/-- the attitude matrix with given angles in radians -/
def attitude {F : Type} [Add F] [Sub F] [Mul F] [Div F] [Neg F] [Pow F Nat] [OfScientific F] [LT F] [LE F] [DecidableLT F] [DecidableLE F] [PyMath F]
    (a b c : F) : Mat3 F := transpose3 (matmul3 (rotationZ a) (matmul3 (rotationY b) (rotationX c)))

theorem rot_attitude (a b c : ℝ) : (attitude a b c).IsRotation := ((rot_Z _).mul ((rot_Y _).mul (rot_X _))).transpose

theorem attitude_fl (D : Double M) {α β γ : ℝ} {a b g : Fl M} (ha : Ang c α a.val) (hb : Ang c β b.val) (hg : Ang c γ g.val) (h0 : 0 ≤ c) (hc : c ≤ 1e6) :
    OpNear (4.2451 * c + 91) (mval (attitude a b g)) (attitude α β γ) := by
  have h : OpNear (4.2451 * c + 91) (mval (matmul3 (rotationZ a) (matmul3 (rotationY b) (rotationX g)))) (matmul3 (rotationZ α) (matmul3 (rotationY β) (rotationX γ))) := by
    refine OpNear.fmul D (bodyZ_fl D ha h0) (OpNear.fmul D (bodyY_fl D hb h0) (bodyX_fl D hg h0) (rot_Y _) (rot_X _) ?_ ?_ ?_ le_rfl)
      (rot_Z _) ((rot_Y _).mul (rot_X _)) ?_ ?_ ?_ ?_
    all_goals norm_num at hc ⊢; linarith
  exact h.transpose (by linarith)

/-- the four local frames -/
inductive LocalFrame | ned | enu | sez | nwu

section
variable {F : Type} [Add F] [Sub F] [Mul F] [Div F] [Neg F] [Pow F Nat] [OfScientific F] [LT F] [LE F] [DecidableLT F] [DecidableLE F] [PyMath F]

/-- the name the code knows a frame by -/
def LocalFrame.name : LocalFrame → String
  | ned => "ned" | enu => "enu" | sez => "sez" | nwu => "nwu"

/-- the library function from a local frame to the body frame, degrees or radians -/
def LocalFrame.toBody : LocalFrame → F × F × F → F → F → F → Bool → Except PyErr (F × F × F)
  | ned, v, yaw, pitch, roll, deg => ned2body v.1 v.2.1 v.2.2 yaw pitch roll "zyx" deg
  | enu, v, yaw, pitch, roll, deg => enu2body v.1 v.2.1 v.2.2 yaw pitch roll "zyx" deg
  | sez, v, yaw, pitch, roll, deg => sez2body v.1 v.2.1 v.2.2 yaw pitch roll "zyx" deg
  | nwu, v, yaw, pitch, roll, deg => nwu2body v.1 v.2.1 v.2.2 yaw pitch roll "zyx" deg

/-- the library function from the body frame to a local frame -/
def LocalFrame.fromBody : LocalFrame → F × F × F → F → F → F → Bool → Except PyErr (F × F × F)
  | ned, v, yaw, pitch, roll, deg => body2ned v.1 v.2.1 v.2.2 yaw pitch roll "zyx" deg
  | enu, v, yaw, pitch, roll, deg => body2enu v.1 v.2.1 v.2.2 yaw pitch roll "zyx" deg
  | sez, v, yaw, pitch, roll, deg => body2sez v.1 v.2.1 v.2.2 yaw pitch roll "zyx" deg
  | nwu, v, yaw, pitch, roll, deg => body2nwu v.1 v.2.1 v.2.2 yaw pitch roll "zyx" deg

/-- east, north, up in the order and with the signs of another frame -/
def LocalFrame.ofEnu : LocalFrame → F × F × F → F × F × F
  | ned, p => (p.2.1, p.1, -p.2.2)
  | enu, p => p
  | sez, p => (-p.2.1, p.1, p.2.2)
  | nwu, p => (p.2.1, -p.1, p.2.2)

/-- the matrix of the code, from that for NED -/
def LocalFrame.mat : LocalFrame → Mat3 F → Mat3 F
  | ned, B => B
  | enu, B => matmul3 B ENU2NED
  | sez, B => matmul3 (matmul3 B ENU2NED) (transpose3 ENU2SEZ)
  | nwu, B => matmul3 (matmul3 B ENU2NED) (transpose3 ENU2NWU)

theorem LocalFrame.toBody_eq (f : LocalFrame) (v : F × F × F) (yaw pitch roll : F) (deg : Bool) :
    f.toBody v yaw pitch roll deg = .ok (matvec3 (f.mat (attitude (inAngle deg yaw) (inAngle deg pitch) (inAngle deg roll))) v) := by
  cases f <;> rfl
theorem LocalFrame.fromBody_eq (f : LocalFrame) (v : F × F × F) (yaw pitch roll : F) (deg : Bool) :
    f.fromBody v yaw pitch roll deg = .ok (matvec3 (transpose3 (f.mat (attitude (inAngle deg yaw) (inAngle deg pitch) (inAngle deg roll)))) v) := by
  cases f <;> rfl

/-- the library's matrix from ECEF to a local frame -/
def LocalFrame.ecefMat : LocalFrame → F → F → Bool → Mat3 F
  | ned, lat0, lon0, deg => ecef2ned_matrix lat0 lon0 deg
  | enu, lat0, lon0, deg => ecef2enu_matrix lat0 lon0 deg
  | sez, lat0, lon0, deg => ecef2sez_matrix lat0 lon0 deg
  | nwu, lat0, lon0, deg => ecef2nwu_matrix lat0 lon0 deg

theorem LocalFrame.ecef2bodyv_eq (f : LocalFrame) (v : F × F × F) (lat0 lon0 yaw pitch roll : F) (deg : Bool) :
    ecef2bodyv v.1 v.2.1 v.2.2 lat0 lon0 yaw pitch roll f.name "zyx" deg =
      .ok (matvec3 (matmul3 (f.mat (attitude (inAngle deg yaw) (inAngle deg pitch) (inAngle deg roll))) (f.ecefMat lat0 lon0 deg)) v) := by
  cases f <;> rfl
theorem LocalFrame.body2ecefv_eq (f : LocalFrame) (v : F × F × F) (lat0 lon0 yaw pitch roll : F) (deg : Bool) :
    body2ecefv v.1 v.2.1 v.2.2 lat0 lon0 yaw pitch roll f.name "zyx" deg =
      .ok (matvec3 (transpose3 (matmul3 (f.mat (attitude (inAngle deg yaw) (inAngle deg pitch) (inAngle deg roll))) (f.ecefMat lat0 lon0 deg))) v) := by
  cases f <;> rfl
theorem LocalFrame.ecef2body_eq (f : LocalFrame) (v : F × F × F) (lat0 lon0 h0 yaw pitch roll : F) (ell : Option (Ellipsoid F)) (deg : Bool) :
    ecef2body v.1 v.2.1 v.2.2 lat0 lon0 h0 yaw pitch roll ell f.name "zyx" deg = f.toBody (f.ofEnu (ecef2enu v.1 v.2.1 v.2.2 lat0 lon0 h0 ell deg)) yaw pitch roll deg := by
  cases f <;> rfl
theorem LocalFrame.geodetic2body_eq (f : LocalFrame) (lat lon h lat0 lon0 h0 yaw pitch roll : F) (ell : Option (Ellipsoid F)) (deg : Bool) :
    geodetic2body lat lon h lat0 lon0 h0 yaw pitch roll ell f.name "zyx" deg = f.toBody (f.ofEnu (geodetic2enu lat lon h lat0 lon0 h0 ell deg)) yaw pitch roll deg := by
  cases f <;> rfl
end

theorem OpNear.refl (A : Mat3 ℝ) : OpNear 0 A A := fun v => by
  have : Spec.dist (matvec3 A v) (matvec3 A v) = 0 := by simp [Spec.dist, Spec.norm, sub, dot]
  rw [this]; simp

theorem exact_ENU2NED (D : Double M) : OpNear 0 (mval (ENU2NED : Mat3 (Fl M))) ENU2NED := by
  have : mval (ENU2NED : Mat3 (Fl M)) = ENU2NED := by simp only [mval, ENU2NED, fl_zero D, fl_one D, val_neg, lit_0, lit_1]
  rw [this]; exact OpNear.refl _
theorem exact_ENU2SEZ (D : Double M) : OpNear 0 (mval (ENU2SEZ : Mat3 (Fl M))) ENU2SEZ := by
  have : mval (ENU2SEZ : Mat3 (Fl M)) = ENU2SEZ := by simp only [mval, ENU2SEZ, fl_zero D, fl_one D, val_neg, lit_0, lit_1]
  rw [this]; exact OpNear.refl _
theorem exact_ENU2NWU (D : Double M) : OpNear 0 (mval (ENU2NWU : Mat3 (Fl M))) ENU2NWU := by
  have : mval (ENU2NWU : Mat3 (Fl M)) = ENU2NWU := by simp only [mval, ENU2NWU, fl_zero D, fl_one D, val_neg, lit_0, lit_1]
  rw [this]; exact OpNear.refl _

theorem LocalFrame.rot (f : LocalFrame) {B : Mat3 ℝ} (h : B.IsRotation) : (f.mat B).IsRotation := by
  cases f
  · exact h
  · exact h.mul rot_ENU2NED
  · exact (h.mul rot_ENU2NED).mul rot_ENU2SEZ.transpose
  · exact (h.mul rot_ENU2NED).mul rot_ENU2NWU.transpose

theorem LocalFrame.near (D : Double M) (f : LocalFrame) {P : Mat3 (Fl M)} {B : Mat3 ℝ} (r : B.IsRotation) (h : OpNear c (mval P) B) (h0 : 0 ≤ c) (hc : c ≤ 1e6) :
    OpNear (1.0001 * c + 56) (mval (f.mat P)) (f.mat B) := by
  have e : OpNear (1.00001 * c + 27.6) (mval (matmul3 P ENU2NED)) (matmul3 B ENU2NED) :=
    OpNear.fmul D h (exact_ENU2NED D) r rot_ENU2NED h0 (by norm_num at hc ⊢; linarith) (by norm_num) (by linarith)
  have r1 := r.mul rot_ENU2NED
  cases f
  · exact h.mono (by linarith)
  · exact e.mono (by linarith)
  · exact OpNear.fmul D e ((exact_ENU2SEZ D).transpose le_rfl) r1 rot_ENU2SEZ.transpose (by linarith) (by norm_num at hc ⊢; linarith) (by norm_num) (by norm_num at hc ⊢; linarith)
  · exact OpNear.fmul D e ((exact_ENU2NWU D).transpose le_rfl) r1 rot_ENU2NWU.transpose (by linarith) (by norm_num at hc ⊢; linarith) (by norm_num) (by norm_num at hc ⊢; linarith)

/-- applying a computed rotation and then its transpose -/
theorem OpNear.roundTrip (D : Double M) {P : Mat3 (Fl M)} {A : Mat3 ℝ} (hO : OpNear c (mval P) A) (hR : A.IsRotation) (hc : c ≤ 1e5) (h0 : 0 ≤ c) (v : Fl M × Fl M × Fl M) :
    Spec.dist (vval (matvec3 (transpose3 P) (matvec3 P v))) (vval v) ≤ (2.0001 * c + 42.1) * w53 * Spec.norm (vval v) ∧
    |Spec.norm (vval (matvec3 P v)) - Spec.norm (vval v)| ≤ (c + 21) * w53 * Spec.norm (vval v) := by
  have hT : OpNear c (mval (transpose3 P)) (transpose3 A) := hO.transpose h0
  have hw := w53_pos
  have hw2 := w53_le
  have hn := Spec.norm_nonneg (vval v)
  have h1 := hO.fvec D hR (by norm_num at hc ⊢; linarith) v (e := c + 21) le_rfl
  obtain ⟨p, hp⟩ : ∃ p, p = matvec3 P v := ⟨_, rfl⟩
  rw [← hp] at h1 ⊢
  have n1 := norm_le_add (vval p) (matvec3 A (vval v))
  have n2 := norm_le_add (matvec3 A (vval v)) (vval p)
  rw [Spec.dist_comm] at n2
  rw [hR.norm] at n1 n2
  constructor
  · have h2 := hT.fvec D hR.transpose (by norm_num at hc ⊢; linarith) p (e := c + 21) le_rfl
    have h3 := dist_tri (vval (matvec3 (transpose3 P) p)) (matvec3 (transpose3 A) (vval p)) (vval v)
    have h4 : Spec.dist (matvec3 (transpose3 A) (vval p)) (vval v) = Spec.dist (vval p) (matvec3 A (vval v)) := by
      conv_lhs => rw [← hR.left (vval v)]
      have e : ∀ (A : Mat3 ℝ) (p q : V3), sub (matvec3 A p) (matvec3 A q) = matvec3 A (sub p q) := by
        intro A p q; simp only [matvec3_real, sub]; refine Prod.ext ?_ (Prod.ext ?_ ?_) <;> dsimp only <;> ring
      rw [Spec.dist, e, hR.transpose.norm]; rfl
    have h5 : (c + 21) * w53 ≤ 1e-9 := by
      have : (c + 21) * w53 ≤ (1e5 + 21) * 1.111e-16 := mul_le_mul (by linarith) hw2 hw.le (by norm_num)
      refine this.trans (by norm_num)
    have h6 : Spec.norm (vval p) ≤ 1.00001 * Spec.norm (vval v) := by
      have := mul_le_mul_of_nonneg_right h5 hn
      norm_num at this ⊢; linarith
    have h7 : (c + 21) * w53 * Spec.norm (vval p) ≤ (c + 21) * w53 * (1.00001 * Spec.norm (vval v)) :=
      mul_le_mul_of_nonneg_left h6 (mul_nonneg (by linarith) hw.le)
    have h8 : 0 ≤ w53 * Spec.norm (vval v) := mul_nonneg hw.le hn
    have h9 : 0 ≤ c * (w53 * Spec.norm (vval v)) := mul_nonneg h0 h8
    rw [h4] at h3
    generalize Spec.norm (vval v) = N at *
    nlinarith
  · rw [abs_le]
    constructor <;> linarith

/-- an angle given in degrees or radians -/
theorem inAngle_ang (D : Double M) (deg : Bool) {x : ℝ} (h : |toRad deg x| ≤ 2 * Real.pi) : Ang 51 (toRad deg x) (inAngle deg (Fl.of M x)).val := by
  refine ⟨0, ?_⟩
  have h1 := (inAngle_near (M := M) deg x).abs_sub M.small
  have h2 := g_le M.small (k := 8) (by norm_num)
  have hu : M.u ≤ w53 := D.u_le
  have hpi := Real.pi_lt_d4
  have hw := w53_pos
  simp only [Int.cast_zero, mul_zero, sub_zero]
  have h3 : (g M.u 8 - 1) * |toRad deg x| ≤ (1.002 * 8 * w53) * 6.2832 :=
    mul_le_mul (h2.trans (by push_cast; linarith)) (by linarith) (abs_nonneg _) (by linarith)
  linarith

/-- attitude angles of at most a full turn -/
structure Attitude (deg : Bool) (yaw pitch roll : ℝ) : Prop where
  yaw : |toRad deg yaw| ≤ 2 * Real.pi
  pitch : |toRad deg pitch| ≤ 2 * Real.pi
  roll : |toRad deg roll| ≤ 2 * Real.pi

theorem Attitude.near (D : Double M) {deg : Bool} {yaw pitch roll : ℝ} (h : Attitude deg yaw pitch roll) (f : LocalFrame) :
    OpNear 370 (mval (f.mat (attitude (inAngle deg (Fl.of M yaw)) (inAngle deg (Fl.of M pitch)) (inAngle deg (Fl.of M roll)))))
      (f.mat (attitude (toRad deg yaw) (toRad deg pitch) (toRad deg roll))) :=
  (f.near D (rot_attitude _ _ _) (attitude_fl D (inAngle_ang D deg h.yaw) (inAngle_ang D deg h.pitch) (inAngle_ang D deg h.roll) (by norm_num) (by norm_num))
    (by norm_num) (by norm_num)).mono (by norm_num)

/-- **C88.** Vectors to and from the body frame in double precision, for all four local frames and attitude angles of at most a full turn: within
5·10⁻¹⁴ of their length of the exact result. -/
theorem body_float (D : Double M) (f : LocalFrame) (v : V3) {deg : Bool} {yaw pitch roll : ℝ} (h : Attitude deg yaw pitch roll) :
    (∃ p P, f.toBody (Fl.of M v.1, Fl.of M v.2.1, Fl.of M v.2.2) (Fl.of M yaw) (Fl.of M pitch) (Fl.of M roll) deg = .ok p ∧
      f.toBody v yaw pitch roll deg = .ok P ∧ Spec.dist (vval p) P ≤ 5e-14 * Spec.norm v) ∧
    (∃ p P, f.fromBody (Fl.of M v.1, Fl.of M v.2.1, Fl.of M v.2.2) (Fl.of M yaw) (Fl.of M pitch) (Fl.of M roll) deg = .ok p ∧
      f.fromBody v yaw pitch roll deg = .ok P ∧ Spec.dist (vval p) P ≤ 5e-14 * Spec.norm v) := by
  have hO := h.near (M := M) D f
  have hR := f.rot (rot_attitude (toRad deg yaw) (toRad deg pitch) (toRad deg roll))
  have hw := w53_le
  have hn := Spec.norm_nonneg v
  refine ⟨⟨_, _, f.toBody_eq _ _ _ _ _, f.toBody_eq _ _ _ _ _, ?_⟩, ⟨_, _, f.fromBody_eq _ _ _ _ _, f.fromBody_eq _ _ _ _ _, ?_⟩⟩
  · exact (hO.fvec D hR (by norm_num) (Fl.of M v.1, Fl.of M v.2.1, Fl.of M v.2.2) (e := 391) (by norm_num)).trans
      (mul_le_mul_of_nonneg_right (by linarith) hn)
  · have hT := hO.transpose (by norm_num)
    exact (OpNear.fvec (P := transpose3 _) D hT hR.transpose (by norm_num) (Fl.of M v.1, Fl.of M v.2.1, Fl.of M v.2.2) (e := 391) (by norm_num)).trans
      (mul_le_mul_of_nonneg_right (by linarith) hn)

theorem attitude_ideal (D : Double M) (a b g : Fl M) : OpNear 91 (mval (attitude a b g)) (attitude a.val b.val g.val) :=
  (attitude_fl D (ang_refl _) (ang_refl _) (ang_refl _) le_rfl (by norm_num)).mono (by norm_num)

/-- **C88.** In double precision going to the body frame and back, in either order, returns the vector, and lengths are kept, to 5·10⁻¹⁴ of the length,
for all attitude angles whatever. -/
theorem body_roundtrip_float (D : Double M) (f : LocalFrame) (v : Fl M × Fl M × Fl M) (yaw pitch roll : Fl M) (deg : Bool) :
    (∃ p q, f.toBody v yaw pitch roll deg = .ok p ∧ f.fromBody p yaw pitch roll deg = .ok q ∧ Spec.dist (vval q) (vval v) ≤ 5e-14 * Spec.norm (vval v) ∧
      |Spec.norm (vval p) - Spec.norm (vval v)| ≤ 5e-14 * Spec.norm (vval v)) ∧
    (∃ p q, f.fromBody v yaw pitch roll deg = .ok p ∧ f.toBody p yaw pitch roll deg = .ok q ∧ Spec.dist (vval q) (vval v) ≤ 5e-14 * Spec.norm (vval v) ∧
      |Spec.norm (vval p) - Spec.norm (vval v)| ≤ 5e-14 * Spec.norm (vval v)) := by
  have hO := f.near D (rot_attitude _ _ _) (attitude_ideal D (inAngle deg yaw) (inAngle deg pitch) (inAngle deg roll)) (by norm_num) (by norm_num)
  have hR := f.rot (rot_attitude (inAngle deg yaw).val (inAngle deg pitch).val (inAngle deg roll).val)
  have hw := w53_le
  have hw0 := w53_pos
  have hn := Spec.norm_nonneg (vval v)
  have hT := hO.transpose (by norm_num)
  obtain ⟨r1, r2⟩ := hO.roundTrip D hR (by norm_num) (by norm_num) v
  obtain ⟨s1, s2⟩ := OpNear.roundTrip (P := transpose3 _) D hT hR.transpose (by norm_num) (by norm_num) v
  refine ⟨⟨_, _, f.toBody_eq _ _ _ _ _, f.fromBody_eq _ _ _ _ _, ?_, ?_⟩, ⟨_, _, f.fromBody_eq _ _ _ _ _, f.toBody_eq _ _ _ _ _, ?_, ?_⟩⟩
  · exact r1.trans (mul_le_mul_of_nonneg_right (by norm_num at hw ⊢; linarith) hn)
  · exact r2.trans (mul_le_mul_of_nonneg_right (by norm_num at hw ⊢; linarith) hn)
  · exact s1.trans (mul_le_mul_of_nonneg_right (by norm_num at hw ⊢; linarith) hn)
  · exact s2.trans (mul_le_mul_of_nonneg_right (by norm_num at hw ⊢; linarith) hn)

/-! ### the matrices from ECEF to the local frames -/

theorem enuMat_fl (D : Double M) {φ l : ℝ} {a b : Fl M} (ha : Ang c φ a.val) (hb : Ang c l b.val) (h0 : 0 ≤ c) (hc : c ≤ 1e6) :
    OpNear (6.01 * c + 53) (mval (ecef2enu_matrix a b false)) (ecef2enu_matrix φ l false) := by
  have sa := ha.sin D (le_refl (c + 8.1))
  have ca := ha.cos D (le_refl (c + 8.1))
  have sb := hb.sin D (le_refl (c + 8.1))
  have cb := hb.cos D (le_refl (c + 8.1))
  have pr : ∀ {x y : ℝ} {p q : Fl M}, Cl 1 (c + 8.1) x p.val → Cl 1 (c + 8.1) y q.val → Cl 1 (2.003 * c + 17.65) (x * y) (p * q).val := fun h k =>
    Cl.fmul D h k (by norm_num at hc ⊢; linarith) (by norm_num at hc ⊢; linarith) (by norm_num) (by norm_num at hc ⊢; linarith)
  have up : ∀ {x p : ℝ}, Cl 1 (c + 8.1) x p → |p - x| ≤ (2.003 * c + 17.65) * w53 := fun h =>
    h.2.trans (mul_le_mul_of_nonneg_right (by linarith) w53_pos.le)
  have key : OpNear (3 * (2.003 * c + 17.65)) (mval (ecef2enu_matrix a b false)) (ecef2enu_matrix φ l false) := by
    refine OpNear.entries (up sb.neg) (up cb) ?_ (pr sa.neg cb).2 (pr sa.neg sb).2 (up ca) (pr ca cb).2 (pr ca sb).2 (up sa)
    have e : (mval (ecef2enu_matrix a b false)).m02 = 0 := fl_zero D
    have e' : (ecef2enu_matrix φ l false).m02 = 0 := lit_0
    rw [e, e', sub_self, abs_zero]
    exact mul_nonneg (by linarith) w53_pos.le
  exact key.mono (by linarith)

theorem LocalFrame.rot_ecef (f : LocalFrame) (lat0 lon0 : ℝ) (deg : Bool) : (f.ecefMat lat0 lon0 deg).IsRotation := by
  cases f
  · exact rot_ENU2NED.mul (rot_ecef2enu _ _ _)
  · exact rot_ecef2enu _ _ _
  · exact rot_ENU2SEZ.mul (rot_ecef2enu _ _ _)
  · exact rot_ENU2NWU.mul (rot_ecef2enu _ _ _)

theorem LocalFrame.ecef_near (D : Double M) (f : LocalFrame) {φ l : ℝ} {a b : Fl M} (ha : Ang c φ a.val) (hb : Ang c l b.val) (h0 : 0 ≤ c) (hc : c ≤ 1e6) :
    OpNear (6.01 * c + 81) (mval (f.ecefMat a b false)) (f.ecefMat φ l false) := by
  have e := enuMat_fl D ha hb h0 hc
  have r := rot_ecef2enu φ l false
  cases f
  · exact OpNear.fmul D (exact_ENU2NED D) e rot_ENU2NED r le_rfl (by norm_num) (by norm_num at hc ⊢; linarith) (by linarith)
  · exact e.mono (by linarith)
  · exact OpNear.fmul D (exact_ENU2SEZ D) e rot_ENU2SEZ r le_rfl (by norm_num) (by norm_num at hc ⊢; linarith) (by linarith)
  · exact OpNear.fmul D (exact_ENU2NWU D) e rot_ENU2NWU r le_rfl (by norm_num) (by norm_num at hc ⊢; linarith) (by linarith)

/-- the matrices only see the angles in radians -/
theorem LocalFrame.ecefMat_rad {F : Type} [Add F] [Sub F] [Mul F] [Div F] [Neg F] [Pow F Nat] [OfScientific F] [LT F] [LE F] [DecidableLT F] [DecidableLE F] [PyMath F]
    (f : LocalFrame) (lat0 lon0 : F) (deg : Bool) : f.ecefMat lat0 lon0 deg = f.ecefMat (inAngle deg lat0) (inAngle deg lon0) false := by
  cases f <;> rfl

/-- **C88.** The rotation matrices from ECEF to the local frames in double precision, for latitude and longitude of at most a full turn: applied (exactly) to
any vector they give the exact local components, and their transposes the exact ECEF components, within 4.5·10⁻¹⁴ of the length of the vector. -/
theorem local_matrix_float (D : Double M) (f : LocalFrame) (v : V3) {deg : Bool} {lat0 lon0 : ℝ} (hlat : |toRad deg lat0| ≤ 2 * Real.pi) (hlon : |toRad deg lon0| ≤ 2 * Real.pi) :
    Spec.dist (matvec3 (mval (f.ecefMat (Fl.of M lat0) (Fl.of M lon0) deg)) v) (matvec3 (f.ecefMat lat0 lon0 deg) v) ≤ 4.5e-14 * Spec.norm v ∧
    Spec.dist (matvec3 (mval (transpose3 (f.ecefMat (Fl.of M lat0) (Fl.of M lon0) deg))) v) (matvec3 (transpose3 (f.ecefMat lat0 lon0 deg)) v) ≤ 4.5e-14 * Spec.norm v := by
  have hO := f.ecef_near D (inAngle_ang (M := M) D deg hlat) (inAngle_ang (M := M) D deg hlon) (by norm_num) (by norm_num)
  rw [f.ecefMat_rad lat0 lon0, f.ecefMat_rad (Fl.of M lat0) (Fl.of M lon0)]
  have hw := w53_le
  have hn := Spec.norm_nonneg v
  exact ⟨(hO v).trans (mul_le_mul_of_nonneg_right (by norm_num at hw ⊢; linarith) hn),
    (hO.transpose (by norm_num) v).trans (mul_le_mul_of_nonneg_right (by norm_num at hw ⊢; linarith) hn)⟩

/-- **C88.** `ecef2bodyv` and `body2ecefv` in double precision: within 10⁻¹³ of the length of the vector of the exact result. -/
theorem ecef2bodyv_float (D : Double M) (f : LocalFrame) (v : V3) {deg : Bool} {lat0 lon0 yaw pitch roll : ℝ} (hlat : |toRad deg lat0| ≤ 2 * Real.pi)
    (hlon : |toRad deg lon0| ≤ 2 * Real.pi) (h : Attitude deg yaw pitch roll) :
    (∃ p P, ecef2bodyv (Fl.of M v.1) (Fl.of M v.2.1) (Fl.of M v.2.2) (Fl.of M lat0) (Fl.of M lon0) (Fl.of M yaw) (Fl.of M pitch) (Fl.of M roll) f.name "zyx" deg = .ok p ∧
      ecef2bodyv v.1 v.2.1 v.2.2 lat0 lon0 yaw pitch roll f.name "zyx" deg = .ok P ∧ Spec.dist (vval p) P ≤ 1e-13 * Spec.norm v) ∧
    (∃ p P, body2ecefv (Fl.of M v.1) (Fl.of M v.2.1) (Fl.of M v.2.2) (Fl.of M lat0) (Fl.of M lon0) (Fl.of M yaw) (Fl.of M pitch) (Fl.of M roll) f.name "zyx" deg = .ok p ∧
      body2ecefv v.1 v.2.1 v.2.2 lat0 lon0 yaw pitch roll f.name "zyx" deg = .ok P ∧ Spec.dist (vval p) P ≤ 1e-13 * Spec.norm v) := by
  have hA := f.ecef_near D (inAngle_ang (M := M) D deg hlat) (inAngle_ang (M := M) D deg hlon) (by norm_num) (by norm_num)
  have rA := f.rot_ecef (toRad deg lat0) (toRad deg lon0) false
  have hB := h.near (M := M) D f
  have rB := f.rot (rot_attitude (toRad deg yaw) (toRad deg pitch) (toRad deg roll))
  have hO := OpNear.fmul (e := 786) D hB hA rB rA (by norm_num) (by norm_num) (by norm_num) (by norm_num)
  have hR := rB.mul rA
  have hw := w53_le
  have hn := Spec.norm_nonneg v
  refine ⟨⟨_, _, f.ecef2bodyv_eq (Fl.of M v.1, Fl.of M v.2.1, Fl.of M v.2.2) _ _ _ _ _ _, f.ecef2bodyv_eq v _ _ _ _ _ _, ?_⟩,
    ⟨_, _, f.body2ecefv_eq (Fl.of M v.1, Fl.of M v.2.1, Fl.of M v.2.2) _ _ _ _ _ _, f.body2ecefv_eq v _ _ _ _ _ _, ?_⟩⟩ <;>
    rw [f.ecefMat_rad lat0 lon0, f.ecefMat_rad (Fl.of M lat0) (Fl.of M lon0)]
  · exact (hO.fvec D hR (by norm_num) (Fl.of M v.1, Fl.of M v.2.1, Fl.of M v.2.2) (e := 807) (by norm_num)).trans
      (mul_le_mul_of_nonneg_right (by linarith) hn)
  · have hT := hO.transpose (by norm_num)
    exact (OpNear.fvec (P := transpose3 _) D hT hR.transpose (by norm_num) (Fl.of M v.1, Fl.of M v.2.1, Fl.of M v.2.2) (e := 807) (by norm_num)).trans
      (mul_le_mul_of_nonneg_right (by linarith) hn)

/-- **C88.** `body2ecefv` undoes `ecef2bodyv` in double precision, whatever the angles, to 8·10⁻¹⁴ of the length, and lengths are kept. -/
theorem ecef2bodyv_roundtrip_float (D : Double M) (f : LocalFrame) (v : Fl M × Fl M × Fl M) (lat0 lon0 yaw pitch roll : Fl M) (deg : Bool) :
    ∃ p q, ecef2bodyv v.1 v.2.1 v.2.2 lat0 lon0 yaw pitch roll f.name "zyx" deg = .ok p ∧ body2ecefv p.1 p.2.1 p.2.2 lat0 lon0 yaw pitch roll f.name "zyx" deg = .ok q ∧
      Spec.dist (vval q) (vval v) ≤ 8e-14 * Spec.norm (vval v) ∧ |Spec.norm (vval p) - Spec.norm (vval v)| ≤ 8e-14 * Spec.norm (vval v) := by
  have hA := f.ecef_near D (ang_refl (inAngle deg lat0).val) (ang_refl (inAngle deg lon0).val) (by norm_num) (by norm_num)
  have rA := f.rot_ecef (inAngle deg lat0).val (inAngle deg lon0).val false
  have hB := f.near D (rot_attitude _ _ _) (attitude_ideal D (inAngle deg yaw) (inAngle deg pitch) (inAngle deg roll)) (by norm_num) (by norm_num)
  have rB := f.rot (rot_attitude (inAngle deg yaw).val (inAngle deg pitch).val (inAngle deg roll).val)
  have hO := OpNear.fmul (e := 256) D hB hA rB rA (by norm_num) (by norm_num) (by norm_num) (by norm_num)
  have hR := rB.mul rA
  have hw := w53_le
  have hn := Spec.norm_nonneg (vval v)
  obtain ⟨r1, r2⟩ := hO.roundTrip D hR (by norm_num) (by norm_num) v
  refine ⟨_, _, f.ecef2bodyv_eq v _ _ _ _ _ _, f.body2ecefv_eq _ _ _ _ _ _ _, ?_, ?_⟩ <;> rw [f.ecefMat_rad lat0 lon0]
  · exact r1.trans (mul_le_mul_of_nonneg_right (by norm_num at hw ⊢; linarith) hn)
  · exact r2.trans (mul_le_mul_of_nonneg_right (by norm_num at hw ⊢; linarith) hn)

/-! ### positions -/

theorem LocalFrame.ofEnu_dist (f : LocalFrame) (p : Fl M × Fl M × Fl M) (P : V3) : Spec.dist (vval (f.ofEnu p)) (f.ofEnu P) = Spec.dist (vval p) P := by
  unfold Spec.dist Spec.norm
  congr 1
  cases f <;> simp only [LocalFrame.ofEnu, vval, sub, dot, val_neg] <;> ring

theorem LocalFrame.ofEnu_norm (f : LocalFrame) (P : V3) : Spec.norm (f.ofEnu P) = Spec.norm P := by
  unfold Spec.norm
  congr 1
  cases f <;> simp only [LocalFrame.ofEnu, dot] <;> ring

theorem Within.dist {d : ℝ} {p : Fl M × Fl M × Fl M} {P : V3} (h : Within d p P) : Spec.dist (vval p) P ≤ 1.7321 * d := by
  obtain ⟨h1, h2, h3⟩ := h
  have hd := (abs_nonneg _).trans h1
  apply Spec.le_of_sq_le_sq _ (by linarith)
  rw [Spec.dist, Spec.norm_sq]
  simp only [vval, sub, dot]
  have s1 := sq_le_sq' (abs_le.mp h1).1 (abs_le.mp h1).2
  have s2 := sq_le_sq' (abs_le.mp h2).1 (abs_le.mp h2).2
  have s3 := sq_le_sq' (abs_le.mp h3).1 (abs_le.mp h3).2
  have := sq_nonneg d
  nlinarith

/-- computed local components, turned into the body frame -/
theorem toBody_of_enu (D : Double M) (f : LocalFrame) {deg : Bool} {yaw pitch roll d : ℝ} (h : Attitude deg yaw pitch roll) {p : Fl M × Fl M × Fl M} {P : V3}
    (hp : Within d p P) :
    ∃ q Q, f.toBody (f.ofEnu p) (Fl.of M yaw) (Fl.of M pitch) (Fl.of M roll) deg = .ok q ∧ f.toBody (f.ofEnu P) yaw pitch roll deg = .ok Q ∧
      Spec.dist (vval q) Q ≤ 1.74 * d + 5e-14 * Spec.norm P := by
  have hO := h.near (M := M) D f
  have hR := f.rot (rot_attitude (toRad deg yaw) (toRad deg pitch) (toRad deg roll))
  have hw := w53_le
  have hw0 := w53_pos
  refine ⟨_, _, f.toBody_eq _ _ _ _ _, f.toBody_eq _ _ _ _ _, ?_⟩
  have h1 := hO.fvec D hR (by norm_num) (f.ofEnu p) (e := 391) (by norm_num)
  have h2 := hp.dist
  have hd : 0 ≤ d := (abs_nonneg _).trans hp.1
  rw [← f.ofEnu_dist] at h2
  have h3 := norm_le_add (vval (f.ofEnu p)) (f.ofEnu P)
  rw [f.ofEnu_norm] at h3
  have h4 := dist_tri (vval (matvec3 (f.mat (attitude (inAngle deg (Fl.of M yaw)) (inAngle deg (Fl.of M pitch)) (inAngle deg (Fl.of M roll)))) (f.ofEnu p)))
    (matvec3 (f.mat (attitude (toRad deg yaw) (toRad deg pitch) (toRad deg roll))) (vval (f.ofEnu p)))
    (matvec3 (f.mat (attitude (toRad deg yaw) (toRad deg pitch) (toRad deg roll))) (f.ofEnu P))
  have h5 : Spec.dist (matvec3 (f.mat (attitude (toRad deg yaw) (toRad deg pitch) (toRad deg roll))) (vval (f.ofEnu p)))
    (matvec3 (f.mat (attitude (toRad deg yaw) (toRad deg pitch) (toRad deg roll))) (f.ofEnu P)) = Spec.dist (vval (f.ofEnu p)) (f.ofEnu P) := by
    have e : ∀ (A : Mat3 ℝ) (p q : V3), sub (matvec3 A p) (matvec3 A q) = matvec3 A (sub p q) := by
      intro A p q; simp only [matvec3_real, sub]; refine Prod.ext ?_ (Prod.ext ?_ ?_) <;> dsimp only <;> ring
    rw [Spec.dist, e, hR.norm]; rfl
  rw [h5] at h4
  have h6 : 391 * w53 * Spec.norm (vval (f.ofEnu p)) ≤ 4.4e-14 * (Spec.norm P + 1.7321 * d) :=
    mul_le_mul (by linarith) (by linarith) (Spec.norm_nonneg _) (by norm_num)
  have hN := Spec.norm_nonneg P
  refine h4.trans ?_
  refine (add_le_add (h1.trans h6) h2).trans ?_
  generalize Spec.norm P = N at *
  clear * - hN hd
  norm_num
  nlinarith

/-- **C88.** Positions to the body frame in double precision: `ecef2body` and `geodetic2body`, for all four local frames, are within 1360 roundings of the size
of the ECEF coordinates, plus 5·10⁻¹⁴ of the distance from the observer, of the exact body coordinates. -/
theorem position2body_float (D : Double M) (f : LocalFrame) {ell : Option (Ellipsoid (Fl M))} {e : Option (Ellipsoid ℝ)} (he : SameAxes M ell e) {deg : Bool}
    {lat0 lon0 yaw pitch roll : ℝ} (o : Observer e deg lat0 lon0) (alt0 : ℝ) (h : Attitude deg yaw pitch roll) :
    (∀ P : V3, ∃ q Q, ecef2body (Fl.of M P.1) (Fl.of M P.2.1) (Fl.of M P.2.2) (Fl.of M lat0) (Fl.of M lon0) (Fl.of M alt0) (Fl.of M yaw) (Fl.of M pitch) (Fl.of M roll)
        ell f.name "zyx" deg = .ok q ∧
      ecef2body P.1 P.2.1 P.2.2 lat0 lon0 alt0 yaw pitch roll e f.name "zyx" deg = .ok Q ∧
      Spec.dist (vval q) Q ≤ 1360 * M.u * (Spec.norm P + reach e alt0) + 5e-14 * Spec.norm (ecef2enu P.1 P.2.1 P.2.2 lat0 lon0 alt0 e deg)) ∧
    (∀ {lat lon : ℝ}, Observer e deg lat lon → ∀ alt : ℝ, ∃ q Q,
      geodetic2body (Fl.of M lat) (Fl.of M lon) (Fl.of M alt) (Fl.of M lat0) (Fl.of M lon0) (Fl.of M alt0) (Fl.of M yaw) (Fl.of M pitch) (Fl.of M roll)
        ell f.name "zyx" deg = .ok q ∧
      geodetic2body lat lon alt lat0 lon0 alt0 yaw pitch roll e f.name "zyx" deg = .ok Q ∧
      Spec.dist (vval q) Q ≤ 1360 * M.u * (reach e alt + reach e alt0) + 5e-14 * Spec.norm (geodetic2enu lat lon alt lat0 lon0 alt0 e deg)) := by
  constructor
  · intro P
    have hw := ecef2enu_float (M := M) he o alt0 P
    obtain ⟨q, Q, h1, h2, h3⟩ := toBody_of_enu D f h hw
    refine ⟨q, Q, (f.ecef2body_eq (Fl.of M P.1, Fl.of M P.2.1, Fl.of M P.2.2) _ _ _ _ _ _ _ _).trans h1, (f.ecef2body_eq P _ _ _ _ _ _ _ _).trans h2, h3.trans ?_⟩
    have : 0 ≤ 780 * M.u * (Spec.norm P + reach e alt0) := (abs_nonneg _).trans hw.1
    linarith
  · intro lat lon q alt
    have hw := geodetic2enu_float (M := M) he q o alt alt0
    obtain ⟨q, Q, h1, h2, h3⟩ := toBody_of_enu D f h hw
    refine ⟨q, Q, (f.geodetic2body_eq _ _ _ _ _ _ _ _ _ _ _).trans h1, (f.geodetic2body_eq _ _ _ _ _ _ _ _ _ _ _).trans h2, h3.trans ?_⟩
    have : 0 ≤ 780 * M.u * (reach e alt + reach e alt0) := (abs_nonneg _).trans hw.1
    linarith

theorem attitude_deg {yaw pitch roll : ℝ} (hy : |yaw| ≤ 360) (hp : |pitch| ≤ 360) (hr : |roll| ≤ 360) : Attitude true yaw pitch roll := by
  have h : ∀ x : ℝ, |x| ≤ 360 → |toRad true x| ≤ 2 * Real.pi := by
    intro x hx
    have hpi := Real.pi_pos
    simp only [toRad, if_true]
    rw [abs_mul, abs_of_pos (by positivity : 0 < Real.pi / 180)]
    nlinarith
  exact ⟨h _ hy, h _ hp, h _ hr⟩

/-- the hypotheses are met by IEEE arithmetic and a turning aircraft -/
example := body_float binary64_double .enu (100, -20, 3) (attitude_deg (yaw := 275) (pitch := -12) (roll := 30) (by norm_num [abs_of_pos]) (by norm_num [abs_of_neg]) (by norm_num [abs_of_pos]))
example := body_roundtrip_float binary64_double .sez (Fl.of _ 100, Fl.of _ (-20), Fl.of _ 3) (Fl.of _ 275) (Fl.of _ (-12)) (Fl.of _ 1e5) true
example := (position2body_float binary64_double .ned sameAxes_none (observer_wgs84 (lat := 42) (lon := -82) (by norm_num [abs_of_pos]) (by norm_num [abs_of_neg])) 9000
  (attitude_deg (yaw := 275) (pitch := -12) (roll := 30) (by norm_num [abs_of_pos]) (by norm_num [abs_of_neg]) (by norm_num [abs_of_pos]))).1 (6000000, 100000, 200000)

end
end Pymap3d
