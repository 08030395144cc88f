import Verif.Model.Body
import Verif.Props.LocalFrames
/-!
C11: body frame.
-/
set_option linter.unusedSectionVars false
noncomputable section
namespace Pymap3d
open Py
open Spec hiding norm dist

theorem rot_X (t : ℝ) : (rotationX t).IsRotation := by
  have h := Real.sin_sq_add_cos_sq t
  refine ⟨fun v => ?_, fun v => ?_, ?_⟩
  · simp only [rotationX, transpose3, matvec3_real, py_cos, py_sin, lit_0, lit_1]
    refine Prod.ext (by ring) (Prod.ext ?_ ?_)
    · linear_combination v.2.1 * h
    · linear_combination v.2.2 * h
  · simp only [rotationX, transpose3, matvec3_real, py_cos, py_sin, lit_0, lit_1]
    refine Prod.ext (by ring) (Prod.ext ?_ ?_)
    · linear_combination v.2.1 * h
    · linear_combination v.2.2 * h
  · simp only [rotationX, Mat3.det, Spec.dot, cross, py_cos, py_sin, lit_0, lit_1]; linear_combination h
theorem rot_Y (t : ℝ) : (rotationY t).IsRotation := by
  have h := Real.sin_sq_add_cos_sq t
  refine ⟨fun v => ?_, fun v => ?_, ?_⟩
  · simp only [rotationY, transpose3, matvec3_real, py_cos, py_sin, lit_0, lit_1]
    refine Prod.ext ?_ (Prod.ext (by ring) ?_)
    · linear_combination v.1 * h
    · linear_combination v.2.2 * h
  · simp only [rotationY, transpose3, matvec3_real, py_cos, py_sin, lit_0, lit_1]
    refine Prod.ext ?_ (Prod.ext (by ring) ?_)
    · linear_combination v.1 * h
    · linear_combination v.2.2 * h
  · simp only [rotationY, Mat3.det, Spec.dot, cross, py_cos, py_sin, lit_0, lit_1]; linear_combination h
theorem rot_Z (t : ℝ) : (rotationZ t).IsRotation := by
  have h := Real.sin_sq_add_cos_sq t
  refine ⟨fun v => ?_, fun v => ?_, ?_⟩
  · simp only [rotationZ, transpose3, matvec3_real, py_cos, py_sin, lit_0, lit_1]
    refine Prod.ext ?_ (Prod.ext ?_ (by ring))
    · linear_combination v.1 * h
    · linear_combination v.2.1 * h
  · simp only [rotationZ, transpose3, matvec3_real, py_cos, py_sin, lit_0, lit_1]
    refine Prod.ext ?_ (Prod.ext ?_ (by ring))
    · linear_combination v.1 * h
    · linear_combination v.2.1 * h
  · simp only [rotationZ, Mat3.det, Spec.dot, cross, py_cos, py_sin, lit_0, lit_1]; linear_combination h

/-- the matrix taking NED components to body components -/
def bodyMat (yaw pitch roll : ℝ) (deg : Bool) : Mat3 ℝ :=
  transpose3 (matmul3 (rotationZ (toRad deg yaw)) (matmul3 (rotationY (toRad deg pitch)) (rotationX (toRad deg roll))))

theorem rot_bodyMat (yaw pitch roll : ℝ) (deg : Bool) : (bodyMat yaw pitch roll deg).IsRotation :=
  ((rot_Z _).mul ((rot_Y _).mul (rot_X _))).transpose

theorem ned2body_matrix_zyx (yaw pitch roll : ℝ) (deg : Bool) :
    ned2body_matrix yaw pitch roll "zyx" deg = .ok (bodyMat yaw pitch roll deg) := rfl

/-- **C11.** any sequence other than "zyx" is rejected by every body function -/
theorem body_bad_sequence (a b c lat0 lon0 h0 yaw pitch roll : ℝ) (seq : String) (hs : seq ≠ "zyx") (deg : Bool) :
    let err : PyErr := .valueError "only sequence='zyx' is currently supported"
    ned2body a b c yaw pitch roll seq deg = .error err ∧ body2ned a b c yaw pitch roll seq deg = .error err ∧
    enu2body a b c yaw pitch roll seq deg = .error err ∧ body2enu a b c yaw pitch roll seq deg = .error err ∧
    sez2body a b c yaw pitch roll seq deg = .error err ∧ body2sez a b c yaw pitch roll seq deg = .error err ∧
    nwu2body a b c yaw pitch roll seq deg = .error err ∧ body2nwu a b c yaw pitch roll seq deg = .error err ∧
    (∀ ell, ecef2body a b c lat0 lon0 h0 yaw pitch roll ell "ned" seq deg = .error err) ∧
    (∀ ell, body2ecef a b c lat0 lon0 h0 yaw pitch roll ell "ned" seq deg = .error err) := by
  have h : ned2body_matrix yaw pitch roll seq deg =
      .error (.valueError "only sequence='zyx' is currently supported") := by
    unfold ned2body_matrix; rw [if_pos hs]
  simp [ned2body, body2ned, enu2body, body2enu, sez2body, body2sez, nwu2body, body2nwu, body2ned_matrix,
    enu2body_matrix, body2enu_matrix, sez2body_matrix, body2sez_matrix, nwu2body_matrix, body2nwu_matrix, h,
    bind, Except.bind, ecef2body, body2ecef]

/-- **C11.** an unknown frame is rejected by every function that takes one -/
theorem body_bad_frame (a b c lat0 lon0 h0 yaw pitch roll : ℝ) (ell : Option (Ellipsoid ℝ)) (frame seq : String)
    (bk : Backend) (deg : Bool) (h1 : frame ≠ "ned") (h2 : frame ≠ "enu") (h3 : frame ≠ "sez") (h4 : frame ≠ "nwu") :
    let err : PyErr := .valueError "frame must be one of 'ned', 'enu', 'sez', or 'nwu'"
    ecef2body a b c lat0 lon0 h0 yaw pitch roll ell frame seq deg = .error err ∧
    body2ecef a b c lat0 lon0 h0 yaw pitch roll ell frame seq deg = .error err ∧
    ecef2bodyv a b c lat0 lon0 yaw pitch roll frame seq deg = .error err ∧
    body2ecefv a b c lat0 lon0 yaw pitch roll frame seq deg = .error err ∧
    geodetic2body a b c lat0 lon0 h0 yaw pitch roll ell frame seq deg = .error err ∧
    body2geodetic bk a b c lat0 lon0 h0 yaw pitch roll ell frame seq deg = .error err := by
  simp [ecef2body, body2ecef, ecef2bodyv, body2ecefv, geodetic2body, body2geodetic, ecef2body_matrix,
    body2ecef_matrix, h1, h2, h3, h4, frameErr, bind, Except.bind, throw, throwThe, MonadExceptOf.throw]

/-- **C11.** body x axis (first row), body y axis and z axis in NED components, for heading `yaw` clockwise
from north, `pitch` up, `roll` right wing down: closed forms of the standard aerospace sequence. -/
theorem ned2body_axes (n e d yaw pitch roll : ℝ) (deg : Bool) :
    let y := toRad deg yaw; let p := toRad deg pitch; let r := toRad deg roll
    ned2body n e d yaw pitch roll "zyx" deg = .ok
      (dot (Real.cos p * Real.cos y, Real.cos p * Real.sin y, -Real.sin p) (n, e, d),
       dot (Real.sin r * Real.sin p * Real.cos y - Real.cos r * Real.sin y,
            Real.sin r * Real.sin p * Real.sin y + Real.cos r * Real.cos y, Real.sin r * Real.cos p) (n, e, d),
       dot (Real.cos r * Real.sin p * Real.cos y + Real.sin r * Real.sin y,
            Real.cos r * Real.sin p * Real.sin y - Real.sin r * Real.cos y, Real.cos r * Real.cos p) (n, e, d)) := by
  simp only [ned2body, ned2body_matrix_zyx, bind, Except.bind, pure, Except.pure, Except.ok.injEq, bodyMat,
    matvec3_real, transpose3, matmul3, sum3, rotationX, rotationY, rotationZ, lit_0, lit_1, py_sin, py_cos, dot]
  ext <;> simp only [] <;> ring

/-- **C11.** zero attitude: the body frame is NED -/
theorem ned2body_zero (n e d : ℝ) (deg : Bool) : ned2body n e d 0 0 0 "zyx" deg = .ok (n, e, d) := by
  rw [ned2body_axes]; simp [toRad_zero, dot]

/-- the eight local/body pairs as plain functions (sequence "zyx") -/
theorem body_functions_zyx (a b c yaw pitch roll : ℝ) (deg : Bool) :
    let B := bodyMat yaw pitch roll deg
    ned2body a b c yaw pitch roll "zyx" deg = .ok (matvec3 B (a, b, c)) ∧
    body2ned a b c yaw pitch roll "zyx" deg = .ok (matvec3 (transpose3 B) (a, b, c)) ∧
    enu2body a b c yaw pitch roll "zyx" deg = .ok (matvec3 (matmul3 B ENU2NED) (a, b, c)) ∧
    body2enu a b c yaw pitch roll "zyx" deg = .ok (matvec3 (transpose3 (matmul3 B ENU2NED)) (a, b, c)) ∧
    sez2body a b c yaw pitch roll "zyx" deg
      = .ok (matvec3 (matmul3 (matmul3 B ENU2NED) (transpose3 ENU2SEZ)) (a, b, c)) ∧
    body2sez a b c yaw pitch roll "zyx" deg
      = .ok (matvec3 (transpose3 (matmul3 (matmul3 B ENU2NED) (transpose3 ENU2SEZ))) (a, b, c)) ∧
    nwu2body a b c yaw pitch roll "zyx" deg
      = .ok (matvec3 (matmul3 (matmul3 B ENU2NED) (transpose3 ENU2NWU)) (a, b, c)) ∧
    body2nwu a b c yaw pitch roll "zyx" deg
      = .ok (matvec3 (transpose3 (matmul3 (matmul3 B ENU2NED) (transpose3 ENU2NWU))) (a, b, c)) :=
  ⟨rfl, rfl, rfl, rfl, rfl, rfl, rfl, rfl⟩

/-- **C11.** the body vector does not depend on which local frame the input was expressed in -/
theorem body_frame_independent (e n u yaw pitch roll : ℝ) (deg : Bool) :
    ned2body n e (-u) yaw pitch roll "zyx" deg = enu2body e n u yaw pitch roll "zyx" deg ∧
    sez2body (-n) e u yaw pitch roll "zyx" deg = enu2body e n u yaw pitch roll "zyx" deg ∧
    nwu2body n (-e) u yaw pitch roll "zyx" deg = enu2body e n u yaw pitch roll "zyx" deg := by
  obtain ⟨h1, -, h3, -, -, -, -, -⟩ := body_functions_zyx e n u yaw pitch roll deg
  obtain ⟨-, -, -, -, h5, -, -, -⟩ := body_functions_zyx (-n) e u yaw pitch roll deg
  obtain ⟨-, -, -, -, -, -, h7, -⟩ := body_functions_zyx n (-e) u yaw pitch roll deg
  obtain ⟨h1, -, -, -, -, -, -, -⟩ := body_functions_zyx n e (-u) yaw pitch roll deg
  rw [h3, h1, h5, h7]
  refine ⟨?_, ?_, ?_⟩ <;> congr 1 <;> simp only [matvec3_matmul3] <;> congr 1 <;>
    simp [matvec3_real, ENU2NED, ENU2SEZ, ENU2NWU, transpose3]

/-- an `Except`-valued map of vectors that always succeeds and agrees with a rotation -/
def IsRotMap (f : ℝ → ℝ → ℝ → Except PyErr V3) (m : Mat3 ℝ) : Prop :=
  m.IsRotation ∧ ∀ a b c, f a b c = .ok (matvec3 m (a, b, c))

/-- **C11.** local-to-body and body-to-local functions are mutually inverse isometries, for the four
frames.  (`f` succeeds; `g (f v) = v`; `f (g v) = v`; dot products preserved.) -/
theorem body_inverse_isometry (yaw pitch roll : ℝ) (deg : Bool) :
    ∀ fg ∈ [((fun a b c => ned2body a b c yaw pitch roll "zyx" deg), (fun a b c => body2ned a b c yaw pitch roll "zyx" deg)),
        ((fun a b c => enu2body a b c yaw pitch roll "zyx" deg), (fun a b c => body2enu a b c yaw pitch roll "zyx" deg)),
        ((fun a b c => sez2body a b c yaw pitch roll "zyx" deg), (fun a b c => body2sez a b c yaw pitch roll "zyx" deg)),
        ((fun a b c => nwu2body a b c yaw pitch roll "zyx" deg), (fun a b c => body2nwu a b c yaw pitch roll "zyx" deg))],
      (∀ v : V3, ∃ w : V3, fg.1 v.1 v.2.1 v.2.2 = .ok w ∧ fg.2 w.1 w.2.1 w.2.2 = .ok v ∧ Spec.norm w = Spec.norm v) ∧
      (∀ w : V3, ∃ v : V3, fg.2 w.1 w.2.1 w.2.2 = .ok v ∧ fg.1 v.1 v.2.1 v.2.2 = .ok w ∧ Spec.norm v = Spec.norm w) ∧
      (∀ v v' w w' : V3, fg.1 v.1 v.2.1 v.2.2 = .ok w → fg.1 v'.1 v'.2.1 v'.2.2 = .ok w' → dot w w' = dot v v') := by
  have key : ∀ (f g : ℝ → ℝ → ℝ → Except PyErr V3) (m : Mat3 ℝ), m.IsRotation →
      (∀ a b c, f a b c = .ok (matvec3 m (a, b, c))) → (∀ a b c, g a b c = .ok (matvec3 (transpose3 m) (a, b, c))) →
      (∀ v : V3, ∃ w : V3, f v.1 v.2.1 v.2.2 = .ok w ∧ g w.1 w.2.1 w.2.2 = .ok v ∧ Spec.norm w = Spec.norm v) ∧
      (∀ w : V3, ∃ v : V3, g w.1 w.2.1 w.2.2 = .ok v ∧ f v.1 v.2.1 v.2.2 = .ok w ∧ Spec.norm v = Spec.norm w) ∧
      (∀ v v' w w' : V3, f v.1 v.2.1 v.2.2 = .ok w → f v'.1 v'.2.1 v'.2.2 = .ok w' → dot w w' = dot v v') := by
    intro f g m hm hf hg
    refine ⟨fun v => ⟨matvec3 m v, hf _ _ _, ?_, hm.norm v⟩, fun w => ⟨matvec3 (transpose3 m) w, hg _ _ _, ?_,
      hm.transpose.norm w⟩, ?_⟩
    · rw [hg]; congr 1; exact hm.left v
    · rw [hf]; congr 1; exact hm.right w
    · intro v v' w w' h h'
      rw [hf, Except.ok.injEq] at h h'
      rw [← h, ← h']; exact hm.dot v v'
  intro fg hfg
  have hB := rot_bodyMat yaw pitch roll deg
  have hE := hB.mul rot_ENU2NED
  have hS := hE.mul rot_ENU2SEZ.transpose
  have hN := hE.mul rot_ENU2NWU.transpose
  simp only [List.mem_cons, List.not_mem_nil, or_false] at hfg
  rcases hfg with rfl | rfl | rfl | rfl
  · exact key _ _ _ hB (fun _ _ _ => rfl) (fun _ _ _ => rfl)
  · exact key _ _ _ hE (fun _ _ _ => rfl) (fun _ _ _ => rfl)
  · exact key _ _ _ hS (fun _ _ _ => rfl) (fun _ _ _ => rfl)
  · exact key _ _ _ hN (fun _ _ _ => rfl) (fun _ _ _ => rfl)

/-- **C11.** `ecef2body` gives the same answer for the four intermediate frames, always succeeds with
"zyx", and is the body matrix applied to `ecef2ned`. -/
theorem ecef2body_frames (x y z lat0 lon0 h0 yaw pitch roll : ℝ) (ell : Option (Ellipsoid ℝ)) (deg : Bool)
    (frame : String) (hf : frame = "ned" ∨ frame = "enu" ∨ frame = "sez" ∨ frame = "nwu") :
    ecef2body x y z lat0 lon0 h0 yaw pitch roll ell frame "zyx" deg =
      .ok (matvec3 (bodyMat yaw pitch roll deg) (ecef2ned x y z lat0 lon0 h0 ell deg)) := by
  have hi := body_frame_independent (ecef2enu x y z lat0 lon0 h0 ell deg).1 (ecef2enu x y z lat0 lon0 h0 ell deg).2.1
    (ecef2enu x y z lat0 lon0 h0 ell deg).2.2 yaw pitch roll deg
  have h0' : ned2body (ecef2ned x y z lat0 lon0 h0 ell deg).1 (ecef2ned x y z lat0 lon0 h0 ell deg).2.1
      (ecef2ned x y z lat0 lon0 h0 ell deg).2.2 yaw pitch roll "zyx" deg =
      .ok (matvec3 (bodyMat yaw pitch roll deg) (ecef2ned x y z lat0 lon0 h0 ell deg)) := rfl
  rcases hf with rfl | rfl | rfl | rfl
  · exact h0'
  · rw [← h0']; exact hi.1.symm
  · rw [← h0']; exact hi.2.1.trans hi.1.symm
  · rw [← h0']; exact hi.2.2.trans hi.1.symm

/-- **C11.** ECEF to body and back, any of the four frames (not necessarily the same one twice) -/
theorem body2ecef_ecef2body (x y z lat0 lon0 h0 yaw pitch roll : ℝ) (ell : Option (Ellipsoid ℝ)) (deg : Bool)
    (frame frame' : String) (hf : frame = "ned" ∨ frame = "enu" ∨ frame = "sez" ∨ frame = "nwu")
    (hf' : frame' = "ned" ∨ frame' = "enu" ∨ frame' = "sez" ∨ frame' = "nwu") :
    (do let p ← ecef2body x y z lat0 lon0 h0 yaw pitch roll ell frame "zyx" deg
        body2ecef p.1 p.2.1 p.2.2 lat0 lon0 h0 yaw pitch roll ell frame' "zyx" deg) = .ok (x, y, z) := by
  rw [ecef2body_frames _ _ _ _ _ _ _ _ _ _ _ _ hf, ← ecef2body_frames _ _ _ _ _ _ _ _ _ _ _ _ hf']
  have hB := rot_bodyMat yaw pitch roll deg
  have hE := hB.mul rot_ENU2NED
  have hS := hE.mul rot_ENU2SEZ.transpose
  have hN := hE.mul rot_ENU2NWU.transpose
  rcases hf' with rfl | rfl | rfl | rfl
  · exact (congrArg (fun p : V3 => Except.ok (ned2ecef p.1 p.2.1 p.2.2 lat0 lon0 h0 ell deg)) (hB.left _)).trans
      (congrArg Except.ok (ned2ecef_ecef2ned lat0 lon0 h0 ell deg x y z))
  · exact (congrArg (fun p : V3 => Except.ok (enu2ecef p.1 p.2.1 p.2.2 lat0 lon0 h0 ell deg)) (hE.left _)).trans
      (congrArg Except.ok (enu2ecef_ecef2enu lat0 lon0 h0 ell deg x y z))
  · exact (congrArg (fun p : V3 => Except.ok (sez2ecef p.1 p.2.1 p.2.2 lat0 lon0 h0 ell deg)) (hS.left _)).trans
      (congrArg Except.ok (sez2ecef_ecef2sez lat0 lon0 h0 ell deg x y z))
  · exact (congrArg (fun p : V3 => Except.ok (nwu2ecef p.1 p.2.1 p.2.2 lat0 lon0 h0 ell deg)) (hN.left _)).trans
      (congrArg Except.ok (nwu2ecef_ecef2nwu lat0 lon0 h0 ell deg x y z))

/-- **C11.** `geodetic2body` is `ecef2body` of `geodetic2ecef` for every frame and sequence text -/
theorem geodetic2body_eq (lat lon h lat0 lon0 h0 yaw pitch roll : ℝ) (ell : Option (Ellipsoid ℝ)) (frame seq : String)
    (deg : Bool) : geodetic2body lat lon h lat0 lon0 h0 yaw pitch roll ell frame seq deg =
      (let p := geodetic2ecef lat lon h ell deg
       ecef2body p.1 p.2.1 p.2.2 lat0 lon0 h0 yaw pitch roll ell frame seq deg) := rfl

/-- **C11.** `body2geodetic` is `ecef2geodetic` of `body2ecef` -/
theorem body2geodetic_eq (bk : Backend) (xb yb zb lat0 lon0 h0 yaw pitch roll : ℝ) (ell : Option (Ellipsoid ℝ))
    (frame seq : String) (deg : Bool) : body2geodetic bk xb yb zb lat0 lon0 h0 yaw pitch roll ell frame seq deg =
      (do let p ← body2ecef xb yb zb lat0 lon0 h0 yaw pitch roll ell frame seq deg
          return ecef2geodetic bk p.1 p.2.1 p.2.2 ell deg) := by
  unfold body2geodetic body2ecef
  split_ifs <;> first | rfl | (simp only [bind_assoc, pure_bind]; rfl)

/-- **C11.** the ECEF vector version is the rotation part of the point version, for the four frames, and a
rotation: `body2ecefv` undoes it. -/
theorem ecef2bodyv_eq (x y z lat0 lon0 yaw pitch roll : ℝ) (deg : Bool) (frame : String)
    (hf : frame = "ned" ∨ frame = "enu" ∨ frame = "sez" ∨ frame = "nwu") :
    ecef2bodyv x y z lat0 lon0 yaw pitch roll frame "zyx" deg =
      .ok (matvec3 (bodyMat yaw pitch roll deg) (ecef2nedv x y z lat0 lon0 deg)) := by
  rcases hf with rfl | rfl | rfl | rfl
  · change Except.ok (matvec3 (matmul3 (bodyMat yaw pitch roll deg) (ecef2ned_matrix lat0 lon0 deg)) (x, y, z)) = _
    rw [matvec3_matmul3, ecef2ned_matrix_apply]
  · change Except.ok (matvec3 (matmul3 (matmul3 (bodyMat yaw pitch roll deg) ENU2NED)
      (ecef2enu_matrix lat0 lon0 deg)) (x, y, z)) = _
    rw [matvec3_matmul3, matvec3_matmul3, ecef2enu_matrix_apply, ENU2NED_apply]; rfl
  · change Except.ok (matvec3 (matmul3 (matmul3 (matmul3 (bodyMat yaw pitch roll deg) ENU2NED) (transpose3 ENU2SEZ))
      (ecef2sez_matrix lat0 lon0 deg)) (x, y, z)) = _
    rw [matvec3_matmul3, matvec3_matmul3, matvec3_matmul3, ecef2sez_matrix, matvec3_matmul3, rot_ENU2SEZ.left,
      ecef2enu_matrix_apply, ENU2NED_apply]; rfl
  · change Except.ok (matvec3 (matmul3 (matmul3 (matmul3 (bodyMat yaw pitch roll deg) ENU2NED) (transpose3 ENU2NWU))
      (ecef2nwu_matrix lat0 lon0 deg)) (x, y, z)) = _
    rw [matvec3_matmul3, matvec3_matmul3, matvec3_matmul3, ecef2nwu_matrix, matvec3_matmul3, rot_ENU2NWU.left,
      ecef2enu_matrix_apply, ENU2NED_apply]; rfl

theorem body2ecefv_ecef2bodyv (x y z lat0 lon0 yaw pitch roll : ℝ) (deg : Bool) (frame frame' : String)
    (hf : frame = "ned" ∨ frame = "enu" ∨ frame = "sez" ∨ frame = "nwu")
    (hf' : frame' = "ned" ∨ frame' = "enu" ∨ frame' = "sez" ∨ frame' = "nwu") :
    (do let p ← ecef2bodyv x y z lat0 lon0 yaw pitch roll frame "zyx" deg
        body2ecefv p.1 p.2.1 p.2.2 lat0 lon0 yaw pitch roll frame' "zyx" deg) = .ok (x, y, z) := by
  rw [ecef2bodyv_eq _ _ _ _ _ _ _ _ _ _ hf, ← ecef2bodyv_eq _ _ _ _ _ _ _ _ _ _ hf']
  have hB := rot_bodyMat yaw pitch roll deg
  have hE := hB.mul rot_ENU2NED
  have hS := hE.mul rot_ENU2SEZ.transpose
  have hN := hE.mul rot_ENU2NWU.transpose
  obtain ⟨m1, m2, m3, m4, -⟩ := published_matrices_rotation lat0 lon0 deg
  rcases hf' with rfl | rfl | rfl | rfl
  · exact congrArg Except.ok ((hB.mul m2).left (x, y, z))
  · exact congrArg Except.ok ((hE.mul m1).left (x, y, z))
  · exact congrArg Except.ok ((hS.mul m3).left (x, y, z))
  · exact congrArg Except.ok ((hN.mul m4).left (x, y, z))

/-- concrete: flying east, level: body x is east -/
example (n e d : ℝ) : ned2body n e d 90 0 0 "zyx" true = .ok (e, -n, d) := by
  have : (90 : ℝ) * (Real.pi / 180) = Real.pi / 2 := by ring
  rw [ned2body_axes]; simp [dot, toRad, this]

end Pymap3d
end
