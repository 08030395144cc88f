import Verif.Props.Sidereal
import Verif.Props.LocalFrames
import Verif.Props.Aer
import Verif.Props.EcefGeodetic2
import Verif.Model.Eci
/-!
# C50, C51, C52: ECI <-> ECEF
-/
set_option linter.unusedSectionVars false
noncomputable section
namespace Pymap3d
open Py
open Spec hiding norm dist

/-! ## the matrix is a rotation -/

theorem rot_eoX (t : ℝ) : (eoRotationX t).IsRotation := by
  have h := Real.sin_sq_add_cos_sq t
  refine ⟨fun v => ?_, fun v => ?_, ?_⟩
  · simp only [eoRotationX, transpose3, matvec3_real, py_cos, py_sin, lit_0, lit_1]
    refine Prod.ext (by ring) (Prod.ext ?_ ?_)
    · linear_combination v.2.1 * h
    · linear_combination v.2.2 * h
  · simp only [eoRotationX, transpose3, matvec3_real, py_cos, py_sin, lit_0, lit_1]
    refine Prod.ext (by ring) (Prod.ext ?_ ?_)
    · linear_combination v.2.1 * h
    · linear_combination v.2.2 * h
  · simp only [eoRotationX, Mat3.det, Spec.dot, cross, py_cos, py_sin, lit_0, lit_1]; linear_combination h
theorem rot_eoY (t : ℝ) : (eoRotationY t).IsRotation := by
  have h := Real.sin_sq_add_cos_sq t
  refine ⟨fun v => ?_, fun v => ?_, ?_⟩
  · simp only [eoRotationY, transpose3, matvec3_real, py_cos, py_sin, lit_0, lit_1]
    refine Prod.ext ?_ (Prod.ext (by ring) ?_)
    · linear_combination v.1 * h
    · linear_combination v.2.2 * h
  · simp only [eoRotationY, transpose3, matvec3_real, py_cos, py_sin, lit_0, lit_1]
    refine Prod.ext ?_ (Prod.ext (by ring) ?_)
    · linear_combination v.1 * h
    · linear_combination v.2.2 * h
  · simp only [eoRotationY, Mat3.det, Spec.dot, cross, py_cos, py_sin, lit_0, lit_1]; linear_combination h
theorem rot_eoZ (t : ℝ) : (eoRotationZ t).IsRotation := by
  have h := Real.sin_sq_add_cos_sq t
  refine ⟨fun v => ?_, fun v => ?_, ?_⟩
  · simp only [eoRotationZ, transpose3, matvec3_real, py_cos, py_sin, lit_0, lit_1]
    refine Prod.ext ?_ (Prod.ext ?_ (by ring))
    · linear_combination v.1 * h
    · linear_combination v.2.1 * h
  · simp only [eoRotationZ, transpose3, matvec3_real, py_cos, py_sin, lit_0, lit_1]
    refine Prod.ext ?_ (Prod.ext ?_ (by ring))
    · linear_combination v.1 * h
    · linear_combination v.2.1 * h
  · simp only [eoRotationZ, Mat3.det, Spec.dot, cross, py_cos, py_sin, lit_0, lit_1]; linear_combination h

theorem rot_polarMotion (xp yp : ℝ) : (polarMotionMatrix xp yp).IsRotation := (rot_eoY _).mul (rot_eoX _)
theorem rot_precession (t : ℝ) : (precessionMatrix t).IsRotation := (rot_eoZ _).mul ((rot_eoY _).mul (rot_eoZ _))
theorem rot_nutation (t : ℝ) : (nutationMatrix t).IsRotation := (rot_eoX _).mul ((rot_eoZ _).mul (rot_eoX _))
theorem rot_eciMatrixOfJd (j1 j2 xp yp : ℝ) : (eciMatrixOfJd j1 j2 xp yp).IsRotation :=
  (rot_polarMotion _ _).mul ((rot_eoZ _).mul ((rot_nutation _).mul (rot_precession _)))

/-- rotations commute with cross products (handedness) -/
theorem Mat3.IsRotation.cross {m : Mat3 ℝ} (hm : m.IsRotation) (p q : V3) :
    Spec.cross (matvec3 m p) (matvec3 m q) = matvec3 m (Spec.cross p q) := by
  -- test against an arbitrary vector `m r`
  have key : ∀ r : V3, Spec.dot (Spec.cross (matvec3 m p) (matvec3 m q)) (matvec3 m r) = Spec.dot (Spec.cross p q) r := by
    intro r
    have hd := hm.det
    have : Spec.dot (Spec.cross (matvec3 m p) (matvec3 m q)) (matvec3 m r) = m.det * Spec.dot (Spec.cross p q) r := by
      simp only [matvec3_real, Mat3.det, Spec.dot, Spec.cross]; ring
    rw [this, hd, one_mul]
  have key2 : ∀ r : V3, Spec.dot (matvec3 (transpose3 m) (Spec.cross (matvec3 m p) (matvec3 m q))) r = Spec.dot (Spec.cross p q) r := by
    intro r
    rw [dot_matvec3, transpose3_transpose3]
    exact key r
  have : matvec3 (transpose3 m) (Spec.cross (matvec3 m p) (matvec3 m q)) = Spec.cross p q := by
    have h1 := key2 (1, 0, 0); have h2 := key2 (0, 1, 0); have h3 := key2 (0, 0, 1)
    simp only [Spec.dot, mul_one, mul_zero, add_zero, zero_add] at h1 h2 h3
    exact Prod.ext h1 (Prod.ext h2 h3)
  rw [← this, hm.right]

theorem eciToEcefMatrix_form (time : DateTime) (d : ℝ) :
    (∃ e, ∀ xp yp : ℝ, eciToEcefMatrix time d xp yp = .error e) ∨
    (∃ j1 j2 : ℝ, ∀ xp yp : ℝ, eciToEcefMatrix time d xp yp = .ok (eciMatrixOfJd j1 j2 xp yp)) := by
  cases h1 : utcWithOffset time d with
  | error e => exact Or.inl ⟨e, fun _ _ => by simp only [eciToEcefMatrix, h1, bind, Except.bind]⟩
  | ok u =>
    cases h2 : (juliandate u : Except PyErr ℝ) with
    | error e => exact Or.inl ⟨e, fun _ _ => by simp only [eciToEcefMatrix, h1, h2, bind, Except.bind]⟩
    | ok j =>
      cases h3 : utcToTt ℝ time with
      | error e => exact Or.inl ⟨e, fun _ _ => by simp only [eciToEcefMatrix, h1, h2, h3, bind, Except.bind]⟩
      | ok v =>
        cases h4 : (juliandate v : Except PyErr ℝ) with
        | error e => exact Or.inl ⟨e, fun _ _ => by simp only [eciToEcefMatrix, h1, h2, h3, h4, bind, Except.bind]⟩
        | ok k => exact Or.inr ⟨j, k, fun _ _ => by simp only [eciToEcefMatrix, h1, h2, h3, h4, bind, Except.bind]; rfl⟩

theorem eciToEcefMatrix_ok {t : DateTime} {d : ℝ} (h : TimeOk t d) (xp yp : ℝ) :
    eciToEcefMatrix t d xp yp = .ok (eciMatrixOfJd (jdUt1 (Spec.instant t) d) (jdTt (Spec.instant t)) xp yp) := by
  obtain ⟨⟨u, hu, hju⟩, ⟨v, hv, hjv⟩⟩ := jds_ok h
  simp only [eciToEcefMatrix, hu, hju, hv, hjv, bind, Except.bind]; rfl

theorem eciToEcefMatrix_rot {time : DateTime} {d xp yp : ℝ} {m : Mat3 ℝ}
    (h : eciToEcefMatrix time d xp yp = .ok m) : m.IsRotation := by
  rcases eciToEcefMatrix_form time d with ⟨e, he⟩ | ⟨j1, j2, hj⟩
  · rw [he] at h; cases h
  · rw [hj] at h; injection h with h; rw [← h]; exact rot_eciMatrixOfJd _ _ _ _

/-- **C50.** `ecef2eci(eci2ecef(p)) = p` at the same time and Earth-orientation parameters. -/
theorem ecef2eci_eci2ecef (x y z : ℝ) (time : DateTime) (d xp yp : ℝ) (q : V3)
    (h : eci2ecef x y z time d xp yp = .ok q) :
    ecef2eci q.1 q.2.1 q.2.2 time d xp yp = .ok (x, y, z) := by
  cases hm : eciToEcefMatrix time d xp yp with
  | error e => simp only [eci2ecef, hm] at h; cases h
  | ok m =>
    simp only [eci2ecef, hm] at h
    injection h with h
    simp only [ecef2eci, hm]
    show Except.ok (matvec3 (transpose3 m) q) = _
    rw [← h, (eciToEcefMatrix_rot hm).left]

/-- **C50.** `eci2ecef(ecef2eci(p)) = p` at the same time and Earth-orientation parameters. -/
theorem eci2ecef_ecef2eci (x y z : ℝ) (time : DateTime) (d xp yp : ℝ) (q : V3)
    (h : ecef2eci x y z time d xp yp = .ok q) :
    eci2ecef q.1 q.2.1 q.2.2 time d xp yp = .ok (x, y, z) := by
  cases hm : eciToEcefMatrix time d xp yp with
  | error e => simp only [ecef2eci, hm] at h; cases h
  | ok m =>
    simp only [ecef2eci, hm] at h
    injection h with h
    simp only [eci2ecef, hm]
    show Except.ok (matvec3 m q) = _
    rw [← h, (eciToEcefMatrix_rot hm).right]

/-- **C50.** Both conversions succeed for every point and all polar-motion parameters whenever the
instant (shifted by UT1-UTC, and in TT) stays within the calendar. -/
theorem eci_total (x y z : ℝ) (time : DateTime) (d xp yp : ℝ) (h : TimeOk time d) :
    (∃ q, eci2ecef x y z time d xp yp = .ok q) ∧ (∃ q, ecef2eci x y z time d xp yp = .ok q) := by
  have e := eciToEcefMatrix_ok h xp yp
  exact ⟨⟨_, by simp only [eci2ecef, e]; rfl⟩, ⟨_, by simp only [ecef2eci, e]; rfl⟩⟩

/-- **C50.** At one instant the conversion is a rigid rotation: dot products (so lengths, angles and
distances) and cross products (so handedness) of any two vectors are preserved, both ways. -/
theorem eci_rigid (p q P Q : V3) (time : DateTime) (d xp yp : ℝ) :
    (eci2ecef p.1 p.2.1 p.2.2 time d xp yp = .ok P → eci2ecef q.1 q.2.1 q.2.2 time d xp yp = .ok Q →
      Spec.dot P Q = Spec.dot p q ∧ Spec.norm P = Spec.norm p ∧ Spec.dist P Q = Spec.dist p q ∧
      eci2ecef (Spec.cross p q).1 (Spec.cross p q).2.1 (Spec.cross p q).2.2 time d xp yp = .ok (Spec.cross P Q)) ∧
    (ecef2eci p.1 p.2.1 p.2.2 time d xp yp = .ok P → ecef2eci q.1 q.2.1 q.2.2 time d xp yp = .ok Q →
      Spec.dot P Q = Spec.dot p q ∧ Spec.norm P = Spec.norm p ∧ Spec.dist P Q = Spec.dist p q ∧
      ecef2eci (Spec.cross p q).1 (Spec.cross p q).2.1 (Spec.cross p q).2.2 time d xp yp = .ok (Spec.cross P Q)) := by
  have lin : ∀ (m : Mat3 ℝ) (p q : V3), Spec.sub (matvec3 m p) (matvec3 m q) = matvec3 m (Spec.sub p q) := by
    intro m p q; simp only [matvec3_real, Spec.sub]; ext <;> simp only [] <;> ring
  cases hm : eciToEcefMatrix time d xp yp with
  | error e =>
    constructor
    · intro h; simp only [eci2ecef, hm] at h; cases h
    · intro h; simp only [ecef2eci, hm] at h; cases h
  | ok m =>
    have hr := eciToEcefMatrix_rot hm
    constructor
    · intro h1 h2
      simp only [eci2ecef, hm] at h1 h2 ⊢
      injection h1 with h1; injection h2 with h2
      simp only [Prod.mk.eta] at h1 h2
      subst h1; subst h2
      refine ⟨hr.dot _ _, hr.norm _, ?_, ?_⟩
      · rw [Spec.dist, lin, hr.norm, Spec.dist]
      · rw [hr.cross]; rfl
    · intro h1 h2
      simp only [ecef2eci, hm] at h1 h2 ⊢
      injection h1 with h1; injection h2 with h2
      simp only [Prod.mk.eta] at h1 h2
      subst h1; subst h2
      have hr := hr.transpose
      refine ⟨hr.dot _ _, hr.norm _, ?_, ?_⟩
      · rw [Spec.dist, lin, hr.norm, Spec.dist]
      · rw [hr.cross]; rfl

theorem example_eci : ∃ q, eci2ecef (7000000 : ℝ) 0 0 exampleIst 0.1 0.05 0.3 = .ok q :=
  (eci_total _ _ _ _ _ _ _ exampleIst_ok).1
/-- non-vacuity -/
example : ∃ q : V3, eci2ecef (7000000 : ℝ) 0 0 exampleIst 0.1 0.05 0.3 = .ok q ∧ Spec.norm q = 7000000 := by
  obtain ⟨q, hq⟩ := example_eci
  refine ⟨q, hq, ?_⟩
  have := ((eci_rigid (7000000, 0, 0) (7000000, 0, 0) q q exampleIst 0.1 0.05 0.3).1 hq hq).2.1
  rw [this]
  simp only [Spec.norm, Spec.dot]
  rw [show (7000000 : ℝ) * 7000000 + 0 * 0 + 0 * 0 = 7000000 ^ 2 by norm_num, Real.sqrt_sq (by norm_num)]

/-! ### what UT1-UTC and polar motion do -/

theorem matvec3_eoZ (θ : ℝ) (v : V3) : matvec3 (eoRotationZ θ) v =
    (Real.cos θ * v.1 + Real.sin θ * v.2.1, -Real.sin θ * v.1 + Real.cos θ * v.2.1, v.2.2) := by
  simp only [matvec3_real, eoRotationZ, py_cos, py_sin, lit_0, lit_1]; ext <;> simp only [] <;> ring

/-- Zero polar motion is the identity. -/
theorem polarMotion_zero (v : V3) : matvec3 (polarMotionMatrix (0 : ℝ) 0) v = v := by
  rw [polarMotionMatrix, matvec3_matmul3]
  simp only [matvec3_real, eoRotationX, eoRotationY, zero_mul, neg_zero, py_cos, py_sin,
    Real.cos_zero, Real.sin_zero, lit_0, lit_1]
  ext <;> simp

/-- **C50.** Without polar motion, changing UT1-UTC turns the result about the Earth's axis by the
change of mean sidereal time and by nothing else. -/
theorem eci2ecef_ut1 (x y z : ℝ) (time : DateTime) (d d' : ℝ) (h : TimeOk time d) (h' : TimeOk time d') :
    ∃ p q : V3, eci2ecef x y z time d 0 0 = .ok p ∧ eci2ecef x y z time d' 0 0 = .ok q ∧
      ∃ θ : ℝ, θ = greenwichMeanSiderealTime (jdUt1 (Spec.instant time) d')
          - greenwichMeanSiderealTime (jdUt1 (Spec.instant time) d) ∧
        q = (Real.cos θ * p.1 + Real.sin θ * p.2.1, -Real.sin θ * p.1 + Real.cos θ * p.2.1, p.2.2) := by
  have e := eciToEcefMatrix_ok h 0 0
  have e' := eciToEcefMatrix_ok h' 0 0
  obtain ⟨j, hj⟩ : ∃ j, j = jdUt1 (Spec.instant time) d := ⟨_, rfl⟩
  obtain ⟨j', hj'⟩ : ∃ j, j = jdUt1 (Spec.instant time) d' := ⟨_, rfl⟩
  obtain ⟨k, hk⟩ : ∃ j, j = jdTt (Spec.instant time) := ⟨_, rfl⟩
  rw [← hj, ← hk] at e
  rw [← hj', ← hk] at e'
  refine ⟨matvec3 (eciMatrixOfJd j k 0 0) (x, y, z), matvec3 (eciMatrixOfJd j' k 0 0) (x, y, z),
    by simp only [eci2ecef, e]; rfl, by simp only [eci2ecef, e']; rfl, _, rfl, ?_⟩
  rw [← hj, ← hj']
  simp only [eciMatrixOfJd, matvec3_matmul3, polarMotion_zero]
  obtain ⟨v, hv⟩ : ∃ v : V3, v = matvec3 (nutationMatrix (julianCenturies k))
    (matvec3 (precessionMatrix (julianCenturies k)) (x, y, z)) := ⟨_, rfl⟩
  rw [← hv]
  simp only [matvec3_eoZ, greenwichApparentSiderealTime, py_pymod, py_tau, cos_pymod, sin_pymod]
  obtain ⟨g, hg⟩ : ∃ g : ℝ, g = greenwichMeanSiderealTime j := ⟨_, rfl⟩
  obtain ⟨g', hg'⟩ : ∃ g : ℝ, g = greenwichMeanSiderealTime j' := ⟨_, rfl⟩
  obtain ⟨q, hq⟩ : ∃ q : ℝ, q = equationOfEquinoxes (julianCenturies k) := ⟨_, rfl⟩
  rw [← hg, ← hg', ← hq]
  have e1 : g' + q = (g' - g) + (g + q) := by ring
  obtain ⟨A, hA⟩ : ∃ A : ℝ, A = g + q := ⟨_, rfl⟩
  obtain ⟨T, hT⟩ : ∃ T : ℝ, T = g' - g := ⟨_, rfl⟩
  rw [e1, ← hA, ← hT, Real.cos_add, Real.sin_add]
  ext <;> simp only [] <;> ring

/-! ## C51: states -/

/-- **C51.** `ecef2eci_state(eci2ecef_state(s)) = s`: position and velocity are recovered exactly. -/
theorem ecef2eciState_eci2ecefState (s S : PosVel ℝ) (time : DateTime) (d xp yp : ℝ)
    (h : eci2ecefState s time d xp yp = .ok S) : ecef2eciState S time d xp yp = .ok s := by
  cases hm : eciToEcefMatrix time d xp yp with
  | error e => simp only [eci2ecefState, hm] at h; cases h
  | ok m =>
    cases hR : eciToEcefMatrixRate time d xp yp with
    | error e => simp only [eci2ecefState, hm, hR] at h; cases h
    | ok R =>
      have hr := eciToEcefMatrix_rot hm
      simp only [eci2ecefState, hm, hR] at h
      injection h with h
      simp only [ecef2eciState, hm, hR]
      show Except.ok _ = _
      congr 1
      subst h
      obtain ⟨p, v⟩ := s
      simp only [applyStateRotationScalar, if_true, Bool.false_eq_true, if_false, hr.left, PosVel.mk.injEq, true_and]
      have : ((matvec3 m v).1 + (matvec3 R p).1 - (matvec3 R p).1,
          (matvec3 m v).2.1 + (matvec3 R p).2.1 - (matvec3 R p).2.1,
          (matvec3 m v).2.2 + (matvec3 R p).2.2 - (matvec3 R p).2.2) = matvec3 m v := by
        ext <;> simp
      rw [this, hr.left]

/-- **C51.** `eci2ecef_state(ecef2eci_state(s)) = s`. -/
theorem eci2ecefState_ecef2eciState (s S : PosVel ℝ) (time : DateTime) (d xp yp : ℝ)
    (h : ecef2eciState s time d xp yp = .ok S) : eci2ecefState S time d xp yp = .ok s := by
  cases hm : eciToEcefMatrix time d xp yp with
  | error e => simp only [ecef2eciState, hm] at h; cases h
  | ok m =>
    cases hR : eciToEcefMatrixRate time d xp yp with
    | error e => simp only [ecef2eciState, hm, hR] at h; cases h
    | ok R =>
      have hr := eciToEcefMatrix_rot hm
      simp only [ecef2eciState, hm, hR] at h
      injection h with h
      simp only [eci2ecefState, hm, hR]
      show Except.ok _ = _
      congr 1
      subst h
      obtain ⟨p, v⟩ := s
      simp only [applyStateRotationScalar, if_true, Bool.false_eq_true, if_false, hr.right, PosVel.mk.injEq, true_and]
      ext <;> simp

/-- **C51.** the position part is the position conversion -/
theorem state_position (s S : PosVel ℝ) (time : DateTime) (d xp yp : ℝ) :
    (eci2ecefState s time d xp yp = .ok S → eci2ecef s.pos.1 s.pos.2.1 s.pos.2.2 time d xp yp = .ok S.pos) ∧
    (ecef2eciState s time d xp yp = .ok S → ecef2eci s.pos.1 s.pos.2.1 s.pos.2.2 time d xp yp = .ok S.pos) := by
  cases hm : eciToEcefMatrix time d xp yp with
  | error e =>
    constructor
    · intro h; simp only [eci2ecefState, hm] at h; cases h
    · intro h; simp only [ecef2eciState, hm] at h; cases h
  | ok m =>
    cases hR : eciToEcefMatrixRate time d xp yp with
    | error e =>
      constructor
      · intro h; simp only [eci2ecefState, hm, hR] at h; cases h
      · intro h; simp only [ecef2eciState, hm, hR] at h; cases h
    | ok R =>
      constructor
      · intro h
        simp only [eci2ecefState, hm, hR] at h
        injection h with h
        simp only [eci2ecef, hm]
        rw [← h]; rfl
      · intro h
        simp only [ecef2eciState, hm, hR] at h
        injection h with h
        simp only [ecef2eci, hm]
        rw [← h]; rfl

/-- **C51.** The velocity includes the rotation of the frame: the ECEF velocity is the rotated ECI
velocity plus the change, between half a second before and half a second after, of the ECEF
coordinates of the inertially fixed position. -/
theorem state_velocity (s S : PosVel ℝ) (time tp tm : DateTime) (d xp yp : ℝ)
    (h : eci2ecefState s time d xp yp = .ok S) (hp : time.addMicros 500000 = .ok tp)
    (hm : time.addMicros (-500000) = .ok tm) :
    ∃ v a b : V3, eci2ecef s.vel.1 s.vel.2.1 s.vel.2.2 time d xp yp = .ok v ∧
      eci2ecef s.pos.1 s.pos.2.1 s.pos.2.2 tp d xp yp = .ok a ∧
      eci2ecef s.pos.1 s.pos.2.1 s.pos.2.2 tm d xp yp = .ok b ∧
      S.vel = Spec.add v (Spec.sub a b) := by
  have htd : timedeltaSeconds (0.5 : ℝ) = 500000 := timedeltaSeconds_exact _ _ (by norm_num)
  cases hM : eciToEcefMatrix time d xp yp with
  | error e => simp only [eci2ecefState, hM] at h; cases h
  | ok m =>
    cases hA : eciToEcefMatrix tp d xp yp with
    | error e =>
      simp only [eci2ecefState, hM, eciToEcefMatrixRate, htd, hp, hA, bind, Except.bind] at h; cases h
    | ok A =>
      cases hB : eciToEcefMatrix tm d xp yp with
      | error e =>
        simp only [eci2ecefState, hM, eciToEcefMatrixRate, htd, hp, hA, hm, hB, bind, Except.bind] at h; cases h
      | ok B =>
        simp only [eci2ecefState, hM, eciToEcefMatrixRate, htd, hp, hA, hm, hB, bind, Except.bind] at h
        injection h with h
        refine ⟨matvec3 m s.vel, matvec3 A s.pos, matvec3 B s.pos, by simp only [eci2ecef, hM]; rfl,
          by simp only [eci2ecef, hA]; rfl, by simp only [eci2ecef, hB]; rfl, ?_⟩
        rw [← h]
        simp only [applyStateRotationScalar, Bool.false_eq_true, if_false, matvec3_real, matscale3, matsub3,
          Spec.add, Spec.sub, lit_1, lit_2, lit_half]
        ext <;> simp only [] <;> ring

/-- both state conversions succeed whenever the neighbouring instants are representable -/
theorem state_total (s : PosVel ℝ) (time tp tm : DateTime) (d xp yp : ℝ) (h : TimeOk time d)
    (hp : time.addMicros 500000 = .ok tp) (hm : time.addMicros (-500000) = .ok tm) (htp : TimeOk tp d) (htm : TimeOk tm d) :
    (∃ S, eci2ecefState s time d xp yp = .ok S) ∧ (∃ S, ecef2eciState s time d xp yp = .ok S) := by
  have htd : timedeltaSeconds (0.5 : ℝ) = 500000 := timedeltaSeconds_exact _ _ (by norm_num)
  have e := eciToEcefMatrix_ok h xp yp
  have e1 := eciToEcefMatrix_ok htp xp yp
  have e2 := eciToEcefMatrix_ok htm xp yp
  constructor
  · refine ⟨?_, ?_⟩; rotate_left
    · simp only [eci2ecefState, e, eciToEcefMatrixRate, htd, hp, e1, hm, e2, bind, Except.bind]; rfl
  · refine ⟨?_, ?_⟩; rotate_left
    · simp only [ecef2eciState, e, eciToEcefMatrixRate, htd, hp, e1, hm, e2, bind, Except.bind]; rfl

/-- an instant two days away from the limits of the calendar, with `|UT1-UTC| ≤ 1 s`, is admissible -/
theorem timeOk_of_inside {t : DateTime} (hv : t.Valid) (d : ℝ) (hd : |d| ≤ 1)
    (h1 : 86400000000 ≤ Spec.instant t) (h2 : Spec.instant t ≤ 3652058 * 86400000000) : TimeOk t d := by
  have hc := timedeltaSeconds_close d
  have hb : |((timedeltaSeconds d : ℤ) : ℝ)| ≤ 1000001 := by
    rw [abs_le] at *
    constructor <;> linarith [hd.1, hd.2, hc.1, hc.2]
  have hb' : -1000001 ≤ timedeltaSeconds d ∧ timedeltaSeconds d ≤ 1000001 := by
    rw [abs_le] at hb
    constructor
    · have := hb.1; exact_mod_cast this
    · have := hb.2; exact_mod_cast this
  have hr := taiMinusUtc_range (Spec.instant t)
  refine ⟨hv, ?_, ?_, ?_⟩ <;> unfold Spec.Representable <;> constructor <;> omega

/-- **C51.** both state conversions succeed at every instant from 0001-01-03 to 9999-12-29 -/
theorem state_total_inside (s : PosVel ℝ) (time : DateTime) (hv : time.Valid) (d xp yp : ℝ) (hd : |d| ≤ 1)
    (h1 : 2 * 86400000000 ≤ Spec.instant time) (h2 : Spec.instant time ≤ 3652057 * 86400000000) :
    ∃ tp tm, time.addMicros 500000 = .ok tp ∧ time.addMicros (-500000) = .ok tm ∧
    (∃ S, eci2ecefState s time d xp yp = .ok S) ∧ (∃ S, ecef2eciState s time d xp yp = .ok S) := by
  have hw := hv.wall_eq
  have ho : -86400000000 < time.utcoffset.getD 0 ∧ time.utcoffset.getD 0 < 86400000000 := by
    cases ho : time.utcoffset with
    | none => simp
    | some o => simpa using hv.offset o ho
  obtain ⟨tp, hp, hpv, hpw, hpo⟩ := (addMicros_spec hv 500000).1
    (by unfold Spec.Representable; constructor <;> omega)
  obtain ⟨tm, hm, hmv, hmw, hmo⟩ := (addMicros_spec hv (-500000)).1
    (by unfold Spec.Representable; constructor <;> omega)
  have ip := hpv.wall_eq
  have im := hmv.wall_eq
  rw [hpo] at ip
  rw [hmo] at im
  exact ⟨tp, tm, hp, hm, state_total s time tp tm d xp yp (timeOk_of_inside hv d hd (by omega) (by omega)) hp hm
    (timeOk_of_inside hpv d hd (by omega) (by omega)) (timeOk_of_inside hmv d hd (by omega) (by omega))⟩

/-- non-vacuity: a low orbit on 2024-03-01 -/
example : ∃ S R : PosVel ℝ, eci2ecefState ⟨(7000000, 0, 0), (0, 7500, 0)⟩ exampleIst 0.1 0.05 0.3 = .ok S ∧
    ecef2eciState S exampleIst 0.1 0.05 0.3 = .ok R ∧ R = ⟨(7000000, 0, 0), (0, 7500, 0)⟩ := by
  obtain ⟨_, _, _, _, ⟨S, hS⟩, _⟩ := state_total_inside ⟨(7000000, 0, 0), (0, 7500, 0)⟩ exampleIst exampleIst_valid
    0.1 0.05 0.3 (by rw [abs_le]; constructor <;> norm_num) (by rw [exampleIst_instant]; norm_num)
    (by rw [exampleIst_instant]; norm_num)
  exact ⟨S, _, hS, ecef2eciState_eci2ecefState _ _ _ _ _ _ hS, rfl⟩

end Pymap3d
