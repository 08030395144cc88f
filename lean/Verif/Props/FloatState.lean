import Verif.Props.FloatEci
import Verif.Props.EciRate
/-!
**C90** state vectors (position and velocity) in double precision.
-/
set_option linter.unusedSectionVars false
namespace Pymap3d
open Py PyFloat
open Spec hiding norm dist
open Rate
noncomputable section

variable {M : FloatArith}

/-- one component of a matrix with entries up to 2.01 times a vector -/
theorem row_wide (D : Double M) {a b c p q r : Fl M} {N : ℝ} (ha : |a.val| ≤ 2.01) (hb : |b.val| ≤ 2.01) (hc : |c.val| ≤ 2.01) (hp : |p.val| ≤ N)
    (hq : |q.val| ≤ N) (hr : |r.val| ≤ N) :
    |(sum3 (a * p) (b * q) (c * r)).val - (a.val * p.val + b.val * q.val + c.val * r.val)| ≤ 24.3 * w53 * N := by
  have h := M.small
  have hN : 0 ≤ N := (abs_nonneg _).trans hp
  have pr : ∀ {x y : Fl M}, |x.val| ≤ 2.01 → |y.val| ≤ N → Err M.u 1 (2.01 * N) (x.val * y.val) (x * y).val := fun {x y} hx hy =>
    Err.of_near h (by rw [abs_mul]; exact mul_le_mul hx hy (abs_nonneg _) (by norm_num)) (M.rnd_near _)
  have s1 : Err M.u 2 (2.01 * N) (a.val * p.val) (0.0 + a * p : Fl M).val := by
    rw [val_add, fl_zero D, zero_add]; exact (pr ha hp).near h (M.rnd_near _)
  have s2 : Err M.u 3 _ _ (0.0 + a * p + b * q : Fl M).val := (s1.add ((pr hb hq).mono h (by norm_num) le_rfl)).near h (M.rnd_near _)
  have s3 : Err M.u 4 _ _ (0.0 + a * p + b * q + c * r : Fl M).val := (s2.add ((pr hc hr).mono h (by norm_num) le_rfl)).near h (M.rnd_near _)
  have := s3.bound h (by norm_num)
  refine this.trans ?_
  have hu : M.u ≤ w53 := D.u_le
  have := mul_le_mul_of_nonneg_right hu hN
  have hw := mul_nonneg w53_pos.le hN
  push_cast
  nlinarith

/-- all entries at most 2.01 in absolute value -/
def Wide (A : Mat3 ℝ) : Prop := |A.m00| ≤ 2.01 ∧ |A.m01| ≤ 2.01 ∧ |A.m02| ≤ 2.01 ∧ |A.m10| ≤ 2.01 ∧ |A.m11| ≤ 2.01 ∧ |A.m12| ≤ 2.01 ∧
  |A.m20| ≤ 2.01 ∧ |A.m21| ≤ 2.01 ∧ |A.m22| ≤ 2.01

theorem matvec_wide (D : Double M) {P : Mat3 (Fl M)} (h : Wide (mval P)) (v : Fl M × Fl M × Fl M) :
    Spec.dist (vval (matvec3 P v)) (matvec3 (mval P) (vval v)) ≤ 43 * w53 * Spec.norm (vval v) := by
  obtain ⟨a1, a2, a3, a4, a5, a6, a7, a8, a9⟩ := h
  obtain ⟨n1, n2, n3⟩ := comp_le_norm (vval v)
  have hn := Spec.norm_nonneg (vval v)
  have hw := w53_pos
  have r1 := row_wide D a1 a2 a3 n1 n2 n3
  have r2 := row_wide D a4 a5 a6 n1 n2 n3
  have r3 := row_wide D a7 a8 a9 n1 n2 n3
  apply Spec.le_of_sq_le_sq _ (by positivity)
  have s1 := sq_le_sq' (abs_le.mp r1).1 (abs_le.mp r1).2
  have s2 := sq_le_sq' (abs_le.mp r2).1 (abs_le.mp r2).2
  have s3 := sq_le_sq' (abs_le.mp r3).1 (abs_le.mp r3).2
  rw [Spec.dist, Spec.norm_sq, matvec3_real]
  have e : ∀ a b c : ℝ, dot (a, b, c) (a, b, c) = a ^ 2 + b ^ 2 + c ^ 2 := fun a b c => by simp only [dot]; ring
  rw [sub, e]
  refine (add_le_add (add_le_add s1 s2) s3).trans ?_
  have := sq_nonneg (w53 * Spec.norm (vval v))
  nlinarith

theorem dist_e (p q : V3) : Spec.dist p q = ‖e p - e q‖ := by rw [e_sub, norm_e]; rfl

/-- rounding every component of a vector -/
theorem round_vec (D : Double M) (p q : V3) (h1 : q.1 = M.rnd p.1) (h2 : q.2.1 = M.rnd p.2.1) (h3 : q.2.2 = M.rnd p.2.2) :
    ‖e q - e p‖ ≤ 1.0001 * w53 * ‖e p‖ := by
  rw [← dist_e, norm_e]
  have hn := Spec.norm_nonneg p
  have hw := w53_pos
  have hu : M.u ≤ w53 := D.u_le
  have r : ∀ x y : ℝ, y = M.rnd x → (y - x) ^ 2 ≤ (1.0001 * w53) ^ 2 * x ^ 2 := fun x y h => by
    have c := D.close x
    rw [← h] at c
    have c2 : |y - x| ≤ 1.0001 * w53 * |x| := c.trans (mul_le_mul_of_nonneg_right (by linarith) (abs_nonneg _))
    have := sq_le_sq' (abs_le.mp c2).1 (abs_le.mp c2).2
    rwa [mul_pow, sq_abs] at this
  apply Spec.le_of_sq_le_sq _ (by positivity)
  rw [Spec.dist, Spec.norm_sq, mul_pow, Spec.norm_sq]
  have r1 := r _ _ h1
  have r2 := r _ _ h2
  have r3 := r _ _ h3
  simp only [sub, dot]
  generalize (1.0001 * w53) ^ 2 = k at *
  clear * - r1 r2 r3
  nlinarith

theorem vadd_fl (D : Double M) (a b : Fl M × Fl M × Fl M) :
    ‖e (vval (a.1 + b.1, a.2.1 + b.2.1, a.2.2 + b.2.2)) - (e (vval a) + e (vval b))‖ ≤ 1.0001 * w53 * ‖e (vval a) + e (vval b)‖ := by
  rw [e_add]; exact round_vec D _ _ rfl rfl rfl

theorem vsub_fl (D : Double M) (a b : Fl M × Fl M × Fl M) :
    ‖e (vval (a.1 - b.1, a.2.1 - b.2.1, a.2.2 - b.2.2)) - (e (vval a) - e (vval b))‖ ≤ 1.0001 * w53 * ‖e (vval a) - e (vval b)‖ := by
  rw [e_sub]; exact round_vec D _ _ rfl rfl rfl

/-- the turn as a matrix -/
theorem turnOp_matrix (J K xp yp x : ℝ) (v : V3) : turnOp J K xp yp x (e v) = e (matvec3 (iauMatrix (J + x / 86400) (K + x / 86400) xp yp) v) := by
  rw [turnOp_e, iauMatrix_apply]

/-- the exact Julian dates -/
def jdUt1Exact (i : ℤ) (d : ℝ) : ℝ := 1721425.5 + ((i : ℝ) + 1000000 * d) / 86400000000

theorem dt_half (D : Double M) : timedeltaSeconds (0.5 : Fl M) = 500000 := by
  have v : (0.5 : Fl M).val = 0.5 := by rw [val_lit, D.lit _ 2 (by norm_num) (by norm_num)]
  have h := timedelta_fl D (0.5 : Fl M) (by rw [v]; rw [abs_le]; constructor <;> norm_num)
  rw [v] at h
  have h2 := abs_le.mp h
  have k : |((timedeltaSeconds (0.5 : Fl M) : ℤ) : ℝ) - ((500000 : ℤ) : ℝ)| < 1 := by
    push_cast; rw [abs_lt]; constructor <;> linarith
  have : |timedeltaSeconds (0.5 : Fl M) - 500000| < 1 := by exact_mod_cast k
  rw [Int.abs_lt_one_iff] at this; omega

theorem scale_fl (D : Double M) : (1.0 / (2.0 * 0.5) : Fl M).val = 1 := by
  have v : (0.5 : Fl M).val = 0.5 := by rw [val_lit, D.lit _ 2 (by norm_num) (by norm_num)]
  have w : (2.0 : Fl M).val = 2 := by rw [val_lit, D.lit _ 8 (by norm_num) (by norm_num)]; norm_num
  have o : M.rnd 1 = 1 := D.lit _ 4 (by norm_num) (by norm_num)
  rw [val_div, val_mul, fl_one D, v, w, show (2 * 0.5 : ℝ) = 1 by norm_num, o, div_one, o]

/-- one entry of the scaled difference -/
theorem diff_entry (D : Double M) {p q : Fl M} (hp : |p.val| ≤ 1.0001) (hq : |q.val| ≤ 1.0001) :
    |((1.0 / (2.0 * 0.5) : Fl M) * (p - q)).val - (p.val - q.val)| ≤ 4.1 * w53 ∧ |((1.0 / (2.0 * 0.5) : Fl M) * (p - q)).val| ≤ 2.01 := by
  have s1 : Cl 2.0002 2.01 (p.val - q.val) (p - q).val := Cl.fsub D (Cl.exact hp) (Cl.exact hq) (by norm_num) (by norm_num) (by norm_num)
  have one : Cl 1 0 1 (1.0 / (2.0 * 0.5) : Fl M).val := by rw [scale_fl D]; exact Cl.exact (by simp)
  have s2 : Cl 2.0002 4.1 (1 * (p.val - q.val)) ((1.0 / (2.0 * 0.5) : Fl M) * (p - q)).val :=
    Cl.fmul D one s1 (by norm_num) (by norm_num) (by norm_num) (by norm_num)
  have := s2.abs_le (by norm_num)
  have k := s2.2
  rw [one_mul] at k
  exact ⟨k, this.trans (by norm_num)⟩

theorem modern_shift {i : ℤ} (h : |1721425.5 + (i : ℝ) / 86400000000 - 2451545| ≤ 72999) (k : ℤ) (hk : |k| ≤ 500000) : Modern (i + k) := by
  unfold Modern
  have h1 := abs_le.mp h
  have hk' : |(k : ℝ)| ≤ 500000 := by exact_mod_cast hk
  have h2 := abs_le.mp hk'
  push_cast
  rw [abs_le]
  constructor <;> linarith

/-- `_eci_to_ecef_matrix_rate` in double precision: a wide matrix close to the difference of the exact rotations half a second later and earlier -/
theorem rate_fl (D : Double M) {t : DateTime} (ht : t.Valid) (hy : |1721425.5 + (Spec.instant t : ℝ) / 86400000000 - 2451545| ≤ 72999) (d xp yp : Fl M) (hd : |d.val| ≤ 1)
    (hx : |xp.val| ≤ 10000) (hyp : |yp.val| ≤ 10000)
    (hl : taiMinusUtc (Spec.instant t + 500000) = taiMinusUtc (Spec.instant t - 500000)) :
    ∃ R : Mat3 (Fl M), eciToEcefMatrixRate t d xp yp = .ok R ∧ Wide (mval R) ∧ ∀ v : V3,
      ‖e (matvec3 (mval R) v) - (turnOp (jdUt1Exact (Spec.instant t) d.val) (jdTt (Spec.instant t)) xp.val yp.val (1 / 2) (e v)
        - turnOp (jdUt1Exact (Spec.instant t) d.val) (jdTt (Spec.instant t)) xp.val yp.val (-(1 / 2)) (e v))‖ ≤ 6.4401e7 * w53 * Spec.norm v := by
  have hw := ht.wall_eq
  have ho : -86400000000 < t.utcoffset.getD 0 ∧ t.utcoffset.getD 0 < 86400000000 := by
    cases ho : t.utcoffset with
    | none => simp
    | some o => simpa using ht.offset o ho
  have hi : 600000 * 86400000000 ≤ Spec.instant t ∧ Spec.instant t ≤ 900000 * 86400000000 := by
    have h1 := abs_le.mp hy
    constructor
    · have : ((600000 * 86400000000 : ℤ) : ℝ) ≤ (Spec.instant t : ℝ) := by push_cast; linarith
      exact_mod_cast this
    · have : (Spec.instant t : ℝ) ≤ ((900000 * 86400000000 : ℤ) : ℝ) := by push_cast; linarith
      exact_mod_cast this
  obtain ⟨tp, hp, hpv, hpw, hpo⟩ := (addMicros_spec ht 500000).1 (by unfold Spec.Representable; constructor <;> omega)
  obtain ⟨tm, hm, hmv, hmw, hmo⟩ := (addMicros_spec ht (-500000)).1 (by unfold Spec.Representable; constructor <;> omega)
  have ip := hpv.wall_eq
  have im := hmv.wall_eq
  rw [hpo] at ip
  rw [hmo] at im
  have jp : Spec.instant tp = Spec.instant t + 500000 := by omega
  have jm : Spec.instant tm = Spec.instant t + -500000 := by omega
  obtain ⟨P, hP, oP⟩ := eciToEcefMatrix_fl D hpv (by rw [jp]; exact modern_shift hy _ (by norm_num)) d xp yp hd hx hyp
  obtain ⟨Q, hQ, oQ⟩ := eciToEcefMatrix_fl D hmv (by rw [jm]; exact modern_shift hy _ (by norm_num)) d xp yp hd hx hyp
  have l1 := taiMinusUtc_mono (i := Spec.instant t - 500000) (j := Spec.instant t) (by omega)
  have l2 := taiMinusUtc_mono (i := Spec.instant t) (j := Spec.instant t + 500000) (by omega)
  have u1 : (1721425.5 + ((Spec.instant tp : ℝ) + 1000000 * d.val) / 86400000000 : ℝ) = jdUt1Exact (Spec.instant t) d.val + 1 / 2 / 86400 := by
    rw [jp]; simp only [jdUt1Exact]; push_cast; ring
  have u2 : (1721425.5 + ((Spec.instant tm : ℝ) + 1000000 * d.val) / 86400000000 : ℝ) = jdUt1Exact (Spec.instant t) d.val + -(1 / 2) / 86400 := by
    rw [jm]; simp only [jdUt1Exact]; push_cast; ring
  have t1 : jdTt (Spec.instant tp) = jdTt (Spec.instant t) + 1 / 2 / 86400 := by
    rw [jp]; simp only [jdTt]; rw [show taiMinusUtc (Spec.instant t + 500000) = taiMinusUtc (Spec.instant t) by omega]; push_cast; ring
  have t2 : jdTt (Spec.instant tm) = jdTt (Spec.instant t) + -(1 / 2) / 86400 := by
    rw [jm]; simp only [jdTt]
    rw [show taiMinusUtc (Spec.instant t + -500000) = taiMinusUtc (Spec.instant t) by rw [show Spec.instant t + -500000 = Spec.instant t - 500000 by ring]; omega]; push_cast; ring
  rw [u1, t1] at oP
  rw [u2, t2] at oQ
  have eP := oP.entry (iauMatrix_rot _ _ _ _) (by norm_num)
  have eQ := oQ.entry (iauMatrix_rot _ _ _ _) (by norm_num)
  refine ⟨matscale3 (matsub3 P Q) (1.0 / (2.0 * 0.5)), ?_, ?_, fun v => ?_⟩
  · simp only [eciToEcefMatrixRate, dt_half D, hp, hm, hP, hQ, bind, Except.bind, pure, Except.pure]
  · obtain ⟨a1, a2, a3, a4, a5, a6, a7, a8, a9⟩ := eP
    obtain ⟨b1, b2, b3, b4, b5, b6, b7, b8, b9⟩ := eQ
    exact ⟨(diff_entry D a1 b1).2, (diff_entry D a2 b2).2, (diff_entry D a3 b3).2, (diff_entry D a4 b4).2, (diff_entry D a5 b5).2, (diff_entry D a6 b6).2,
      (diff_entry D a7 b7).2, (diff_entry D a8 b8).2, (diff_entry D a9 b9).2⟩
  · have o1 : OpNear (3 * 4.1) (mval (matscale3 (matsub3 P Q) (1.0 / (2.0 * 0.5)))) (matsub3 (mval P) (mval Q)) := by
      obtain ⟨a1, a2, a3, a4, a5, a6, a7, a8, a9⟩ := eP
      obtain ⟨b1, b2, b3, b4, b5, b6, b7, b8, b9⟩ := eQ
      exact OpNear.entries (diff_entry D a1 b1).1 (diff_entry D a2 b2).1 (diff_entry D a3 b3).1 (diff_entry D a4 b4).1 (diff_entry D a5 b5).1 (diff_entry D a6 b6).1
        (diff_entry D a7 b7).1 (diff_entry D a8 b8).1 (diff_entry D a9 b9).1
    have h1 := o1 v
    have h2 := oP v
    have h3 := oQ v
    rw [dist_e] at h1 h2 h3
    rw [turnOp_matrix, turnOp_matrix]
    have es : e (matvec3 (matsub3 (mval P) (mval Q)) v) = e (matvec3 (mval P) v) - e (matvec3 (mval Q) v) := by
      rw [e_sub]; congr 1
      simp only [matvec3_real, matsub3, sub]; refine Prod.ext ?_ (Prod.ext ?_ ?_) <;> dsimp only <;> ring
    rw [es] at h1
    have hn : 0 ≤ w53 * Spec.norm v := mul_nonneg w53_pos.le (Spec.norm_nonneg v)
    rw [mul_assoc] at h1 h2 h3 ⊢
    generalize w53 * Spec.norm v = n at *
    generalize e (matvec3 (mval (matscale3 (matsub3 P Q) (1.0 / (2.0 * 0.5)))) v) = r at *
    generalize e (matvec3 (mval P) v) = p at *
    generalize e (matvec3 (mval Q) v) = q at *
    generalize e (matvec3 (iauMatrix _ _ _ _) v) = a at h2 ⊢
    generalize e (matvec3 (iauMatrix _ _ _ _) v) = b at h3 ⊢
    have id : r - (a - b) = (r - (p - q)) + ((p - a) - (q - b)) := by abel
    rw [id]
    have k1 := norm_add_le (r - (p - q)) ((p - a) - (q - b))
    have k2 := norm_sub_le (p - a) (q - b)
    clear * - k1 k2 h1 h2 h3 hn
    linarith

/-- The Earth-fixed coordinates, `x` seconds after the Julian dates `J` (UT1) and `K` (TT), of the point that is at `p` then and moves uniformly with
velocity `v` in inertial space. -/
def movingAt (J K xp yp : ℝ) (p v : V3) (x : ℝ) : V3 :=
  turnY (arcsec xp) (turnX (arcsec yp) (pseudoEarthFixed (J + x / 86400) (K + x / 86400) (p.1 + x * v.1, p.2.1 + x * v.2.1, p.2.2 + x * v.2.2)))

theorem modern_dates {i : ℤ} (h : |1721425.5 + (i : ℝ) / 86400000000 - 2451545| ≤ 72999) {d : ℝ} (hd : |d| ≤ 1) :
    |centuries (jdUt1Exact i d)| ≤ 81 ∧ |centuries (jdTt i)| ≤ 81 := by
  have h1 := abs_le.mp h
  have h2 := abs_le.mp hd
  have h3 := taiMinusUtc_range i
  have h4 : (0:ℝ) ≤ (taiMinusUtc i : ℝ) := by exact_mod_cast (by norm_num : (0:ℤ) ≤ 10).trans h3.1
  have h5 : (taiMinusUtc i : ℝ) ≤ 100 := by exact_mod_cast h3.2.trans (by norm_num)
  simp only [centuries, jdUt1Exact, jdTt]
  push_cast
  generalize (i : ℝ) = X at *
  generalize (taiMinusUtc i : ℝ) = L at *
  clear * - h1 h2 h4 h5
  constructor
  · rw [abs_le]; constructor <;> (norm_num; linarith)
  · rw [abs_le]; constructor <;> (norm_num; linarith)

/-- the exact derivative, at the instant of the Julian dates, of the moving point -/
theorem moving_derivative {J K : ℝ} (xp yp : ℝ) (h1 : |centuries J| ≤ 81) (h2 : |centuries K| ≤ 81) (p v : V3) :
    ∃ V : V3, HasDerivAt (fun x => (movingAt J K xp yp p v x).1) V.1 0 ∧ HasDerivAt (fun x => (movingAt J K xp yp p v x).2.1) V.2.1 0 ∧
      HasDerivAt (fun x => (movingAt J K xp yp p v x).2.2) V.2.2 0 ∧
      ‖turnOp J K xp yp 0 (e v) + (turnOp J K xp yp (1 / 2) (e p) - turnOp J K xp yp (-(1 / 2)) (e p)) - e V‖ ≤ 2e-14 * Spec.norm p := by
  obtain ⟨D, hD, bD⟩ := path_derivative xp yp h1 h2 p v
  obtain ⟨V, rfl⟩ := exists_e D
  have hD' : HasDerivAt (fun x => e (movingAt J K xp yp p v x)) (e V) 0 := by
    refine hD.congr_of_eventuallyEq (Filter.Eventually.of_forall fun x => ?_)
    simp only [turnOp_e]; rfl
  obtain ⟨k1, k2, k3⟩ := deriv_components hD'
  exact ⟨V, k1, k2, k3, bD⟩

theorem turnOp_norm (J K xp yp x : ℝ) (v : V3) : ‖turnOp J K xp yp x (e v)‖ = Spec.norm v := by
  rw [turnOp_matrix, norm_e]; exact (iauMatrix_rot _ _ _ _).norm v

/-- **C90.** `eci2ecef_state` in double precision: for every state vector, every datetime from 1800 to 2200 not within half a second of a leap second, every
UT1−UTC of at most a second and polar motion up to 10 000″ the call succeeds; the position is within 3.6·10⁻⁹ of its size of the exact one and the velocity is
the time derivative of the exact Earth-fixed position within 7.2·10⁻⁹ of the position per second plus 3.6·10⁻⁹ of the velocity (5 cm/s + 0.03 mm/s in a low
orbit: the Julian dates half a second apart are only known to 50 µs). -/
theorem eci2ecef_state_float (D : Double M) (s : PosVel (Fl M)) {t : DateTime} (ht : t.Valid)
    (hy : |1721425.5 + (Spec.instant t : ℝ) / 86400000000 - 2451545| ≤ 72999) (d xp yp : Fl M) (hd : |d.val| ≤ 1) (hx : |xp.val| ≤ 10000) (hyp : |yp.val| ≤ 10000)
    (hl : taiMinusUtc (Spec.instant t + 500000) = taiMinusUtc (Spec.instant t - 500000)) :
    ∃ S, eci2ecefState s t d xp yp = .ok S ∧
      Spec.dist (vval S.pos) (movingAt (jdUt1Exact (Spec.instant t) d.val) (jdTt (Spec.instant t)) xp.val yp.val (vval s.pos) (vval s.vel) 0)
        ≤ 3.6e-9 * Spec.norm (vval s.pos) ∧
      ∃ V : V3, HasDerivAt (fun x => (movingAt (jdUt1Exact (Spec.instant t) d.val) (jdTt (Spec.instant t)) xp.val yp.val (vval s.pos) (vval s.vel) x).1) V.1 0 ∧
        HasDerivAt (fun x => (movingAt (jdUt1Exact (Spec.instant t) d.val) (jdTt (Spec.instant t)) xp.val yp.val (vval s.pos) (vval s.vel) x).2.1) V.2.1 0 ∧
        HasDerivAt (fun x => (movingAt (jdUt1Exact (Spec.instant t) d.val) (jdTt (Spec.instant t)) xp.val yp.val (vval s.pos) (vval s.vel) x).2.2) V.2.2 0 ∧
        Spec.dist (vval S.vel) V ≤ 7.2e-9 * Spec.norm (vval s.pos) + 3.6e-9 * Spec.norm (vval s.vel) := by
  have hy0 : Modern (Spec.instant t) := by have := modern_shift hy 0 (by norm_num); rwa [add_zero] at this
  obtain ⟨m, hm, hO⟩ := eciToEcefMatrix_fl D ht hy0 d xp yp hd hx hyp
  obtain ⟨R, hR, hW, hB⟩ := rate_fl D ht hy d xp yp hd hx hyp hl
  obtain ⟨c1, c2⟩ := modern_dates hy hd
  change OpNear 3.22e7 (mval m) (iauMatrix (jdUt1Exact (Spec.instant t) d.val) (jdTt (Spec.instant t)) xp.val yp.val) at hO
  obtain ⟨V, k1, k2, k3, bV⟩ := moving_derivative xp.val yp.val c1 c2 (vval s.pos) (vval s.vel)
  refine ⟨applyStateRotationScalar m R s false, by simp only [eci2ecefState, hm, hR, bind, Except.bind, pure, Except.pure], ?_, V, k1, k2, k3, ?_⟩
  · have h1 := hO.fvec D (iauMatrix_rot _ _ _ _) (by norm_num) s.pos (e := 3.221e7) (by norm_num)
    rw [iauMatrix_apply] at h1
    have em : movingAt (jdUt1Exact (Spec.instant t) d.val) (jdTt (Spec.instant t)) xp.val yp.val (vval s.pos) (vval s.vel) 0
      = turnY (arcsec xp.val) (turnX (arcsec yp.val) (pseudoEarthFixed (jdUt1Exact (Spec.instant t) d.val) (jdTt (Spec.instant t)) (vval s.pos))) := by
      simp [movingAt]
    rw [em]
    refine h1.trans (mul_le_mul_of_nonneg_right ?_ (Spec.norm_nonneg _))
    have := w53_le
    norm_num at this ⊢
    linarith
  · have h1 := hO.fvec D (iauMatrix_rot _ _ _ _) (by norm_num) s.vel (e := 3.22001e7) (by norm_num)
    have h2 := matvec_wide D hW s.pos
    have h3 := hB (vval s.pos)
    have h4 := vadd_fl D (matvec3 m s.vel) (matvec3 R s.pos)
    have z : e (matvec3 (iauMatrix (jdUt1Exact (Spec.instant t) d.val) (jdTt (Spec.instant t)) xp.val yp.val) (vval s.vel)) =
        turnOp (jdUt1Exact (Spec.instant t) d.val) (jdTt (Spec.instant t)) xp.val yp.val 0 (e (vval s.vel)) := by
      rw [turnOp_matrix, zero_div, add_zero, add_zero]
    rw [dist_e] at h1 h2 ⊢
    rw [z] at h1
    have n1 := turnOp_norm (jdUt1Exact (Spec.instant t) d.val) (jdTt (Spec.instant t)) xp.val yp.val 0 (vval s.vel)
    have n2 := turnOp_norm (jdUt1Exact (Spec.instant t) d.val) (jdTt (Spec.instant t)) xp.val yp.val (1 / 2) (vval s.pos)
    have n3 := turnOp_norm (jdUt1Exact (Spec.instant t) d.val) (jdTt (Spec.instant t)) xp.val yp.val (-(1 / 2)) (vval s.pos)
    have hp := Spec.norm_nonneg (vval s.pos)
    have hv := Spec.norm_nonneg (vval s.vel)
    change ‖e (vval ((matvec3 m s.vel).1 + (matvec3 R s.pos).1, (matvec3 m s.vel).2.1 + (matvec3 R s.pos).2.1, (matvec3 m s.vel).2.2 + (matvec3 R s.pos).2.2)) - e V‖ ≤ _
    generalize e (vval ((matvec3 m s.vel).1 + (matvec3 R s.pos).1, (matvec3 m s.vel).2.1 + (matvec3 R s.pos).2.1, (matvec3 m s.vel).2.2 + (matvec3 R s.pos).2.2)) = S at *
    generalize turnOp _ _ _ _ 0 (e (vval s.vel)) = a0 at *
    generalize turnOp _ _ _ _ (1 / 2) (e (vval s.pos)) = ap at *
    generalize turnOp _ _ _ _ (-(1 / 2)) (e (vval s.pos)) = am at *
    generalize e (vval (matvec3 m s.vel)) = a at *
    generalize e (vval (matvec3 R s.pos)) = r at *
    generalize e (matvec3 (mval R) (vval s.pos)) = r' at *
    generalize e V = V at *
    generalize Spec.norm (vval s.pos) = p at *
    generalize Spec.norm (vval s.vel) = v at *
    clear * - h1 h2 h3 h4 n1 n2 n3 bV hp hv
    have hw := w53_pos
    have hw2 := w53_le
    have id : S - V = (S - (a + r)) + ((a - a0) + ((r - r') + ((r' - (ap - am)) + (a0 + (ap - am) - V)))) := by abel
    have q1 := norm_add_le (S - (a + r)) ((a - a0) + ((r - r') + ((r' - (ap - am)) + (a0 + (ap - am) - V))))
    have q2 := norm_add_le (a - a0) ((r - r') + ((r' - (ap - am)) + (a0 + (ap - am) - V)))
    have q3 := norm_add_le (r - r') ((r' - (ap - am)) + (a0 + (ap - am) - V))
    have q4 := norm_add_le (r' - (ap - am)) (a0 + (ap - am) - V)
    have id2 : a + r = a0 + (ap - am) + ((a - a0) + ((r - r') + (r' - (ap - am)))) := by abel
    have q5 : ‖a + r‖ ≤ ‖a0‖ + (‖ap‖ + ‖am‖) + (‖a - a0‖ + (‖r - r'‖ + ‖r' - (ap - am)‖)) := by
      rw [id2]
      have y1 := norm_add_le (a0 + (ap - am)) ((a - a0) + ((r - r') + (r' - (ap - am))))
      have y2 := norm_add_le (a - a0) ((r - r') + (r' - (ap - am)))
      have y3 := norm_add_le (r - r') (r' - (ap - am))
      have y4 := norm_add_le a0 (ap - am)
      have y5 := norm_sub_le ap am
      linarith
    rw [id]
    rw [n1, n2, n3] at q5
    have hA0 := norm_nonneg (a + r)
    generalize ‖a + r‖ = A at *
    have wp : w53 * p ≤ 1.111e-16 * p := mul_le_mul_of_nonneg_right hw2 hp
    have wv : w53 * v ≤ 1.111e-16 * v := mul_le_mul_of_nonneg_right hw2 hv
    rw [mul_assoc] at h1 h2 h3 h4
    have hA : A ≤ 2 * v + 3 * p := by norm_num at *; linarith
    have wA : w53 * A ≤ 1.111e-16 * (2 * v + 3 * p) := mul_le_mul hw2 hA hA0 (by norm_num)
    norm_num at *
    linarith

/-- the derivative of the rotation, applied to a fixed point -/
theorem turn_rate {J K : ℝ} (xp yp : ℝ) (h1 : |centuries J| ≤ 81) (h2 : |centuries K| ≤ 81) (q : V3) :
    ∃ w : V3, ‖turnOp J K xp yp (1 / 2) (e q) - turnOp J K xp yp (-(1 / 2)) (e q) - e w‖ ≤ 2e-14 * Spec.norm q ∧
      (∀ p : V3, ‖turnOp J K xp yp (1 / 2) (e p) - turnOp J K xp yp (-(1 / 2)) (e p)‖ ≤ 7.48e-5 * Spec.norm p) ∧
      ∀ u : V3, HasDerivAt (fun x => e (movingAt J K xp yp q u x)) (e w + turnOp J K xp yp 0 (e u)) 0 := by
  obtain ⟨E1, E2, E3', d1, d2, d3, bd⟩ := smooth_turnOp xp yp h1 h2
  obtain ⟨w, hw⟩ := exists_e (E1 0 (e q))
  have dv : ∀ u : V3, HasDerivAt (fun x => e (movingAt J K xp yp q u x)) (e w + turnOp J K xp yp 0 (e u)) 0 := fun u => by
    have k : HasDerivAt (fun x : ℝ => e q + x • e u) (e u) 0 := by
      have := ((hasDerivAt_id (0:ℝ)).smul_const (e u)).const_add (e q)
      simpa using this
    have := (d1 0).clm_apply k
    have e1 : (fun x => e (movingAt J K xp yp q u x)) = fun x => turnOp J K xp yp x (e q + x • e u) := by
      funext x; rw [e_smul, e_add, turnOp_e]; rfl
    rw [e1]
    refine this.congr_deriv ?_
    rw [zero_smul, add_zero, hw]
  refine ⟨w, ?_, fun p => ?_, dv⟩
  · obtain ⟨D, hD, bD⟩ := path_derivative xp yp h1 h2 q (0, 0, 0)
    have hD' : HasDerivAt (fun x => e (movingAt J K xp yp q (0, 0, 0) x)) D 0 := by
      refine hD.congr_of_eventuallyEq (Filter.Eventually.of_forall fun x => ?_)
      simp only [turnOp_e]; rfl
    have u := hD'.unique (dv (0, 0, 0))
    have z : e (0, 0, 0) = 0 := by ext i; fin_cases i <;> simp [e]
    rw [z, map_zero, add_zero] at u
    rw [z, map_zero, zero_add, u] at bD
    exact bD
  · have mv := (convex_Icc (-(1 / 2) : ℝ) (1 / 2)).norm_image_sub_le_of_norm_hasDerivWithin_le (f := turnOp J K xp yp) (f' := E1) (C := 7.48e-5)
      (fun x _ => (d1 x).hasDerivWithinAt) (fun x hx => by
        have b := (bd x (by rw [abs_le]; constructor <;> linarith [hx.1, hx.2])).2.1
        simpa using b)
      (show (-(1 / 2) : ℝ) ∈ Set.Icc (-(1 / 2) : ℝ) (1 / 2) by constructor <;> norm_num) (show (1 / 2 : ℝ) ∈ Set.Icc (-(1 / 2) : ℝ) (1 / 2) by constructor <;> norm_num)
    have n1 : ‖(1 / 2 - -(1 / 2) : ℝ)‖ = 1 := by norm_num
    rw [n1, mul_one] at mv
    have := (turnOp J K xp yp (1 / 2) - turnOp J K xp yp (-(1 / 2))).le_opNorm (e p)
    rw [_root_.sub_apply, norm_e] at this
    exact this.trans (mul_le_mul_of_nonneg_right mv (Spec.norm_nonneg p))

/-- **C90.** `ecef2eci_state` in double precision, under the same conditions: the result is within 3.6·10⁻⁹ of the position, and within 7.2·10⁻⁹ of the position
per second plus 3.6·10⁻⁹ of the velocity, of the inertial state whose uniform motion passes through the given Earth-fixed position with the given Earth-fixed
velocity. -/
theorem ecef2eci_state_float (D : Double M) (S : PosVel (Fl M)) {t : DateTime} (ht : t.Valid)
    (hy : |1721425.5 + (Spec.instant t : ℝ) / 86400000000 - 2451545| ≤ 72999) (d xp yp : Fl M) (hd : |d.val| ≤ 1) (hx : |xp.val| ≤ 10000) (hyp : |yp.val| ≤ 10000)
    (hl : taiMinusUtc (Spec.instant t + 500000) = taiMinusUtc (Spec.instant t - 500000)) :
    ∃ s, ecef2eciState S t d xp yp = .ok s ∧ ∃ q u : V3,
      movingAt (jdUt1Exact (Spec.instant t) d.val) (jdTt (Spec.instant t)) xp.val yp.val q u 0 = vval S.pos ∧
      HasDerivAt (fun x => (movingAt (jdUt1Exact (Spec.instant t) d.val) (jdTt (Spec.instant t)) xp.val yp.val q u x).1) (vval S.vel).1 0 ∧
      HasDerivAt (fun x => (movingAt (jdUt1Exact (Spec.instant t) d.val) (jdTt (Spec.instant t)) xp.val yp.val q u x).2.1) (vval S.vel).2.1 0 ∧
      HasDerivAt (fun x => (movingAt (jdUt1Exact (Spec.instant t) d.val) (jdTt (Spec.instant t)) xp.val yp.val q u x).2.2) (vval S.vel).2.2 0 ∧
      Spec.dist (vval s.pos) q ≤ 3.6e-9 * Spec.norm (vval S.pos) ∧
      Spec.dist (vval s.vel) u ≤ 7.2e-9 * Spec.norm (vval S.pos) + 3.6e-9 * Spec.norm (vval S.vel) := by
  have hy0 : Modern (Spec.instant t) := by have := modern_shift hy 0 (by norm_num); rwa [add_zero] at this
  obtain ⟨m, hm, hO⟩ := eciToEcefMatrix_fl D ht hy0 d xp yp hd hx hyp
  obtain ⟨R, hR, hW, hB⟩ := rate_fl D ht hy d xp yp hd hx hyp hl
  obtain ⟨c1, c2⟩ := modern_dates hy hd
  change OpNear 3.22e7 (mval m) (iauMatrix (jdUt1Exact (Spec.instant t) d.val) (jdTt (Spec.instant t)) xp.val yp.val) at hO
  have rA := iauMatrix_rot (jdUt1Exact (Spec.instant t) d.val) (jdTt (Spec.instant t)) xp.val yp.val
  have z : ∀ u : V3, turnOp (jdUt1Exact (Spec.instant t) d.val) (jdTt (Spec.instant t)) xp.val yp.val 0 (e u) =
      e (matvec3 (iauMatrix (jdUt1Exact (Spec.instant t) d.val) (jdTt (Spec.instant t)) xp.val yp.val) u) := fun u => by
    rw [turnOp_matrix, zero_div, add_zero, add_zero]
  have em : ∀ q u, movingAt (jdUt1Exact (Spec.instant t) d.val) (jdTt (Spec.instant t)) xp.val yp.val q u 0
      = matvec3 (iauMatrix (jdUt1Exact (Spec.instant t) d.val) (jdTt (Spec.instant t)) xp.val yp.val) q := fun q u => by
    rw [iauMatrix_apply]; simp [movingAt]
  have hT : OpNear 3.22e7 (mval (transpose3 m)) _ := hO.transpose (by norm_num)
  obtain ⟨q, hq⟩ : ∃ q, q = matvec3 (transpose3 (iauMatrix (jdUt1Exact (Spec.instant t) d.val) (jdTt (Spec.instant t)) xp.val yp.val)) (vval S.pos) := ⟨_, rfl⟩
  obtain ⟨w, b1, b2, dv⟩ := turn_rate xp.val yp.val c1 c2 q
  generalize jdUt1Exact (Spec.instant t) d.val = J at *
  generalize jdTt (Spec.instant t) = K at *
  refine ⟨applyStateRotationScalar m R S true, by simp only [ecef2eciState, hm, hR, bind, Except.bind, pure, Except.pure],
    q, matvec3 (transpose3 (iauMatrix J K xp.val yp.val)) (sub (vval S.vel) w), ?_, ?_⟩
  · rw [em, hq, rA.right]
  have dv' := dv (matvec3 (transpose3 (iauMatrix J K xp.val yp.val)) (sub (vval S.vel) w))
  rw [z, rA.right, ← e_sub, add_sub_cancel] at dv'
  obtain ⟨k1, k2, k3⟩ := deriv_components dv'
  have p1 := hT.fvec D rA.transpose (by norm_num) S.pos (e := 3.22001e7) (by norm_num)
  rw [← hq] at p1
  refine ⟨k1, k2, k3, ?_, ?_⟩
  · refine p1.trans (mul_le_mul_of_nonneg_right ?_ (Spec.norm_nonneg _))
    have := w53_le
    norm_num at this ⊢
    linarith
  · obtain ⟨P, hP⟩ : ∃ P, P = matvec3 (transpose3 m) S.pos := ⟨_, rfl⟩
    obtain ⟨C, hC⟩ : ∃ C, C = matvec3 R P := ⟨_, rfl⟩
    obtain ⟨X, hX⟩ : ∃ X, X = (S.vel.1 - C.1, S.vel.2.1 - C.2.1, S.vel.2.2 - C.2.2) := ⟨_, rfl⟩
    have hv : (applyStateRotationScalar m R S true).vel = matvec3 (transpose3 m) X := by rw [hX, hC, hP]; rfl
    rw [hv]
    rw [← hP] at p1
    have h2 := matvec_wide D hW P
    rw [← hC] at h2
    have h3 := hB (vval P)
    have h4 := vsub_fl D S.vel C
    rw [← hX] at h4
    have h5 := hT.fvec D rA.transpose (by norm_num) X (e := 3.22001e7) (by norm_num)
    have h6 := b2 (sub (vval P) q)
    have h9 := b2 q
    have hqn : Spec.norm q = Spec.norm (vval S.pos) := by rw [hq]; exact rA.transpose.norm _
    have h7 : Spec.dist (matvec3 (transpose3 (iauMatrix J K xp.val yp.val)) (vval X)) (matvec3 (transpose3 (iauMatrix J K xp.val yp.val)) (sub (vval S.vel) w))
        = Spec.dist (vval X) (sub (vval S.vel) w) := by
      have el : ∀ (A : Mat3 ℝ) (p q : V3), sub (matvec3 A p) (matvec3 A q) = matvec3 A (sub p q) := by
        intro A p q; simp only [matvec3_real, sub]; refine Prod.ext ?_ (Prod.ext ?_ ?_) <;> dsimp only <;> ring
      rw [Spec.dist, el]; exact rA.transpose.norm _
    have h8 := dist_tri (vval (matvec3 (transpose3 m) X)) (matvec3 (transpose3 (iauMatrix J K xp.val yp.val)) (vval X))
      (matvec3 (transpose3 (iauMatrix J K xp.val yp.val)) (sub (vval S.vel) w))
    rw [h7] at h8
    refine h8.trans ?_
    rw [← norm_e (vval X)] at h5
    rw [← norm_e (vval P)] at h2 h3
    rw [← norm_e (sub (vval P) q), ← e_sub, map_sub, map_sub] at h6
    rw [← norm_e q] at hqn b1 h9
    rw [← norm_e (vval S.vel)]
    rw [dist_e] at p1 h2
    rw [dist_e (vval X), ← e_sub]
    have hp := Spec.norm_nonneg (vval S.pos)
    generalize Spec.dist (vval (matvec3 (transpose3 m) X)) (matvec3 (transpose3 (iauMatrix J K xp.val yp.val)) (vval X)) = Z at h5 ⊢
    generalize Spec.norm (vval S.pos) = p at *
    generalize e (vval X) = x at *
    generalize e (vval S.vel) = v at *
    generalize e w = w at *
    generalize e (vval C) = c at *
    generalize e (matvec3 (mval R) (vval P)) = c' at *
    generalize e (vval P) = y at *
    generalize e q = q at *
    generalize turnOp J K xp.val yp.val (1 / 2) y = ty at *
    generalize turnOp J K xp.val yp.val (-(1 / 2)) y = sy at *
    generalize turnOp J K xp.val yp.val (1 / 2) q = tq at *
    generalize turnOp J K xp.val yp.val (-(1 / 2)) q = sq at *
    clear * - p1 h2 h3 h4 h5 h6 h9 b1 hqn hp
    have hw := w53_pos
    have hw2 := w53_le
    rw [hqn] at h9 b1
    have y1 : ‖y‖ ≤ ‖q‖ + ‖y - q‖ := by have := norm_add_le q (y - q); simpa using this
    have id1 : c - w = (c - c') + ((c' - (ty - sy)) + ((ty - tq - (sy - sq)) + (tq - sq - w))) := by abel
    have q1 := norm_add_le (c - c') ((c' - (ty - sy)) + ((ty - tq - (sy - sq)) + (tq - sq - w)))
    have q2 := norm_add_le (c' - (ty - sy)) ((ty - tq - (sy - sq)) + (tq - sq - w))
    have q3 := norm_add_le (ty - tq - (sy - sq)) (tq - sq - w)
    rw [← id1] at q1
    have w1 : ‖w‖ ≤ ‖tq - sq‖ + ‖tq - sq - w‖ := by have := norm_sub_le (tq - sq) (tq - sq - w); simpa using this
    have v1 : ‖v - c‖ ≤ ‖v‖ + (‖w‖ + ‖c - w‖) := by
      have a1 := norm_sub_le v (w + (c - w))
      have a2 := norm_add_le w (c - w)
      rw [show v - (w + (c - w)) = v - c by abel] at a1
      linarith
    have x1 : ‖x‖ ≤ ‖v - c‖ + ‖x - (v - c)‖ := by have := norm_add_le (v - c) (x - (v - c)); simpa using this
    have x2 : ‖x - (v - w)‖ ≤ ‖x - (v - c)‖ + ‖c - w‖ := by
      have a1 := norm_sub_le (x - (v - c)) (c - w)
      rwa [show x - (v - c) - (c - w) = x - (v - w) by abel] at a1
    have nx := norm_nonneg x
    have ny := norm_nonneg y
    have nv := norm_nonneg v
    have nvc := norm_nonneg (v - c)
    generalize ‖x - (v - w)‖ = A1 at *
    generalize ‖x - (v - c)‖ = A2 at *
    generalize ‖c - w‖ = A3 at *
    generalize ‖c - c'‖ = A4 at *
    generalize ‖v - c‖ = A5 at *
    generalize ‖tq - sq - w‖ = A6 at *
    generalize ‖tq - sq‖ = A7 at *
    generalize ‖ty - tq - (sy - sq)‖ = A8 at *
    generalize ‖y - q‖ = A9 at *
    generalize ‖c' - (ty - sy)‖ = B1 at *
    generalize ‖c' - (ty - sy) + (ty - tq - (sy - sq) + (tq - sq - w))‖ = B2 at *
    generalize ‖ty - tq - (sy - sq) + (tq - sq - w)‖ = B3 at *
    generalize ‖x‖ = x at *
    generalize ‖y‖ = y at *
    generalize ‖w‖ = w at *
    generalize ‖v‖ = v at *
    generalize ‖q‖ = q at *
    subst hqn
    clear id1
    have wp : w53 * q ≤ 1.111e-16 * q := mul_le_mul_of_nonneg_right hw2 hp
    have wy : w53 * y ≤ 1.111e-16 * y := mul_le_mul_of_nonneg_right hw2 ny
    have wx : w53 * x ≤ 1.111e-16 * x := mul_le_mul_of_nonneg_right hw2 nx
    have wv : w53 * A5 ≤ 1.111e-16 * A5 := mul_le_mul_of_nonneg_right hw2 nvc
    rw [mul_assoc] at p1 h2 h3 h4 h5
    generalize w53 * q = wq at *
    generalize w53 * y = wwy at *
    generalize w53 * x = wwx at *
    generalize w53 * A5 = wwv at *
    clear hw hw2
    norm_num at *
    linarith

/-- the hypotheses are met by IEEE arithmetic and a low orbit on a date given in Indian time -/
example : ∃ S : PosVel (Fl binary64), eci2ecefState ⟨(Fl.of binary64 7000000, Fl.of _ 0, Fl.of _ 0), (Fl.of _ 0, Fl.of _ 7500, Fl.of _ 0)⟩ exampleIst
    (Fl.of _ 0.1) (Fl.of _ 0.05) (Fl.of _ 0.3) = .ok S ∧
    ∃ V : V3, HasDerivAt (fun x => (movingAt (jdUt1Exact (Spec.instant exampleIst) 0.1) (jdTt (Spec.instant exampleIst)) 0.05 0.3 (7000000, 0, 0) (0, 7500, 0) x).1) V.1 0 ∧
      |S.vel.1.val - V.1| ≤ 0.0505 := by
  have hm : |1721425.5 + (Spec.instant exampleIst : ℝ) / 86400000000 - 2451545| ≤ 72999 := by
    rw [exampleIst_instant, abs_le]; constructor <;> norm_num
  have hl : taiMinusUtc (Spec.instant exampleIst + 500000) = taiMinusUtc (Spec.instant exampleIst - 500000) := by rw [exampleIst_instant]; decide +kernel
  obtain ⟨S, hS, -, V, k1, -, -, k4⟩ := eci2ecef_state_float binary64_double ⟨(Fl.of binary64 7000000, Fl.of _ 0, Fl.of _ 0), (Fl.of _ 0, Fl.of _ 7500, Fl.of _ 0)⟩
    exampleIst_valid hm (Fl.of _ 0.1) (Fl.of _ 0.05) (Fl.of _ 0.3)
    (by simp only [of_val]; rw [abs_le]; constructor <;> norm_num) (by simp only [of_val]; rw [abs_le]; constructor <;> norm_num)
    (by simp only [of_val]; rw [abs_le]; constructor <;> norm_num) hl
  refine ⟨S, hS, V, k1, ?_⟩
  have n1 : Spec.norm (vval (Fl.of binary64 7000000, Fl.of _ 0, Fl.of _ 0)) = 7000000 := by
    rw [Spec.norm, Spec.dot]; simp only [vval, of_val]; norm_num
  have n2 : Spec.norm (vval (Fl.of binary64 0, Fl.of _ 7500, Fl.of _ 0)) = 7500 := by
    rw [Spec.norm, Spec.dot]; simp only [vval, of_val]; norm_num
  have k4 : Spec.dist (vval S.vel) V ≤ 7.2e-9 * Spec.norm (vval (Fl.of binary64 7000000, Fl.of _ 0, Fl.of _ 0)) + 3.6e-9 * Spec.norm (vval (Fl.of binary64 0, Fl.of _ 7500, Fl.of _ 0)) := k4
  rw [n1, n2] at k4
  have q := (comp_le_norm (sub (vval S.vel) V)).1
  exact q.trans (k4.trans (by norm_num))

end
end Pymap3d
