import Verif.Lemmas.Close
import Verif.Props.LocalFrames
import Verif.Model.Frames
/-!
3×3 matrices in double precision: errors as operators, in units of 2⁻⁵³.
-/
set_option linter.unusedSectionVars false
namespace Pymap3d
open Py PyFloat
open Spec hiding norm dist
noncomputable section

variable {M : FloatArith}

/-- the real matrix with the values of a matrix of floats -/
def mval (A : Mat3 (Fl M)) : Mat3 ℝ :=
  ⟨A.m00.val, A.m01.val, A.m02.val, A.m10.val, A.m11.val, A.m12.val, A.m20.val, A.m21.val, A.m22.val⟩
/-- the real vector with the values of a vector of floats -/
def vval (v : Fl M × Fl M × Fl M) : V3 := (v.1.val, v.2.1.val, v.2.2.val)

theorem mval_transpose (A : Mat3 (Fl M)) : mval (transpose3 A) = transpose3 (mval A) := rfl

theorem dist_tri (p q r : V3) : Spec.dist p r ≤ Spec.dist p q + Spec.dist q r := by
  have e : sub p r = add (sub p q) (sub q r) := by
    simp only [sub, add]; refine Prod.ext ?_ (Prod.ext ?_ ?_) <;> dsimp only <;> ring
  have key : ∀ p q : V3, Spec.norm (add p q) ≤ Spec.norm p + Spec.norm q := by
    intro p q
    apply Spec.le_of_sq_le_sq _ (add_nonneg (Spec.norm_nonneg p) (Spec.norm_nonneg q))
    have h1 := Spec.dot_le_norm_mul p q
    have e1 := Spec.norm_sq (add p q)
    have e2 := Spec.norm_sq p
    have e3 := Spec.norm_sq q
    have e4 : dot (add p q) (add p q) = dot p p + 2 * dot p q + dot q q := by simp only [dot, add]; ring
    rw [e1, e4]; nlinarith
  unfold Spec.dist
  rw [e]; exact key _ _

theorem norm_le_add (p q : V3) : Spec.norm p ≤ Spec.norm q + Spec.dist p q := by
  have h := dist_tri p q (0, 0, 0)
  have e : ∀ p : V3, Spec.dist p (0, 0, 0) = Spec.norm p := by intro p; simp [Spec.dist, sub]
  rw [e, e] at h; linarith

theorem comp_le_norm (p : V3) : |p.1| ≤ Spec.norm p ∧ |p.2.1| ≤ Spec.norm p ∧ |p.2.2| ≤ Spec.norm p := by
  have h := Spec.norm_sq p
  have h0 := Spec.norm_nonneg p
  simp only [dot] at h
  refine ⟨?_, ?_, ?_⟩ <;> apply abs_le_of_sq_le_sq _ h0 <;> nlinarith [sq_nonneg p.1, sq_nonneg p.2.1, sq_nonneg p.2.2]

/-- `A'` differs from `A`, as a linear map, by at most `c` units of 2⁻⁵³ -/
def OpNear (c : ℝ) (A' A : Mat3 ℝ) : Prop := ∀ v : V3, Spec.dist (matvec3 A' v) (matvec3 A v) ≤ c * w53 * Spec.norm v

variable {A A' B B' C : Mat3 ℝ} {c d e : ℝ}

theorem OpNear.mono (h : OpNear c A' A) (hc : c ≤ d) : OpNear d A' A := fun v =>
  (h v).trans (mul_le_mul_of_nonneg_right (mul_le_mul_of_nonneg_right hc w53_pos.le) (Spec.norm_nonneg v))

theorem OpNear.trans (h : OpNear c A B) (k : OpNear d B C) : OpNear (c + d) A C := fun v => by
  have := dist_tri (matvec3 A v) (matvec3 B v) (matvec3 C v)
  have h1 := h v
  have h2 := k v
  rw [add_mul, add_mul]; linarith

theorem OpNear.comp (h : OpNear c A' A) (k : OpNear d B' B) (hA : A.IsRotation) (hB : B.IsRotation) (hc : 0 ≤ c) (hd : d ≤ 1e10) (he : 1.00001 * c + d ≤ e) :
    OpNear e (matmul3 A' B') (matmul3 A B) := fun v => by
  rw [matvec3_matmul3, matvec3_matmul3]
  have h1 := h (matvec3 B' v)
  have h2 : Spec.dist (matvec3 A (matvec3 B' v)) (matvec3 A (matvec3 B v)) = Spec.dist (matvec3 B' v) (matvec3 B v) := by
    have e : ∀ p q : V3, sub (matvec3 A p) (matvec3 A q) = matvec3 A (sub p q) := by
      intro p q; simp only [matvec3_real, sub]; refine Prod.ext ?_ (Prod.ext ?_ ?_) <;> dsimp only <;> ring
    rw [Spec.dist, e, hA.norm]; rfl
  have h3 := k v
  have h4 := norm_le_add (matvec3 B' v) (matvec3 B v)
  have h5 : Spec.norm (matvec3 B v) = Spec.norm v := hB.norm v
  have h6 := dist_tri (matvec3 A' (matvec3 B' v)) (matvec3 A (matvec3 B' v)) (matvec3 A (matvec3 B v))
  have hn := Spec.norm_nonneg v
  have hw := w53_pos
  have hw2 := w53_le
  have h7 : d * w53 * Spec.norm v ≤ 0.00001 * Spec.norm v := by
    refine mul_le_mul_of_nonneg_right ?_ hn
    have := mul_le_mul hd hw2 hw.le (by norm_num)
    norm_num at this ⊢; linarith
  have h8 : c * w53 * Spec.norm (matvec3 B' v) ≤ c * w53 * (1.00001 * Spec.norm v) :=
    mul_le_mul_of_nonneg_left (by linarith) (by positivity)
  have h9 : (1.00001 * c + d) * (w53 * Spec.norm v) ≤ e * (w53 * Spec.norm v) := mul_le_mul_of_nonneg_right he (mul_nonneg hw.le (Spec.norm_nonneg _))
  rw [h2] at h6
  nlinarith

/-- close entries give close operators -/
theorem OpNear.entries (h00 : |A'.m00 - A.m00| ≤ c * w53) (h01 : |A'.m01 - A.m01| ≤ c * w53) (h02 : |A'.m02 - A.m02| ≤ c * w53)
    (h10 : |A'.m10 - A.m10| ≤ c * w53) (h11 : |A'.m11 - A.m11| ≤ c * w53) (h12 : |A'.m12 - A.m12| ≤ c * w53)
    (h20 : |A'.m20 - A.m20| ≤ c * w53) (h21 : |A'.m21 - A.m21| ≤ c * w53) (h22 : |A'.m22 - A.m22| ≤ c * w53) : OpNear (3 * c) A' A := by
  intro v
  have hn := Spec.norm_nonneg v
  have hcw : 0 ≤ c * w53 := (abs_nonneg _).trans h00
  have hs := Spec.norm_sq v
  have row : ∀ a b d a' b' d' : ℝ, |a' - a| ≤ c * w53 → |b' - b| ≤ c * w53 → |d' - d| ≤ c * w53 →
      (a' * v.1 + b' * v.2.1 + d' * v.2.2 - (a * v.1 + b * v.2.1 + d * v.2.2)) ^ 2 ≤ 3 * (c * w53) ^ 2 * dot v v := by
    intro a b d a' b' d' h1 h2 h3
    have s1 := sq_le_sq' (abs_le.mp h1).1 (abs_le.mp h1).2
    have s2 := sq_le_sq' (abs_le.mp h2).1 (abs_le.mp h2).2
    have s3 := sq_le_sq' (abs_le.mp h3).1 (abs_le.mp h3).2
    have e : a' * v.1 + b' * v.2.1 + d' * v.2.2 - (a * v.1 + b * v.2.1 + d * v.2.2) = (a' - a) * v.1 + (b' - b) * v.2.1 + (d' - d) * v.2.2 := by ring
    rw [e]
    generalize a' - a = p at *
    generalize b' - b = q at *
    generalize d' - d = r at *
    have cs : (p * v.1 + q * v.2.1 + r * v.2.2) ^ 2 ≤ (p ^ 2 + q ^ 2 + r ^ 2) * dot v v := by
      simp only [dot]
      nlinarith [sq_nonneg (p * v.2.1 - q * v.1), sq_nonneg (p * v.2.2 - r * v.1), sq_nonneg (q * v.2.2 - r * v.2.1)]
    refine cs.trans (mul_le_mul_of_nonneg_right (by linarith) (dot_self_nonneg v))
  apply Spec.le_of_sq_le_sq _ (mul_nonneg (by linarith) hn)
  rw [Spec.dist, Spec.norm_sq, mul_pow, hs]
  have r1 := row _ _ _ _ _ _ h00 h01 h02
  have r2 := row _ _ _ _ _ _ h10 h11 h12
  have r3 := row _ _ _ _ _ _ h20 h21 h22
  rw [matvec3_real, matvec3_real]
  simp only [sub]
  rw [show ∀ a b c : ℝ, dot (a, b, c) (a, b, c) = a ^ 2 + b ^ 2 + c ^ 2 from fun a b c => by simp only [dot]; ring]
  nlinarith

/-- the transposed matrices are as close -/
theorem OpNear.transpose (h : OpNear c A' A) (hc : 0 ≤ c) : OpNear c (transpose3 A') (transpose3 A) := by
  intro v
  have hn := Spec.norm_nonneg v
  have hcw : 0 ≤ c * w53 := mul_nonneg hc w53_pos.le
  obtain ⟨p, hp⟩ : ∃ p, p = sub (matvec3 (transpose3 A') v) (matvec3 (transpose3 A) v) := ⟨_, rfl⟩
  have e : dot p p = dot v (sub (matvec3 A' p) (matvec3 A p)) := by
    have h1 : dot p p = dot p (matvec3 (transpose3 A') v) - dot p (matvec3 (transpose3 A) v) := by
      conv_lhs => rw [hp]
      rw [hp]; simp only [dot, sub]; ring
    rw [h1, ← dot_matvec3, ← dot_matvec3]
    simp only [dot, sub]; ring
  have h2 := Spec.dot_le_norm_mul v (sub (matvec3 A' p) (matvec3 A p))
  have h3 : Spec.norm (sub (matvec3 A' p) (matvec3 A p)) ≤ c * w53 * Spec.norm p := h p
  have hpn := Spec.norm_nonneg p
  show Spec.norm (sub _ _) ≤ _
  rw [← hp]
  have h4 : Spec.norm p ^ 2 ≤ c * w53 * Spec.norm v * Spec.norm p := by
    rw [Spec.norm_sq, e]
    refine h2.trans ((mul_le_mul_of_nonneg_left h3 hn).trans (le_of_eq (by ring)))
  rcases hpn.eq_or_lt with h0 | h0
  · rw [← h0]; positivity
  · nlinarith

/-- entries of a matrix close to a rotation -/
theorem OpNear.entry (h : OpNear c A' A) (hA : A.IsRotation) (hc : c ≤ 1e10) :
    |A'.m00| ≤ 1.0001 ∧ |A'.m01| ≤ 1.0001 ∧ |A'.m02| ≤ 1.0001 ∧ |A'.m10| ≤ 1.0001 ∧ |A'.m11| ≤ 1.0001 ∧ |A'.m12| ≤ 1.0001 ∧
    |A'.m20| ≤ 1.0001 ∧ |A'.m21| ≤ 1.0001 ∧ |A'.m22| ≤ 1.0001 := by
  have hw := w53_pos
  have hw2 := w53_le
  have h7 : c * w53 ≤ 0.00001 := by
    have := mul_le_mul hc hw2 hw.le (by norm_num)
    norm_num at this ⊢; linarith
  have col : ∀ v : V3, Spec.norm v = 1 → Spec.norm (matvec3 A' v) ≤ 1.0001 := by
    intro v hv
    have h1 := norm_le_add (matvec3 A' v) (matvec3 A v)
    have h2 := h v
    have h3 : Spec.norm (matvec3 A v) = Spec.norm v := hA.norm v
    rw [hv] at h2 h3
    norm_num at h7 ⊢
    linarith
  have n1 : Spec.norm (1, 0, 0) = 1 := by simp [Spec.norm, dot]
  have n2 : Spec.norm (0, 1, 0) = 1 := by simp [Spec.norm, dot]
  have n3 : Spec.norm (0, 0, 1) = 1 := by simp [Spec.norm, dot]
  have c1 := col _ n1
  have c2 := col _ n2
  have c3 := col _ n3
  have k1 := comp_le_norm (matvec3 A' (1, 0, 0))
  have k2 := comp_le_norm (matvec3 A' (0, 1, 0))
  have k3 := comp_le_norm (matvec3 A' (0, 0, 1))
  simp only [matvec3_real, mul_one, mul_zero, add_zero, zero_add] at k1 k2 k3 c1 c2 c3
  exact ⟨k1.1.trans c1, k2.1.trans c2, k3.1.trans c3, k1.2.1.trans c1, k2.2.1.trans c2, k3.2.1.trans c3, k1.2.2.trans c1, k2.2.2.trans c2, k3.2.2.trans c3⟩

theorem fl_zero (D : Double M) : (0.0 : Fl M).val = 0 := by rw [val_lit, D.lit _ 0 (by norm_num) (by norm_num)]; norm_num
theorem fl_one (D : Double M) : (1.0 : Fl M).val = 1 := by rw [val_lit, D.lit _ 4 (by norm_num) (by norm_num)]; norm_num

/-- one entry of a product -/
theorem entry_fl (D : Double M) {a b c p q r : Fl M} (ha : |a.val| ≤ 1.0001) (hb : |b.val| ≤ 1.0001) (hc : |c.val| ≤ 1.0001) (hp : |p.val| ≤ 1.0001)
    (hq : |q.val| ≤ 1.0001) (hr : |r.val| ≤ 1.0001) :
    |(sum3 (a * p) (b * q) (c * r)).val - (a.val * p.val + b.val * q.val + c.val * r.val)| ≤ 9.2 * w53 := by
  have pr : ∀ {x y : Fl M}, |x.val| ≤ 1.0001 → |y.val| ≤ 1.0001 → Cl 1.0003 1.01 (x.val * y.val) (x * y).val := fun hx hy =>
    Cl.fmul D (Cl.exact hx) (Cl.exact hy) (by norm_num) (by norm_num) (by norm_num) (by norm_num)
  have z : Cl 0 0 0 (0.0 : Fl M).val := by rw [fl_zero D]; exact Cl.exact (by simp)
  have s1 : Cl 1.0003 2.02 _ (0.0 + a * p : Fl M).val := Cl.fadd D z (pr ha hp) (by norm_num) (by norm_num) (by norm_num)
  have s2 : Cl 2.001 5.05 _ (0.0 + a * p + b * q : Fl M).val := Cl.fadd D s1 (pr hb hq) (by norm_num) (by norm_num) (by norm_num)
  have s3 : Cl 3.002 9.2 _ (0.0 + a * p + b * q + c * r : Fl M).val := Cl.fadd D s2 (pr hc hr) (by norm_num) (by norm_num) (by norm_num)
  have := s3.2
  rw [zero_add] at this
  exact this

/-- one component of a matrix times a vector -/
theorem row_fl (D : Double M) {a b c p q r : Fl M} {N : ℝ} (ha : |a.val| ≤ 1.0001) (hb : |b.val| ≤ 1.0001) (hc : |c.val| ≤ 1.0001) (hp : |p.val| ≤ N)
    (hq : |q.val| ≤ N) (hr : |r.val| ≤ N) :
    |(sum3 (a * p) (b * q) (c * r)).val - (a.val * p.val + b.val * q.val + c.val * r.val)| ≤ 12.1 * w53 * N := by
  have h := M.small
  have hN : 0 ≤ N := (abs_nonneg _).trans hp
  have pr : ∀ {x y : Fl M}, |x.val| ≤ 1.0001 → |y.val| ≤ N → Err M.u 1 (1.0001 * N) (x.val * y.val) (x * y).val := fun {x y} hx hy =>
    Err.of_near h (by rw [abs_mul]; exact mul_le_mul hx hy (abs_nonneg _) (by norm_num)) (M.rnd_near _)
  have s1 : Err M.u 2 (1.0001 * N) (a.val * p.val) (0.0 + a * p : Fl M).val := by
    rw [val_add, fl_zero D, zero_add]; exact (pr ha hp).near h (M.rnd_near _)
  have s2 : Err M.u 3 _ _ (0.0 + a * p + b * q : Fl M).val := (s1.add ((pr hb hq).mono h (by norm_num) le_rfl)).near h (M.rnd_near _)
  have s3 : Err M.u 4 _ _ (0.0 + a * p + b * q + c * r : Fl M).val := (s2.add ((pr hc hr).mono h (by norm_num) le_rfl)).near h (M.rnd_near _)
  have := s3.bound h (by norm_num)
  refine this.trans ?_
  have hu : M.u ≤ w53 := D.u_le
  have := mul_le_mul_of_nonneg_right hu hN
  have hw := mul_nonneg w53_pos.le hN
  push_cast
  nlinarith

variable {P Q : Mat3 (Fl M)}

/-- `matmul3` against the exact product of the values -/
theorem matmul_fl (D : Double M) (hA : OpNear c (mval P) A) (hB : OpNear d (mval Q) B) (rA : A.IsRotation) (rB : B.IsRotation) (hc : c ≤ 1e10) (hd : d ≤ 1e10) :
    OpNear 27.6 (mval (matmul3 P Q)) (matmul3 (mval P) (mval Q)) := by
  obtain ⟨a1, a2, a3, a4, a5, a6, a7, a8, a9⟩ := hA.entry rA hc
  obtain ⟨b1, b2, b3, b4, b5, b6, b7, b8, b9⟩ := hB.entry rB hd
  refine OpNear.mono (OpNear.entries (c := 9.2) ?_ ?_ ?_ ?_ ?_ ?_ ?_ ?_ ?_) (by norm_num) <;> simp only [matmul3, sum3, lit_0, zero_add]
  · exact entry_fl D a1 a2 a3 b1 b4 b7
  · exact entry_fl D a1 a2 a3 b2 b5 b8
  · exact entry_fl D a1 a2 a3 b3 b6 b9
  · exact entry_fl D a4 a5 a6 b1 b4 b7
  · exact entry_fl D a4 a5 a6 b2 b5 b8
  · exact entry_fl D a4 a5 a6 b3 b6 b9
  · exact entry_fl D a7 a8 a9 b1 b4 b7
  · exact entry_fl D a7 a8 a9 b2 b5 b8
  · exact entry_fl D a7 a8 a9 b3 b6 b9

/-- `matmul3` against the product of rotations -/
theorem OpNear.fmul (D : Double M) (hA : OpNear c (mval P) A) (hB : OpNear d (mval Q) B) (rA : A.IsRotation) (rB : B.IsRotation) (h0 : 0 ≤ c) (hc : c ≤ 1e10) (hd : d ≤ 1e10)
    (he : 1.00001 * c + d + 27.6 ≤ e) : OpNear e (mval (matmul3 P Q)) (matmul3 A B) :=
  ((matmul_fl D hA hB rA rB hc hd).trans (hA.comp hB rA rB h0 hd le_rfl)).mono (by linarith)

/-- `matvec3` against the rotation -/
theorem OpNear.fvec (D : Double M) (hA : OpNear c (mval P) A) (rA : A.IsRotation) (hc : c ≤ 1e10) (v : Fl M × Fl M × Fl M) (he : c + 21 ≤ e) :
    Spec.dist (vval (matvec3 P v)) (matvec3 A (vval v)) ≤ e * w53 * Spec.norm (vval v) := by
  obtain ⟨a1, a2, a3, a4, a5, a6, a7, a8, a9⟩ := hA.entry rA hc
  obtain ⟨n1, n2, n3⟩ := comp_le_norm (vval v)
  have hn := Spec.norm_nonneg (vval v)
  have hw := w53_pos
  have h1 : Spec.dist (vval (matvec3 P v)) (matvec3 (mval P) (vval v)) ≤ 21 * w53 * Spec.norm (vval v) := by
    have r1 := row_fl D a1 a2 a3 n1 n2 n3
    have r2 := row_fl D a4 a5 a6 n1 n2 n3
    have r3 := row_fl D a7 a8 a9 n1 n2 n3
    apply Spec.le_of_sq_le_sq _ (by positivity)
    have s1 := sq_le_sq' (abs_le.mp r1).1 (abs_le.mp r1).2
    have s2 := sq_le_sq' (abs_le.mp r2).1 (abs_le.mp r2).2
    have s3 := sq_le_sq' (abs_le.mp r3).1 (abs_le.mp r3).2
    rw [Spec.dist, Spec.norm_sq, matvec3_real]
    have e : ∀ a b c : ℝ, dot (a, b, c) (a, b, c) = a ^ 2 + b ^ 2 + c ^ 2 := fun a b c => by simp only [dot]; ring
    rw [sub, e]
    refine (add_le_add (add_le_add s1 s2) s3).trans ?_
    have := sq_nonneg (w53 * Spec.norm (vval v))
    nlinarith
  have h2 := hA (vval v)
  have h3 := dist_tri (vval (matvec3 P v)) (matvec3 (mval P) (vval v)) (matvec3 A (vval v))
  have h4 : (c + 21) * (w53 * Spec.norm (vval v)) ≤ e * (w53 * Spec.norm (vval v)) := mul_le_mul_of_nonneg_right he (mul_nonneg hw.le (Spec.norm_nonneg _))
  nlinarith

/-- a plane rotation with slightly wrong sine and cosine: a bound on the change of two components -/
theorem plane_sq {p q x y δ : ℝ} (hp : |p| ≤ δ) (hq : |q| ≤ δ) : (p * x + q * y) ^ 2 + (-q * x + p * y) ^ 2 ≤ 2 * δ ^ 2 * (x ^ 2 + y ^ 2) := by
  have s1 := sq_le_sq' (abs_le.mp hp).1 (abs_le.mp hp).2
  have s2 := sq_le_sq' (abs_le.mp hq).1 (abs_le.mp hq).2
  have : (p * x + q * y) ^ 2 + (-q * x + p * y) ^ 2 = (p ^ 2 + q ^ 2) * (x ^ 2 + y ^ 2) := by ring
  rw [this]
  exact mul_le_mul_of_nonneg_right (by linarith) (by positivity)

/-- if the squared change is small, so is the change -/
theorem op_of_sq (hc : 0 ≤ c) (h : ∀ v : V3, dot (sub (matvec3 A' v) (matvec3 A v)) (sub (matvec3 A' v) (matvec3 A v)) ≤ 2 * (c * w53) ^ 2 * dot v v) :
    OpNear (1.415 * c) A' A := by
  intro v
  have hn := Spec.norm_nonneg v
  have hw := w53_pos
  apply Spec.le_of_sq_le_sq _ (by positivity)
  rw [Spec.dist, Spec.norm_sq, mul_pow, Spec.norm_sq]
  refine (h v).trans ?_
  have := mul_nonneg (sq_nonneg (c * w53)) (dot_self_nonneg v)
  nlinarith

end
end Pymap3d
