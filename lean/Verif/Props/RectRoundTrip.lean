import Verif.Props.Lox
import Verif.Lemmas.RectRound
/-!
C27: the two rectifying-latitude functions are inverse to each other up to the fifth power of the third flattening.
-/
set_option linter.unusedSectionVars false
noncomputable section
namespace Pymap3d
open Py
open Spec hiding norm dist

/-- sines and cosines of the multiples of `2x` in terms of the first ones -/
theorem multiples (x : ℝ) :
    Real.sin (4 * x) = 2 * Real.sin (2 * x) * Real.cos (2 * x) ∧
    Real.sin (6 * x) = 3 * Real.sin (2 * x) - 4 * Real.sin (2 * x) ^ 3 ∧
    Real.sin (8 * x) = 4 * Real.sin (2 * x) * Real.cos (2 * x) * (1 - 2 * Real.sin (2 * x) ^ 2) ∧
    Real.cos (4 * x) = 1 - 2 * Real.sin (2 * x) ^ 2 ∧
    Real.cos (6 * x) = 4 * Real.cos (2 * x) ^ 3 - 3 * Real.cos (2 * x) := by
  have h4 : Real.sin (4 * x) = 2 * Real.sin (2 * x) * Real.cos (2 * x) := by
    rw [← Real.sin_two_mul]; congr 1; ring
  have c4 : Real.cos (4 * x) = 1 - 2 * Real.sin (2 * x) ^ 2 := by
    rw [show 4 * x = 2 * (2 * x) by ring, Real.cos_two_mul]
    linarith [Real.sin_sq_add_cos_sq (2 * x)]
  refine ⟨h4, ?_, ?_, c4, ?_⟩
  · rw [show 6 * x = 3 * (2 * x) by ring, Real.sin_three_mul]
  · rw [show 8 * x = 2 * (4 * x) by ring, Real.sin_two_mul, h4, c4]; ring
  · rw [show 6 * x = 3 * (2 * x) by ring, Real.cos_three_mul]

/-- one term of the outer series, expanded about the inner argument -/
theorem sin_shift (k x h : ℝ) :
    Real.sin (k * (x + h)) = Real.sin (k * x) * Real.cos (k * h) + Real.cos (k * x) * Real.sin (k * h) := by
  rw [mul_add, Real.sin_add]

set_option maxHeartbeats 1000000 in
/-- the round trip through the two rectifying series, in radians -/
theorem rect_round (n x : ℝ) (h0 : 0 ≤ n) (h1 : n ≤ 9 / 50) :
    |ser (3 * n / 2 - 27 * n ^ 3 / 32) (21 * n ^ 2 / 16 - 55 * n ^ 4 / 32) (151 * n ^ 3 / 96) (1097 * n ^ 4 / 512)
      (ser (-(3 * n / 2 - 9 * n ^ 3 / 16)) (15 * n ^ 2 / 16 - 15 * n ^ 4 / 32) (-(35 * n ^ 3 / 48)) (315 * n ^ 4 / 512) x) - x|
      ≤ 415 * n ^ 5 := by
  obtain ⟨m2, m3, m4, m5, m6⟩ := multiples x
  have hu := Real.sin_sq_add_cos_sq (2 * x)
  have bs1 := Real.abs_sin_le_one (2 * x)
  have bs2 := Real.abs_sin_le_one (4 * x)
  have bs3 := Real.abs_sin_le_one (6 * x)
  have bs4 := Real.abs_sin_le_one (8 * x)
  have bc1 := Real.abs_cos_le_one (2 * x)
  have bc2 := Real.abs_cos_le_one (4 * x)
  have bc3 := Real.abs_cos_le_one (6 * x)
  -- the shift
  obtain ⟨k0, hk0⟩ : ∃ k0, k0 = -(3 / 2) * Real.sin (2 * x) := ⟨_, rfl⟩
  obtain ⟨k1, hk1⟩ : ∃ k1, k1 = 15 / 16 * Real.sin (4 * x) := ⟨_, rfl⟩
  obtain ⟨k2, hk2⟩ : ∃ k2, k2 = 9 / 16 * Real.sin (2 * x) - 35 / 48 * Real.sin (6 * x) := ⟨_, rfl⟩
  obtain ⟨k3, hk3⟩ : ∃ k3, k3 = -(15 / 32) * Real.sin (4 * x) + 315 / 512 * Real.sin (8 * x) := ⟨_, rfl⟩
  obtain ⟨K, hK⟩ : ∃ K, K = k0 + n * k1 + n ^ 2 * k2 + n ^ 3 * k3 := ⟨_, rfl⟩
  have hser : ser (-(3 * n / 2 - 9 * n ^ 3 / 16)) (15 * n ^ 2 / 16 - 15 * n ^ 4 / 32) (-(35 * n ^ 3 / 48))
      (315 * n ^ 4 / 512) x = x + n * K := by
    simp only [ser, hK, hk0, hk1, hk2, hk3]; ring
  obtain ⟨e0, e1, e2, e3⟩ := RectRound.orders hu m2 m3 m4 m5 m6 hk0 hk1 hk2 hk3
  have bn : |n| ≤ 9 / 50 := by rwa [abs_of_nonneg h0]
  have bk0 : |k0| ≤ 3 / 2 := by rw [hk0]; bdnum
  have bk1 : |k1| ≤ 15 / 16 := by rw [hk1]; bdnum
  have bk2 : |k2| ≤ 31 / 24 := by rw [hk2]; bdnum
  have bk3 : |k3| ≤ 555 / 512 := by rw [hk3]; bdnum
  have bK : |K| ≤ 7 / 4 := by rw [hK]; bdnum
  have hrem := RectRound.remainder bk0 bk1 bk2 bk3 bs1 bs2 bs3 bs4 bc1 bc2 bc3 bn e0 e1 e2 e3
  rw [← hK] at hrem
  rw [hser]
  -- the six Taylor remainders
  have bh : |2 * (n * K)| ≤ 1 := by bdnum
  have t1 := Bd.cos_taylor4 (2 * (n * K))
  have t2 := Bd.sin_taylor5 bh
  have t3 := Bd.cos_taylor4 (4 * (n * K))
  have t4 := Bd.sin_taylor3 (4 * (n * K))
  have t5 := Bd.cos_taylor2 (6 * (n * K))
  have t6 := Bd.sin_taylor3 (6 * (n * K))
  have t7 := abs_sin_sub_le (8 * (x + n * K)) (8 * x)
  have aK : 0 ≤ |K| := abs_nonneg K
  have eh : |n * K| = n * |K| := by rw [abs_mul, abs_of_nonneg h0]
  have p2 : K ^ 2 ≤ (7 / 4) ^ 2 := by rw [← sq_abs]; exact pow_le_pow_left₀ aK bK 2
  have p3 : |K| ^ 3 ≤ (7 / 4) ^ 3 := pow_le_pow_left₀ aK bK 3
  have p4 : K ^ 4 ≤ (7 / 4) ^ 4 := by
    have := pow_le_pow_left₀ aK bK 4
    rwa [show |K| ^ 4 = K ^ 4 by rw [← abs_pow, abs_of_nonneg (by positivity)]] at this
  have p5 : |K| ^ 5 ≤ (7 / 4) ^ 5 := pow_le_pow_left₀ aK bK 5
  have n2 : 0 ≤ n ^ 2 := by positivity
  have n3 : 0 ≤ n ^ 3 := by positivity
  have n4 : 0 ≤ n ^ 4 := by positivity
  have n5 : 0 ≤ n ^ 5 := by positivity
  have u1 : |Real.cos (2 * (n * K)) - (1 - (2 * (n * K)) ^ 2 / 2)| ≤ 13 / 2 * n ^ 4 := by
    refine t1.trans ?_
    have : (2 * (n * K)) ^ 4 / 24 = 2 / 3 * K ^ 4 * n ^ 4 := by ring
    rw [this]; exact mul_le_mul_of_nonneg_right (by clear * - p4; norm_num at p4; linarith) n4
  have u2 : |Real.sin (2 * (n * K)) - (2 * (n * K) - (2 * (n * K)) ^ 3 / 6)| ≤ n ^ 4 := by
    refine t2.trans ?_
    rw [abs_mul, eh, abs_two]
    have e : (2 * (n * |K|)) ^ 5 / 100 = 8 / 25 * |K| ^ 5 * n * n ^ 4 := by ring
    rw [e]
    have : 8 / 25 * |K| ^ 5 * n ≤ 8 / 25 * (7 / 4) ^ 5 * (9 / 50) :=
      mul_le_mul (by clear * - p2 p3 p4 p5; linarith) h1 h0 (by norm_num)
    calc _ ≤ 1 * n ^ 4 := mul_le_mul_of_nonneg_right (by clear * - this; norm_num at this; linarith) n4
      _ = _ := one_mul _
  have u3 : |Real.cos (4 * (n * K)) - (1 - (4 * (n * K)) ^ 2 / 2)| ≤ 19 * n ^ 3 := by
    refine t3.trans ?_
    have e : (4 * (n * K)) ^ 4 / 24 = 32 / 3 * K ^ 4 * n * n ^ 3 := by ring
    rw [e]
    have : 32 / 3 * K ^ 4 * n ≤ 32 / 3 * (7 / 4) ^ 4 * (9 / 50) := mul_le_mul (by clear * - p2 p3 p4 p5; linarith) h1 h0 (by norm_num)
    exact mul_le_mul_of_nonneg_right (by clear * - this; norm_num at this; linarith) n3
  have u4 : |Real.sin (4 * (n * K)) - 4 * (n * K)| ≤ 58 * n ^ 3 := by
    refine t4.trans ?_
    rw [abs_mul, eh, abs_of_pos (by norm_num : (0 : ℝ) < 4)]
    have e : (4 * (n * |K|)) ^ 3 / 6 = 32 / 3 * |K| ^ 3 * n ^ 3 := by ring
    rw [e]; exact mul_le_mul_of_nonneg_right (by clear * - p3; norm_num at p3; linarith) n3
  have u5 : |Real.cos (6 * (n * K)) - 1| ≤ 56 * n ^ 2 := by
    refine t5.trans ?_
    have e : (6 * (n * K)) ^ 2 / 2 = 18 * K ^ 2 * n ^ 2 := by ring
    rw [e]; exact mul_le_mul_of_nonneg_right (by clear * - p2; norm_num at p2; linarith) n2
  have u6 : |Real.sin (6 * (n * K)) - 6 * (n * K)| ≤ 35 * n ^ 2 := by
    refine t6.trans ?_
    rw [abs_mul, eh, abs_of_pos (by norm_num : (0 : ℝ) < 6)]
    have e : (6 * (n * |K|)) ^ 3 / 6 = 36 * |K| ^ 3 * n * n ^ 2 := by ring
    rw [e]
    have : 36 * |K| ^ 3 * n ≤ 36 * (7 / 4) ^ 3 * (9 / 50) := mul_le_mul (by clear * - p2 p3 p4 p5; linarith) h1 h0 (by norm_num)
    exact mul_le_mul_of_nonneg_right (by clear * - this; norm_num at this; linarith) n2
  have u7 : |Real.sin (8 * (x + n * K)) - Real.sin (8 * x)| ≤ 14 * n := by
    refine t7.trans ?_
    rw [show 8 * (x + n * K) - 8 * x = 8 * (n * K) by ring, abs_mul, eh, abs_of_pos (by norm_num : (0 : ℝ) < 8)]
    clear * - bK h0; nlinarith
  simp only [ser, sin_shift 2, sin_shift 4, sin_shift 6]
  clear t1 t2 t3 t4 t5 t6 t7 hser m2 m3 m4 m5 m6 hu hK hk0 hk1 hk2 hk3 e0 e1 e2 e3 bh
  revert hrem u1 u2 u3 u4 u5 u6 u7 bs1 bs2 bs3 bs4 bc1 bc2 bc3
  generalize Real.sin (8 * (x + n * K)) = S8
  generalize Real.cos (2 * (n * K)) = C1
  generalize Real.sin (2 * (n * K)) = S1
  generalize Real.cos (4 * (n * K)) = C2
  generalize Real.sin (4 * (n * K)) = S2
  generalize Real.cos (6 * (n * K)) = C3
  generalize Real.sin (6 * (n * K)) = S3
  generalize Real.sin (2 * x) = s1
  generalize Real.sin (4 * x) = s2
  generalize Real.sin (6 * x) = s3
  generalize Real.sin (8 * x) = s4
  generalize Real.cos (2 * x) = c1
  generalize Real.cos (4 * x) = c2
  generalize Real.cos (6 * x) = c3
  intro bs1 bs2 bs3 bs4 bc1 bc2 bc3 hrem u1 u2 u3 u4 u5 u6 u7
  have split : ∀ T P D1 F1 D2 F2 D3 F3 G : ℝ, |P| ≤ 127 * n ^ 4 → |D1| ≤ 13 / 2 * n ^ 4 → |F1| ≤ n ^ 4 →
      |D2| ≤ 19 * n ^ 3 → |F2| ≤ 58 * n ^ 3 → |D3| ≤ 56 * n ^ 2 → |F3| ≤ 35 * n ^ 2 → |G| ≤ 14 * n →
      T = n * P + (3 / 2 - 27 / 32 * n ^ 2) * n * (s1 * D1 + c1 * F1) +
        n ^ 2 * (21 / 16 - 55 / 32 * n ^ 2) * (s2 * D2 + c2 * F2) + n ^ 3 * (151 / 96) * (s3 * D3 + c3 * F3) +
        n ^ 4 * (1097 / 512) * G → |T| ≤ 415 * n ^ 5 := by
    intro T P D1 F1 D2 F2 D3 F3 G hP hD1 hF1 hD2 hF2 hD3 hF3 hG hT
    have q1 : |3 / 2 - 27 / 32 * n ^ 2| ≤ 3 / 2 := by
      clear * - h0 h1 n2; rw [abs_of_nonneg (by nlinarith)]; linarith
    have q2 : |21 / 16 - 55 / 32 * n ^ 2| ≤ 21 / 16 := by
      clear * - h0 h1 n2; rw [abs_of_nonneg (by nlinarith)]; linarith
    have qn : |n| ≤ n := (abs_of_nonneg h0).le
    rw [hT]
    have : |n * P + (3 / 2 - 27 / 32 * n ^ 2) * n * (s1 * D1 + c1 * F1) +
        n ^ 2 * (21 / 16 - 55 / 32 * n ^ 2) * (s2 * D2 + c2 * F2) + n ^ 3 * (151 / 96) * (s3 * D3 + c3 * F3) +
        n ^ 4 * (1097 / 512) * G| ≤ n * (127 * n ^ 4) + 3 / 2 * n * (1 * (13 / 2 * n ^ 4) + 1 * n ^ 4) +
        n ^ 2 * (21 / 16) * (1 * (19 * n ^ 3) + 1 * (58 * n ^ 3)) + n ^ 3 * (151 / 96) * (1 * (56 * n ^ 2) + 1 * (35 * n ^ 2)) +
        n ^ 4 * (1097 / 512) * (14 * n) := by
      clear bn
      bd
    refine this.trans ?_
    have e : n * (127 * n ^ 4) + 3 / 2 * n * (1 * (13 / 2 * n ^ 4) + 1 * n ^ 4) +
        n ^ 2 * (21 / 16) * (1 * (19 * n ^ 3) + 1 * (58 * n ^ 3)) + n ^ 3 * (151 / 96) * (1 * (56 * n ^ 2) + 1 * (35 * n ^ 2)) +
        n ^ 4 * (1097 / 512) * (14 * n) = (127 + 3 / 2 * (15 / 2) + 21 / 16 * 77 + 151 / 96 * 91 + 1097 / 512 * 14) * n ^ 5 := by ring
    rw [e]
    exact mul_le_mul_of_nonneg_right (by norm_num) n5
  refine split _ _ _ _ _ _ _ _ _ hrem u1 u2 u3 u4 u5 u6 u7 ?_
  ring

/-- a series is Lipschitz -/
theorem ser_lipschitz {c1 c2 c3 c4 : ℝ} (h : 2 * |c1| + 4 * |c2| + 6 * |c3| + 8 * |c4| < 1) (x y : ℝ) :
    |ser c1 c2 c3 c4 x - ser c1 c2 c3 c4 y| ≤ 2 * |x - y| := by
  have key : ∀ c k : ℝ, 0 ≤ k → |c * (Real.sin (k * x) - Real.sin (k * y))| ≤ |c| * (k * |x - y|) := by
    intro c k hk
    rw [abs_mul]
    refine mul_le_mul_of_nonneg_left ?_ (abs_nonneg c)
    have := abs_sin_sub_le (k * x) (k * y)
    rwa [← mul_sub, abs_mul, abs_of_nonneg hk] at this
  have e : ser c1 c2 c3 c4 x - ser c1 c2 c3 c4 y = (x - y) + c1 * (Real.sin (2 * x) - Real.sin (2 * y)) +
      c2 * (Real.sin (4 * x) - Real.sin (4 * y)) + c3 * (Real.sin (6 * x) - Real.sin (6 * y)) +
      c4 * (Real.sin (8 * x) - Real.sin (8 * y)) := by simp only [ser]; ring
  rw [e]
  have k1 := key c1 2 (by norm_num)
  have k2 := key c2 4 (by norm_num)
  have k3 := key c3 6 (by norm_num)
  have k4 := key c4 8 (by norm_num)
  refine (Bd.add (Bd.add (Bd.add (Bd.add le_rfl k1) k2) k3) k4).trans ?_
  nlinarith [abs_nonneg (x - y)]

/-- a series takes every value -/
theorem ser_surjective (c1 c2 c3 c4 : ℝ) : Function.Surjective (ser c1 c2 c3 c4) := by
  have hc : Continuous (ser c1 c2 c3 c4) := by unfold ser; fun_prop
  obtain ⟨B, hB⟩ : ∃ B : ℝ, B = |c1| + |c2| + |c3| + |c4| := ⟨_, rfl⟩
  have hb : ∀ x, |ser c1 c2 c3 c4 x - x| ≤ B := by
    intro x
    have e : ser c1 c2 c3 c4 x - x = c1 * Real.sin (2 * x) + c2 * Real.sin (4 * x) + c3 * Real.sin (6 * x) +
      c4 * Real.sin (8 * x) := by simp only [ser]; ring
    have k : ∀ c y : ℝ, |c * Real.sin y| ≤ |c| := fun c y => by
      rw [abs_mul]; exact mul_le_of_le_one_right (abs_nonneg c) (Real.abs_sin_le_one y)
    rw [e, hB]
    exact Bd.add (Bd.add (Bd.add (k _ _) (k _ _)) (k _ _)) (k _ _)
  intro y
  have h1 := abs_le.1 (hb (y - B))
  have h2 := abs_le.1 (hb (y + B))
  have hB0 : 0 ≤ B := (abs_nonneg _).trans (hb 0)
  have := intermediate_value_Icc (by linarith : y - B ≤ y + B) hc.continuousOn
  obtain ⟨x, -, hx⟩ := this (show y ∈ Set.Icc _ _ from ⟨by linarith, by linarith⟩)
  exact ⟨x, hx⟩

/-- an approximate left inverse of a series is an approximate right inverse -/
theorem round_swap {c1 c2 c3 c4 : ℝ} (h : 2 * |c1| + 4 * |c2| + 6 * |c3| + 8 * |c4| < 1) {g : ℝ → ℝ} {ε : ℝ}
    (hg : ∀ x, |g (ser c1 c2 c3 c4 x) - x| ≤ ε) (y : ℝ) : |ser c1 c2 c3 c4 (g y) - y| ≤ 2 * ε := by
  obtain ⟨x, rfl⟩ := ser_surjective c1 c2 c3 c4 y
  exact (ser_lipschitz h _ _).trans (by linarith [hg x])

/-- **C27.** The two rectifying functions undo each other up to an explicit multiple of the fifth power of the third flattening
`(a - b)/(a + b)`, in both orders, at every latitude, for every oblate ellipsoid with `e^2 <= 1/2`. -/
theorem rectifying_round_trip (ell : Option (Ellipsoid ℝ)) (deg : Bool) (h : RegularO ell) (hf : ModeratelyFlat ell) (lat : ℝ) :
    let a := (resolveEllipsoid ell).semimajor_axis
    let b := (resolveEllipsoid ell).semiminor_axis
    |toRad deg (rectifying2geodetic (geodetic2rectifying lat ell deg) ell deg) - toRad deg lat| ≤ 415 * ((a - b) / (a + b)) ^ 5 ∧
    |toRad deg (geodetic2rectifying (rectifying2geodetic lat ell deg) ell deg) - toRad deg lat| ≤ 830 * ((a - b) / (a + b)) ^ 5 := by
  intro a b
  obtain ⟨n0, n1⟩ := third_bounds h hf
  have hn : (resolveEllipsoid ell).thirdflattening = (a - b) / (a + b) := Ellipsoid.Regular.third h
  rw [← hn]
  simp only [rectifying2geodetic_ser, geodetic2rectifying_ser, toRad_outAngle]
  refine ⟨rect_round _ _ n0 n1, ?_⟩
  have := round_swap (rect_coef_bound n0 n1).1 (fun x => rect_round _ x n0 n1) (toRad deg lat)
  linarith

/-- **C27.** on the default ellipsoid: less than `6e-12` radians (0.04 mm on the ground) at every latitude -/
theorem rectifying_round_trip_wgs84 (lat : ℝ) :
    |rectifying2geodetic (geodetic2rectifying lat none false) none false - lat| ≤ 6e-12 := by
  have := (rectifying_round_trip none false regularO_none wgs84_moderatelyFlat lat).1
  simp only [toRad_false] at this
  refine this.trans ?_
  norm_num [resolveEllipsoid, wgs84, Ellipsoid.ofArgs]

end Pymap3d
