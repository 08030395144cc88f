import Verif.Props.AuthalicTrue
import Verif.Lemmas.AuthRound
/-!
C27: the two authalic-latitude functions are inverse to each other up to the fourth power of `e^2`.
-/
set_option linter.unusedSectionVars false
noncomputable section
namespace Pymap3d
open Py
open Spec hiding norm dist

/-- the inverse series -/
def authInv (E x : ℝ) : ℝ :=
  ser (E / 3 + 31 * E ^ 2 / 180 + 517 * E ^ 3 / 5040) (23 * E ^ 2 / 360 + 251 * E ^ 3 / 3780) (761 * E ^ 3 / 45360) 0 x

set_option maxHeartbeats 1000000 in
theorem auth_round (E x : ℝ) (h0 : 0 ≤ E) (h1 : E ≤ 1 / 2) : |authInv E (authSer E x) - x| ≤ 3 / 2 * E ^ 4 := by
  obtain ⟨m2, m3, -, m5, -⟩ := multiples x
  have hu := Real.sin_sq_add_cos_sq (2 * x)
  have bs1 := Real.abs_sin_le_one (2 * x)
  have bs2 := Real.abs_sin_le_one (4 * x)
  have bs3 := Real.abs_sin_le_one (6 * x)
  have bc1 := Real.abs_cos_le_one (2 * x)
  have bc2 := Real.abs_cos_le_one (4 * x)
  obtain ⟨k0, hk0⟩ : ∃ k0, k0 = -(1 / 3) * Real.sin (2 * x) := ⟨_, rfl⟩
  obtain ⟨k1, hk1⟩ : ∃ k1, k1 = -(31 / 180) * Real.sin (2 * x) + 17 / 360 * Real.sin (4 * x) := ⟨_, rfl⟩
  obtain ⟨k2, hk2⟩ : ∃ k2, k2 = -(59 / 560) * Real.sin (2 * x) + 61 / 1260 * Real.sin (4 * x) - 383 / 45360 * Real.sin (6 * x) :=
    ⟨_, rfl⟩
  obtain ⟨K, hK⟩ : ∃ K, K = k0 + E * k1 + E ^ 2 * k2 := ⟨_, rfl⟩
  have hser : authSer E x = x + E * K := by
    simp only [authSer, ser, hK, hk0, hk1, hk2]; ring
  obtain ⟨e0, e1, e2⟩ := AuthRound.orders hu m2 m3 m5 hk0 hk1 hk2
  have bn : |E| ≤ 1 / 2 := by rwa [abs_of_nonneg h0]
  have bk0 : |k0| ≤ 1 / 3 := by rw [hk0]; bdnum
  have bk1 : |k1| ≤ 79 / 360 := by rw [hk1]; bdnum
  have bk2 : |k2| ≤ 59 / 560 + 61 / 1260 + 383 / 45360 := by rw [hk2]; bdnum
  have bK : |K| ≤ 1 / 2 := by rw [hK]; bdnum
  have hrem := AuthRound.remainder h0 bk0 bk1 (by norm_num at bk2 ⊢; exact bk2) bs1 bs2 bs3 bc1 bc2 bn e0 e1 e2
  rw [← hK] at hrem
  rw [hser]
  have t1 := Bd.cos_taylor4 (2 * (E * K))
  have t2 := Bd.sin_taylor3 (2 * (E * K))
  have t3 := Bd.cos_taylor2 (4 * (E * K))
  have t4 := Bd.sin_taylor3 (4 * (E * K))
  have t7 := abs_sin_sub_le (6 * (x + E * K)) (6 * x)
  have aK : 0 ≤ |K| := abs_nonneg K
  have eh : |E * K| = E * |K| := by rw [abs_mul, abs_of_nonneg h0]
  have p2 : K ^ 2 ≤ (1 / 2) ^ 2 := by rw [← sq_abs]; exact pow_le_pow_left₀ aK bK 2
  have p3 : |K| ^ 3 ≤ (1 / 2) ^ 3 := pow_le_pow_left₀ aK bK 3
  have p4 : K ^ 4 ≤ (1 / 2) ^ 4 := by
    have := pow_le_pow_left₀ aK bK 4
    rwa [show |K| ^ 4 = K ^ 4 by rw [← abs_pow, abs_of_nonneg (by positivity)]] at this
  have n2 : 0 ≤ E ^ 2 := by positivity
  have n3 : 0 ≤ E ^ 3 := by positivity
  have n4 : 0 ≤ E ^ 4 := by positivity
  have u1 : |Real.cos (2 * (E * K)) - (1 - (2 * (E * K)) ^ 2 / 2)| ≤ 1 / 40 * E ^ 3 := by
    refine t1.trans ?_
    have e : (2 * (E * K)) ^ 4 / 24 = 2 / 3 * K ^ 4 * E * E ^ 3 := by ring
    rw [e]
    have : 2 / 3 * K ^ 4 * E ≤ 2 / 3 * (1 / 2) ^ 4 * (1 / 2) :=
      mul_le_mul (by clear * - p4; linarith) h1 h0 (by norm_num)
    exact mul_le_mul_of_nonneg_right (by clear * - this; norm_num at this; linarith) n3
  have u2 : |Real.sin (2 * (E * K)) - 2 * (E * K)| ≤ 1 / 6 * E ^ 3 := by
    refine t2.trans ?_
    rw [abs_mul, eh, abs_two]
    have e : (2 * (E * |K|)) ^ 3 / 6 = 4 / 3 * |K| ^ 3 * E ^ 3 := by ring
    rw [e]; exact mul_le_mul_of_nonneg_right (by clear * - p3; norm_num at p3; linarith) n3
  have u3 : |Real.cos (4 * (E * K)) - 1| ≤ 2 * E ^ 2 := by
    refine t3.trans ?_
    have e : (4 * (E * K)) ^ 2 / 2 = 8 * K ^ 2 * E ^ 2 := by ring
    rw [e]; exact mul_le_mul_of_nonneg_right (by clear * - p2; norm_num at p2; linarith) n2
  have u4 : |Real.sin (4 * (E * K)) - 4 * (E * K)| ≤ 2 / 3 * E ^ 2 := by
    refine t4.trans ?_
    rw [abs_mul, eh, abs_of_pos (by norm_num : (0 : ℝ) < 4)]
    have e : (4 * (E * |K|)) ^ 3 / 6 = 32 / 3 * |K| ^ 3 * E * E ^ 2 := by ring
    rw [e]
    have : 32 / 3 * |K| ^ 3 * E ≤ 32 / 3 * (1 / 2) ^ 3 * (1 / 2) :=
      mul_le_mul (by clear * - p3; linarith) h1 h0 (by norm_num)
    exact mul_le_mul_of_nonneg_right (by clear * - this; norm_num at this; linarith) n2
  have u7 : |Real.sin (6 * (x + E * K)) - Real.sin (6 * x)| ≤ 3 * E := by
    refine t7.trans ?_
    rw [show 6 * (x + E * K) - 6 * x = 6 * (E * K) by ring, abs_mul, eh, abs_of_pos (by norm_num : (0 : ℝ) < 6)]
    clear * - bK h0; nlinarith
  simp only [authInv, ser, sin_shift 2, sin_shift 4]
  clear t1 t2 t3 t4 t7 hser m2 m3 m5 hu hK hk0 hk1 hk2 e0 e1 e2
  revert hrem u1 u2 u3 u4 u7 bs1 bs2 bs3 bc1 bc2
  generalize Real.sin (6 * (x + E * K)) = S6
  generalize Real.cos (2 * (E * K)) = C1
  generalize Real.sin (2 * (E * K)) = S1
  generalize Real.cos (4 * (E * K)) = C2
  generalize Real.sin (4 * (E * K)) = S2
  generalize Real.sin (2 * x) = s1
  generalize Real.sin (4 * x) = s2
  generalize Real.sin (6 * x) = s3
  generalize Real.cos (2 * x) = c1
  generalize Real.cos (4 * x) = c2
  intro bs1 bs2 bs3 bc1 bc2 hrem u1 u2 u3 u4 u7
  have split : ∀ T P D1 F1 D2 F2 G : ℝ, |P| ≤ 1 * E ^ 3 → |D1| ≤ 1 / 40 * E ^ 3 → |F1| ≤ 1 / 6 * E ^ 3 →
      |D2| ≤ 2 * E ^ 2 → |F2| ≤ 2 / 3 * E ^ 2 → |G| ≤ 3 * E →
      T = E * P + (1 / 3 + 31 / 180 * E + 517 / 5040 * E ^ 2) * E * (s1 * D1 + c1 * F1) +
        E ^ 2 * (23 / 360 + 251 / 3780 * E) * (s2 * D2 + c2 * F2) + E ^ 3 * (761 / 45360) * G → |T| ≤ 3 / 2 * E ^ 4 := by
    intro T P D1 F1 D2 F2 G hP hD1 hF1 hD2 hF2 hG hT
    have q1 : |1 / 3 + 31 / 180 * E + 517 / 5040 * E ^ 2| ≤ 9 / 20 := by
      bdnum
    have q2 : |23 / 360 + 251 / 3780 * E| ≤ 1 / 10 := by
      bdnum
    have qn : |E| ≤ E := (abs_of_nonneg h0).le
    rw [hT]
    have : |E * P + (1 / 3 + 31 / 180 * E + 517 / 5040 * E ^ 2) * E * (s1 * D1 + c1 * F1) +
        E ^ 2 * (23 / 360 + 251 / 3780 * E) * (s2 * D2 + c2 * F2) + E ^ 3 * (761 / 45360) * G| ≤
        E * (1 * E ^ 3) + 9 / 20 * E * (1 * (1 / 40 * E ^ 3) + 1 * (1 / 6 * E ^ 3)) +
        E ^ 2 * (1 / 10) * (1 * (2 * E ^ 2) + 1 * (2 / 3 * E ^ 2)) + E ^ 3 * (761 / 45360) * (3 * E) := by
      clear bn
      bd
    refine this.trans ?_
    nlinarith
  refine split _ _ _ _ _ _ _ hrem u1 u2 u3 u4 u7 ?_
  ring

/-- **C27.** The two authalic functions undo each other up to `1.5 e^8` (`3 e^8` in the other order), at every latitude, for
every oblate ellipsoid with `e^2 <= 1/2`. -/
theorem authalic_round_trip (ell : Option (Ellipsoid ℝ)) (deg : Bool) (h : RegularO ell) (hf : ModeratelyFlat ell) (lat : ℝ) :
    let a := (resolveEllipsoid ell).semimajor_axis
    let b := (resolveEllipsoid ell).semiminor_axis
    |toRad deg (authalic2geodetic (geodetic2authalic lat ell deg) ell deg) - toRad deg lat| ≤ 3 / 2 * (1 - b ^ 2 / a ^ 2) ^ 4 ∧
    |toRad deg (geodetic2authalic (authalic2geodetic lat ell deg) ell deg) - toRad deg lat| ≤ 3 * (1 - b ^ 2 / a ^ 2) ^ 4 := by
  intro a b
  obtain ⟨E, hEd⟩ : ∃ E, E = 1 - b ^ 2 / a ^ 2 := ⟨_, rfl⟩
  rw [← hEd]
  have hE : (resolveEllipsoid ell).eccentricity ^ 2 = E := by rw [hEd]; exact h.ecc_sq
  have E1 : E ≤ 1 / 2 := by rw [← hE]; exact hf
  have E0 : 0 ≤ E := by rw [← hE]; positivity
  have e4 : (resolveEllipsoid ell).eccentricity ^ 4 = E ^ 2 := by rw [← hE]; ring
  have e6 : (resolveEllipsoid ell).eccentricity ^ 6 = E ^ 3 := by rw [← hE]; ring
  have hco := (ecc_coef_bound hf).1
  rw [hE, e4, e6] at hco
  simp only [authalic2geodetic_ser, geodetic2authalic_ser, toRad_outAngle, hE, e4, e6]
  refine ⟨auth_round E _ E0 E1, ?_⟩
  have := round_swap hco (fun x => auth_round E x E0 E1) (toRad deg lat)
  simp only [authInv] at this
  linarith

/-- **C27.** on the default ellipsoid: less than `4e-9` radians at every latitude -/
theorem authalic_round_trip_wgs84 (lat : ℝ) :
    |authalic2geodetic (geodetic2authalic lat none false) none false - lat| ≤ 4e-9 := by
  have := (authalic_round_trip none false regularO_none wgs84_moderatelyFlat lat).1
  simp only [toRad_false] at this
  refine this.trans ?_
  norm_num [resolveEllipsoid, wgs84, Ellipsoid.ofArgs]

end Pymap3d
