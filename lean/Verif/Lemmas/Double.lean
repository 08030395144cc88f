import Verif.Lemmas.FloatErr
/-!
Double precision: rounding of relative error at most `2^-53` that is monotone and leaves the multiples of 1/4 below `2^51` alone.
`binary64` and the exact reals are such arithmetics.
-/
set_option linter.unusedSectionVars false
noncomputable section
open Py
namespace PyFloat

/-- an arithmetic of (at least) double precision -/
structure Double (M : FloatArith) : Prop where
  u_le : M.u ≤ (1 / 2) ^ 53
  quarter : ∀ n : ℤ, |n| < 2 ^ 53 → M.rnd ((n : ℝ) / 4) = (n : ℝ) / 4
  mono : Monotone M.rnd

theorem exact_double : Double exact := ⟨by show (0:ℝ) ≤ _; positivity, fun _ _ => rfl, fun _ _ h => h⟩

theorem roundEvenR_intCast (n : ℤ) : PyReal.roundEvenR (n : ℝ) = n := by
  unfold PyReal.roundEvenR
  simp

theorem roundEvenR_mono : Monotone PyReal.roundEvenR := by
  intro x y h
  unfold PyReal.roundEvenR
  have hx := Int.floor_add_fract x
  have hy := Int.floor_add_fract y
  have hx0 := Int.fract_nonneg x
  have hx1 := Int.fract_lt_one x
  have hy0 := Int.fract_nonneg y
  have hy1 := Int.fract_lt_one y
  have hf : ⌊x⌋ ≤ ⌊y⌋ := Int.floor_mono h
  rcases hf.lt_or_eq with hlt | heq
  · have : ⌊x⌋ + 1 ≤ ⌊y⌋ := hlt
    split_ifs <;> omega
  · rw [heq] at hx ⊢
    split_ifs <;> first | omega | (exfalso; linarith)

theorem roundEvenR_neg (x : ℝ) : PyReal.roundEvenR (-x) = -PyReal.roundEvenR x := by
  by_cases h : Int.fract x = 0
  · have hx : x = (⌊x⌋ : ℤ) := by have := Int.floor_add_fract x; rw [h] at this; linarith
    rw [hx, ← Int.cast_neg, roundEvenR_intCast, roundEvenR_intCast]
  · have hf : Int.fract (-x) = 1 - Int.fract x := Int.fract_neg h
    have hl : ⌊-x⌋ = -⌊x⌋ - 1 := by
      have h1 := Int.floor_add_fract x
      have h2 := Int.floor_add_fract (-x)
      rw [hf] at h2
      have : ((⌊-x⌋ : ℤ) : ℝ) = ((-⌊x⌋ - 1 : ℤ) : ℝ) := by push_cast; linarith
      exact_mod_cast this
    unfold PyReal.roundEvenR
    rw [hf, hl]
    have he : Even (-⌊x⌋ - 1) ↔ ¬ Even ⌊x⌋ := by
      rw [Int.even_sub_one, even_neg]
    rcases lt_trichotomy (Int.fract x) (1 / 2) with h1 | h1 | h1
    · rw [if_neg (by linarith), if_pos (by linarith), if_pos h1]; ring
    · have n1 : ¬ (1 - Int.fract x < 1 / 2) := by linarith
      have n2 : ¬ (1 / 2 < 1 - Int.fract x) := by linarith
      have n3 : ¬ (Int.fract x < 1 / 2) := by linarith
      have n4 : ¬ (1 / 2 < Int.fract x) := by linarith
      simp only [n1, n2, n3, n4, if_false]
      by_cases hv : Even ⌊x⌋
      · rw [if_pos hv, if_neg (by rw [he]; simpa using hv)]; ring
      · rw [if_neg hv, if_pos (he.mpr hv)]; ring
    · rw [if_pos (by linarith), if_neg (by linarith), if_pos h1]; ring

theorem rnd64_neg (x : ℝ) : rnd64 (-x) = -rnd64 x := by
  unfold rnd64 ulp
  by_cases h : x = 0
  · simp [h]
  · rw [if_neg h, if_neg (neg_ne_zero.mpr h), abs_neg, neg_div, roundEvenR_neg]
    push_cast; ring

theorem rnd64_quarter (n : ℤ) (hn : |n| < 2 ^ 53) : rnd64 ((n : ℝ) / 4) = (n : ℝ) / 4 := by
  by_cases h : (n : ℝ) / 4 = 0
  · unfold rnd64; rw [if_pos h, h]
  · unfold rnd64
    rw [if_neg h]
    have hpos := abs_pos.mpr h
    have hlt : |(n : ℝ) / 4| < ((2 : ℕ) : ℝ) ^ (51 : ℤ) := by
      rw [abs_div]
      have : (|(n : ℝ)|) < 2 ^ 53 := by exact_mod_cast hn
      norm_num at this ⊢
      linarith
    have hl : Int.log 2 |(n : ℝ) / 4| < 51 := (Int.lt_zpow_iff_log_lt (by norm_num) hpos).mp hlt
    obtain ⟨k, hk⟩ : ∃ k : ℕ, Int.log 2 |(n : ℝ) / 4| = 50 - k := ⟨(50 - Int.log 2 |(n : ℝ) / 4|).toNat, by omega⟩
    have hu : ulp ((n : ℝ) / 4) = (2:ℝ) ^ (-(k : ℤ) - 2) := by
      unfold ulp; rw [hk]; congr 1; ring
    have hup := ulp_pos ((n : ℝ) / 4)
    have e : (n : ℝ) / 4 / ulp ((n : ℝ) / 4) = ((n * 2 ^ k : ℤ) : ℝ) := by
      rw [hu, zpow_sub₀ (by norm_num), zpow_neg, zpow_natCast]
      push_cast
      field_simp
      norm_num
    rw [e, roundEvenR_intCast, ← e]
    field_simp

theorem rnd64_zero : rnd64 0 = 0 := by unfold rnd64; simp

theorem rnd64_nonneg {x : ℝ} (h : 0 ≤ x) : 0 ≤ rnd64 x := by
  unfold rnd64
  split_ifs
  · exact le_rfl
  · have : (0:ℤ) ≤ PyReal.roundEvenR (x / ulp x) := by
      have := roundEvenR_mono (show (0:ℝ) ≤ x / ulp x from div_nonneg h (ulp_pos x).le)
      rw [show (0:ℝ) = ((0:ℤ):ℝ) by norm_num, roundEvenR_intCast] at this
      exact this
    exact mul_nonneg (by exact_mod_cast this) (ulp_pos x).le

/-- a positive number is rounded within its binade -/
theorem rnd64_binade {x : ℝ} (h : 0 < x) : (2:ℝ) ^ (Int.log 2 x) ≤ rnd64 x ∧ rnd64 x ≤ (2:ℝ) ^ (Int.log 2 x + 1) := by
  have hl := Int.zpow_log_le_self (b := 2) (r := x) (by norm_num) h
  have hh := Int.lt_zpow_succ_log_self (b := 2) (by norm_num) x
  have hl' : (2:ℝ) ^ (Int.log 2 x) ≤ x := by exact_mod_cast hl
  have hh' : x < (2:ℝ) ^ (Int.log 2 x + 1) := by exact_mod_cast hh
  have hup : 0 < ulp x := ulp_pos x
  have hu : ulp x = (2:ℝ) ^ (Int.log 2 x) / 2 ^ 52 := by
    unfold ulp; rw [abs_of_pos h, zpow_sub₀ (by norm_num)]; norm_num
  have hz : (2:ℝ) ^ (Int.log 2 x + 1) = (2:ℝ) ^ (Int.log 2 x) * 2 := by rw [zpow_add₀ (by norm_num)]; norm_num
  have hp : (0:ℝ) < (2:ℝ) ^ (Int.log 2 x) := zpow_pos (by norm_num) _
  unfold rnd64
  rw [if_neg h.ne']
  have a : (2 ^ 52 : ℤ) ≤ PyReal.roundEvenR (x / ulp x) := by
    have h1 : ((2 ^ 52 : ℤ) : ℝ) ≤ x / ulp x := by
      rw [le_div_iff₀ hup, hu]
      have : ((2 ^ 52 : ℤ) : ℝ) * (2 ^ Int.log 2 x / 2 ^ 52) = 2 ^ (Int.log 2 x) := by push_cast; ring
      rw [this]; exact hl'
    have := roundEvenR_mono h1
    rwa [roundEvenR_intCast] at this
  have b : PyReal.roundEvenR (x / ulp x) ≤ (2 ^ 53 : ℤ) := by
    have h1 : x / ulp x ≤ ((2 ^ 53 : ℤ) : ℝ) := by
      rw [div_le_iff₀ hup, hu]
      have : ((2 ^ 53 : ℤ) : ℝ) * (2 ^ Int.log 2 x / 2 ^ 52) = 2 ^ (Int.log 2 x) * 2 := by push_cast; ring
      rw [this, ← hz]; exact hh'.le
    have := roundEvenR_mono h1
    rwa [roundEvenR_intCast] at this
  have a' : (2:ℝ) ^ 52 ≤ (PyReal.roundEvenR (x / ulp x) : ℝ) := by exact_mod_cast a
  have b' : (PyReal.roundEvenR (x / ulp x) : ℝ) ≤ (2:ℝ) ^ 53 := by exact_mod_cast b
  have ha := mul_le_mul_of_nonneg_right a' hup.le
  have hb := mul_le_mul_of_nonneg_right b' hup.le
  have e1 : (2:ℝ) ^ 52 * ulp x = (2:ℝ) ^ (Int.log 2 x) := by rw [hu]; field_simp
  have e2 : (2:ℝ) ^ 53 * ulp x = (2:ℝ) ^ (Int.log 2 x + 1) := by rw [hu, hz]; ring
  rw [e1] at ha
  rw [e2] at hb
  exact ⟨ha, hb⟩

theorem rnd64_mono_pos {x y : ℝ} (hx : 0 < x) (h : x ≤ y) : rnd64 x ≤ rnd64 y := by
  have hy : 0 < y := hx.trans_le h
  have hL : Int.log 2 x ≤ Int.log 2 y := Int.log_mono_right hx h
  rcases hL.lt_or_eq with hlt | heq
  · have h1 := (rnd64_binade hx).2
    have h2 := (rnd64_binade hy).1
    have h3 : (2:ℝ) ^ (Int.log 2 x + 1) ≤ (2:ℝ) ^ (Int.log 2 y) := zpow_le_zpow_right₀ (by norm_num) hlt
    linarith
  · have hu : ulp x = ulp y := by unfold ulp; rw [abs_of_pos hx, abs_of_pos hy, heq]
    unfold rnd64
    rw [if_neg hx.ne', if_neg hy.ne', hu]
    have := roundEvenR_mono (div_le_div_of_nonneg_right h (ulp_pos y).le)
    exact mul_le_mul_of_nonneg_right (by exact_mod_cast this) (ulp_pos y).le

theorem rnd64_mono : Monotone rnd64 := by
  intro x y h
  rcases lt_or_ge 0 x with hx | hx
  · exact rnd64_mono_pos hx h
  · rcases lt_or_ge y 0 with hy | hy
    · have := rnd64_mono_pos (x := -y) (y := -x) (by linarith) (by linarith)
      rw [rnd64_neg, rnd64_neg] at this
      linarith
    · have h1 : rnd64 x ≤ 0 := by
        have := rnd64_nonneg (x := -x) (by linarith)
        rw [rnd64_neg] at this; linarith
      exact h1.trans (rnd64_nonneg hy)

/-- IEEE binary64 is double precision -/
theorem binary64_double : Double binary64 := ⟨le_rfl, rnd64_quarter, rnd64_mono⟩

namespace Double
variable {M : FloatArith} (D : Double M)
include D

theorem int (n : ℤ) (h : |n| < 2 ^ 51) : M.rnd (n : ℝ) = n := by
  have := D.quarter (4 * n) (by rw [abs_mul]; norm_num at h ⊢; omega)
  push_cast at this
  rwa [mul_div_cancel_left₀ _ (by norm_num)] at this

theorem nat (n : ℕ) (h : n < 2 ^ 51) : M.rnd (n : ℝ) = n := by
  have := D.int n (by rw [abs_of_nonneg (by omega)]; exact_mod_cast h)
  exact_mod_cast this

theorem ofInt (n : ℤ) (h : |n| < 2 ^ 51) : (PyMath.ofInt n : Fl M).val = n := D.int n h

/-- decimal literals that are multiples of 1/4 -/
theorem lit (x : ℝ) (n : ℤ) (hx : x = (n : ℝ) / 4) (h : |n| < 2 ^ 53) : M.rnd x = x := by
  rw [hx]; exact D.quarter n h

theorem close (x : ℝ) : |M.rnd x - x| ≤ 1.0001 * M.u * |x| := by
  have h := M.small
  obtain ⟨θ, e, a, b⟩ := M.rnd_near x
  have hu := D.u_le
  have hu0 := M.u_nonneg
  have hu' : M.u ≤ 0.00001 := hu.trans (by norm_num)
  rw [pow_one] at a b
  have hb : θ ≤ 1 + 1.0001 * M.u := by
    refine b.trans ?_
    rw [inv_le_comm₀ (by linarith) (by positivity), inv_eq_one_div, div_le_iff₀ (by positivity)]
    nlinarith
  rw [e, show x * θ - x = (θ - 1) * x by ring, abs_mul]
  refine mul_le_mul_of_nonneg_right ?_ (abs_nonneg x)
  rw [abs_le]; constructor <;> nlinarith

end Double

end PyFloat
end
