import Verif.Lemmas.Close
import Verif.Props.FloatTime
import Verif.Props.Time2
import Verif.Props.EciIau
/-!
**C86** sidereal time in double precision.
-/
set_option linter.unusedSectionVars false
namespace Pymap3d
open Py PyFloat
open Spec hiding norm dist

noncomputable section

variable {M : FloatArith}

/-- Julian centuries -/
theorem centuries_fl (D : Double M) {J c0 : ℝ} {j : Fl M} (hJ : |J - 2451545| ≤ 73050) (hj : |j.val - J| ≤ c0 * w53) (hc : c0 ≤ 1e7) :
    Cl 2 (c0 / 36525 + 4.1) (centuries J) (julianCenturies j).val := by
  have l1 : (2451545.0 : Fl M).val = 2451545 := by rw [val_lit, D.lit _ 9806180 (by norm_num) (by norm_num)]; norm_num
  have l2 : (36525.0 : Fl M).val = 36525 := by rw [val_lit, D.lit _ 146100 (by norm_num) (by norm_num)]; norm_num
  have a1 : Cl (|J|) c0 J j.val := ⟨le_rfl, hj⟩
  have a2 : Cl 2451545 0 2451545 (2451545.0 : Fl M).val := by rw [l1]; exact Cl.exact (by rw [abs_of_pos] <;> norm_num)
  have a3 : Cl 73050 (c0 + 73124) (J - 2451545) (j - 2451545.0 : Fl M).val := Cl.fsub' D a1 a2 hJ (by norm_num; linarith) (by norm_num at hc ⊢; linarith)
  exact Cl.fdiv D a3 l2 (by norm_num) (by norm_num; linarith) (by norm_num) (by norm_num at hc ⊢; linarith)

variable {c T : ℝ} {t : Fl M}

theorem sq_fl (D : Double M) (h : Cl 2 c T t.val) (hc : c ≤ 300) : Cl 4 (4.002 * c + 33) (T ^ 2) (t ^ 2).val := by
  have := h.c_nonneg
  exact (Cl.fpow D h (by norm_num; linarith) 2 (C := 4.002 * c + 33) (by norm_num; linarith) (by norm_num; linarith)).mono (by norm_num) le_rfl

theorem cube_fl (D : Double M) (h : Cl 2 c T t.val) (hc : c ≤ 300) : Cl 8 (12.01 * c + 65) (T ^ 3) (t ^ 3).val := by
  have := h.c_nonneg
  exact (Cl.fpow D h (by norm_num; linarith) 3 (C := 12.01 * c + 65) (by norm_num; linarith) (by norm_num; linarith)).mono (by norm_num) le_rfl

theorem gmstSec_fl (D : Double M) (h : Cl 2 c T t.val) (hc : c ≤ 80) :
    Cl 6.3289e9 (3.165e9 * c + 3.25e10)
      (67310.54841 + (876600 * 3600 + 8640184.812866) * T + 0.093104 * T ^ 2 - 6.2e-6 * T ^ 3) (gmstSec t).val := by
  have h0 := h.c_nonneg
  have a1 : Cl 67311 67400 67310.54841 (67310.54841 : Fl M).val := Cl.lit D (by rw [abs_of_pos] <;> norm_num) (by norm_num)
  have a2 : Cl 8640185 8.65e6 8640184.812866 (8640184.812866 : Fl M).val := Cl.lit D (by rw [abs_of_pos] <;> norm_num) (by norm_num)
  have a3 : Cl 3155760000 0 (876600 * 3600) (ofInt (876600 * 3600) : Fl M).val := by
    have e := D.ofInt (876600 * 3600) (by norm_num)
    have e2 : (((876600 * 3600 : ℤ)) : ℝ) = 876600 * 3600 := by norm_num
    rw [e2] at e
    rw [e]
    exact Cl.exact (by rw [abs_of_pos] <;> norm_num)
  have a4 : Cl 3164400185 3.2e9 (876600 * 3600 + 8640184.812866) (ofInt (876600 * 3600) + 8640184.812866 : Fl M).val :=
    Cl.fadd D a3 a2 (by norm_num) (by norm_num) (by norm_num)
  have a5 : Cl 6328800370 (3.1645e9 * c + 1.28e10) ((876600 * 3600 + 8640184.812866) * T) ((ofInt (876600 * 3600) + 8640184.812866) * t : Fl M).val :=
    Cl.fmul D a4 h (by norm_num) (by norm_num; linarith) (by norm_num) (by norm_num; linarith)
  have a6 : Cl 0.0932 0.1 0.093104 (0.093104 : Fl M).val := Cl.lit D (by rw [abs_of_pos] <;> norm_num) (by norm_num)
  have a7 : Cl 0.38 (0.4 * c + 5) (0.093104 * T ^ 2) (0.093104 * t ^ 2 : Fl M).val :=
    Cl.fmul D a6 (sq_fl D h (by linarith)) (by norm_num) (by norm_num; linarith) (by norm_num) (by norm_num; linarith)
  have a8 : Cl 0.00001 0.002 6.2e-6 (6.2e-6 : Fl M).val := Cl.lit D (by rw [abs_of_pos] <;> norm_num) (by norm_num)
  have a9 : Cl 0.001 (0.01 * c + 1) (6.2e-6 * T ^ 3) (6.2e-6 * t ^ 3 : Fl M).val :=
    Cl.fmul D a8 (cube_fl D h (by linarith)) (by norm_num) (by norm_num; linarith) (by norm_num) (by norm_num; linarith)
  have b1 : Cl 6328867681 (3.1645e9 * c + 1.92e10) (67310.54841 + (876600 * 3600 + 8640184.812866) * T) (67310.54841 + (ofInt (876600 * 3600) + 8640184.812866) * t : Fl M).val :=
    Cl.fadd D a1 a5 (by norm_num; linarith) (by norm_num) (by norm_num; linarith)
  have b2 : Cl 6328867682 (3.1646e9 * c + 2.56e10) (67310.54841 + (876600 * 3600 + 8640184.812866) * T + 0.093104 * T ^ 2)
      (67310.54841 + (ofInt (876600 * 3600) + 8640184.812866) * t + 0.093104 * t ^ 2 : Fl M).val :=
    Cl.fadd D b1 a7 (by norm_num; linarith) (by norm_num) (by norm_num; linarith)
  exact Cl.fsub D b2 a9 (by norm_num; linarith) (by norm_num) (by norm_num; linarith)

theorem gmst_core (D : Double M) {J : ℝ} {j : Fl M} (h : Cl 2 c (centuries J) (julianCenturies j).val) (hc : c ≤ 80) :
    Ang (2.305e5 * c + 5.3e6) (gmst J) (greenwichMeanSiderealTime j).val ∧ |(greenwichMeanSiderealTime j).val| ≤ 6.2833 := by
  have h0 := h.c_nonneg
  have l1 : (86400.0 : Fl M).val = 86400 := by rw [val_lit, D.lit _ 345600 (by norm_num) (by norm_num)]; norm_num
  have a1 := gmstSec_fl D h hc
  have a2 : Cl 3.977e10 (1.989e10 * c + 3.25e11) _ (gmstSec (julianCenturies j) * tau : Fl M).val :=
    Cl.fmul D a1 (Cl.tau D) (by norm_num; linarith) (by norm_num; linarith) (by norm_num) (by norm_num; linarith)
  have a3 : Cl 460302 (2.303e5 * c + 4.3e6) _ (gmstSec (julianCenturies j) * tau / 86400.0 : Fl M).val :=
    Cl.fdiv D a2 l1 (by norm_num) (by norm_num; linarith) (by norm_num) (by norm_num; linarith)
  have a4 := Ang.pymod D a3 (by norm_num; linarith) (C := 2.305e5 * c + 5.3e6) (by norm_num; linarith)
  refine ⟨?_, a4.2⟩
  have e : gmst J = (67310.54841 + (876600 * 3600 + 8640184.812866) * centuries J + 0.093104 * centuries J ^ 2 - 6.2e-6 * centuries J ^ 3) * (2 * Real.pi) / 86400 := by
    unfold gmst; ring
  rw [e]; exact a4.1

/-- the arguments of the nutation -/
theorem nut_args (D : Double M) (h : Cl 2 80 T t.val) :
    (Ang 55000 (sunLon T) (pymod (280.4665 + 36000.7698 * t) 360.0 * pi / 180.0 : Fl M).val ∧ |(pymod (280.4665 + 36000.7698 * t) 360.0 * pi / 180.0 : Fl M).val| ≤ 6.2834) ∧
    (Ang 740000 (moonLon T) (pymod (218.3165 + 481267.8813 * t) 360.0 * pi / 180.0 : Fl M).val ∧ |(pymod (218.3165 + 481267.8813 * t) 360.0 * pi / 180.0 : Fl M).val| ≤ 6.2834) ∧
    (Ang 3200 (moonNode T) (pymod (125.04452 - 1934.136261 * t + 0.0020708 * t ^ 2 + t ^ 3 / 450000.0) 360.0 * pi / 180.0 : Fl M).val ∧
      |(pymod (125.04452 - 1934.136261 * t + 0.0020708 * t ^ 2 + t ^ 3 / 450000.0) 360.0 * pi / 180.0 : Fl M).val| ≤ 6.2834) := by
  refine ⟨?_, ?_, ?_⟩
  · have a1 : Cl 281 282 280.4665 (280.4665 : Fl M).val := Cl.lit D (by rw [abs_of_pos] <;> norm_num) (by norm_num)
    have a2 : Cl 36001 36038 36000.7698 (36000.7698 : Fl M).val := Cl.lit D (by rw [abs_of_pos] <;> norm_num) (by norm_num)
    have a3 : Cl 72002 3.03e6 _ (36000.7698 * t : Fl M).val := Cl.fmul D a2 h (by norm_num) (by norm_num) (by norm_num) (by norm_num)
    have a4 : Cl 72283 3.12e6 _ (280.4665 + 36000.7698 * t : Fl M).val := Cl.fadd D a1 a3 (by norm_num) (by norm_num) (by norm_num)
    exact Ang.deg D a4 (by norm_num)
  · have a1 : Cl 219 220 218.3165 (218.3165 : Fl M).val := Cl.lit D (by rw [abs_of_pos] <;> norm_num) (by norm_num)
    have a2 : Cl 481268 481750 481267.8813 (481267.8813 : Fl M).val := Cl.lit D (by rw [abs_of_pos] <;> norm_num) (by norm_num)
    have a3 : Cl 962536 4.05e7 _ (481267.8813 * t : Fl M).val := Cl.fmul D a2 h (by norm_num) (by norm_num) (by norm_num) (by norm_num)
    have a4 : Cl 962755 4.15e7 _ (218.3165 + 481267.8813 * t : Fl M).val := Cl.fadd D a1 a3 (by norm_num) (by norm_num) (by norm_num)
    exact Ang.deg D a4 (by norm_num)
  · have l1 : (450000.0 : Fl M).val = 450000 := by rw [val_lit, D.lit _ 1800000 (by norm_num) (by norm_num)]; norm_num
    have a1 : Cl 126 127 125.04452 (125.04452 : Fl M).val := Cl.lit D (by rw [abs_of_pos] <;> norm_num) (by norm_num)
    have a2 : Cl 1935 1937 1934.136261 (1934.136261 : Fl M).val := Cl.lit D (by rw [abs_of_pos] <;> norm_num) (by norm_num)
    have a3 : Cl 3870 163000 _ (1934.136261 * t : Fl M).val := Cl.fmul D a2 h (by norm_num) (by norm_num) (by norm_num) (by norm_num)
    have a4 : Cl 3996 168000 _ (125.04452 - 1934.136261 * t : Fl M).val := Cl.fsub D a1 a3 (by norm_num) (by norm_num) (by norm_num)
    have a5 : Cl 0.0021 0.0032 0.0020708 (0.0020708 : Fl M).val := Cl.lit D (by rw [abs_of_pos] <;> norm_num) (by norm_num)
    have a6 : Cl 0.01 1.1 _ (0.0020708 * t ^ 2 : Fl M).val := Cl.fmul D a5 (sq_fl D h (by norm_num)) (by norm_num) (by norm_num) (by norm_num) (by norm_num)
    have a7 : Cl 0.001 0.01 _ (t ^ 3 / 450000.0 : Fl M).val := Cl.fdiv D (cube_fl D h (by norm_num)) l1 (by norm_num) (by norm_num) (by norm_num) (by norm_num)
    have a8 : Cl 3997 172100 _ (125.04452 - 1934.136261 * t + 0.0020708 * t ^ 2 : Fl M).val := Cl.fadd D a4 a6 (by norm_num) (by norm_num) (by norm_num)
    have a9 : Cl 3998 176200 _ (125.04452 - 1934.136261 * t + 0.0020708 * t ^ 2 + t ^ 3 / 450000.0 : Fl M).val :=
      Cl.fadd D a8 a7 (by norm_num) (by norm_num) (by norm_num)
    exact Ang.deg D a9 (by norm_num)

theorem arcsec_fl (D : Double M) : Cl 4.85e-6 0.0011 (Real.pi / 648000) (ARCSEC2RAD : Fl M).val := by
  have l1 : (648000.0 : Fl M).val = 648000 := by rw [val_lit, D.lit _ 2592000 (by norm_num) (by norm_num)]; norm_num
  exact Cl.fdiv D (Cl.pi D) l1 (by norm_num) (by norm_num) (by norm_num) (by norm_num)

theorem arcsec_real (x : ℝ) : arcsec x = x * (Real.pi / 648000) := by unfold arcsec; ring

theorem nutation_fl (D : Double M) (h : Cl 2 80 T t.val) :
    Cl 9.3e-5 2.9 (nutLon T) (nutationShort t).1.val ∧ Cl 4.9e-5 1.4 (nutObl T) (nutationShort t).2.val := by
  obtain ⟨⟨L, Lb⟩, ⟨P, Pb⟩, ⟨O, Ob⟩⟩ := nut_args D h
  have L2 := Ang.double D L Lb (C := 110100) (by norm_num)
  have P2 := Ang.double D P Pb (C := 1480100) (by norm_num)
  have O2 := Ang.double D O Ob (C := 6500) (by norm_num)
  have s1 := Ang.sin D O (C := 3210) (by norm_num)
  have s2 := Ang.sin D L2 (C := 110200) (by norm_num)
  have s3 := Ang.sin D P2 (C := 1480200) (by norm_num)
  have s4 := Ang.sin D O2 (C := 6510) (by norm_num)
  have k1 := Ang.cos D O (C := 3210) (by norm_num)
  have k2 := Ang.cos D L2 (C := 110200) (by norm_num)
  have k3 := Ang.cos D P2 (C := 1480200) (by norm_num)
  have k4 := Ang.cos D O2 (C := 6510) (by norm_num)
  rw [nutLon, nutObl, arcsec_real, arcsec_real]
  simp only [nutationShort]
  generalize (pymod (280.4665 + 36000.7698 * t) 360.0 * pi / 180.0 : Fl M) = l at *
  generalize (pymod (218.3165 + 481267.8813 * t) 360.0 * pi / 180.0 : Fl M) = p at *
  generalize (pymod (125.04452 - 1934.136261 * t + 0.0020708 * t ^ 2 + t ^ 3 / 450000.0) 360.0 * pi / 180.0 : Fl M) = o at *
  constructor
  · have n1 : Cl 17.2 17.22 (-17.20) (-17.20 : Fl M).val := (Cl.lit D (by rw [abs_of_pos] <;> norm_num) (by norm_num)).neg
    have n2 : Cl 1.32 1.33 1.32 (1.32 : Fl M).val := Cl.lit D (by rw [abs_of_pos] <;> norm_num) (by norm_num)
    have n3 : Cl 0.23 0.24 0.23 (0.23 : Fl M).val := Cl.lit D (by rw [abs_of_pos] <;> norm_num) (by norm_num)
    have n4 : Cl 0.21 0.22 0.21 (0.21 : Fl M).val := Cl.lit D (by rw [abs_of_pos] <;> norm_num) (by norm_num)
    have m1 : Cl 17.2 55300 _ (-17.20 * sin o : Fl M).val := Cl.fmul D n1 s1 (by norm_num) (by norm_num) (by norm_num) (by norm_num)
    have m2 : Cl 1.32 146000 _ (1.32 * sin (2.0 * l) : Fl M).val := Cl.fmul D n2 s2 (by norm_num) (by norm_num) (by norm_num) (by norm_num)
    have m3 : Cl 0.23 342000 _ (0.23 * sin (2.0 * p) : Fl M).val := Cl.fmul D n3 s3 (by norm_num) (by norm_num) (by norm_num) (by norm_num)
    have m4 : Cl 0.21 1400 _ (0.21 * sin (2.0 * o) : Fl M).val := Cl.fmul D n4 s4 (by norm_num) (by norm_num) (by norm_num) (by norm_num)
    have q1 : Cl 18.52 201400 _ (-17.20 * sin o - 1.32 * sin (2.0 * l) : Fl M).val := Cl.fsub D m1 m2 (by norm_num) (by norm_num) (by norm_num)
    have q2 : Cl 18.75 543500 _ (-17.20 * sin o - 1.32 * sin (2.0 * l) - 0.23 * sin (2.0 * p) : Fl M).val := Cl.fsub D q1 m3 (by norm_num) (by norm_num) (by norm_num)
    have q3 : Cl 18.96 545000 _ (-17.20 * sin o - 1.32 * sin (2.0 * l) - 0.23 * sin (2.0 * p) + 0.21 * sin (2.0 * o) : Fl M).val :=
      Cl.fadd D q2 m4 (by norm_num) (by norm_num) (by norm_num)
    exact Cl.fmul D q3 (arcsec_fl D) (by norm_num) (by norm_num) (by norm_num) (by norm_num)
  · have n1 : Cl 9.2 9.22 9.20 (9.20 : Fl M).val := Cl.lit D (by rw [abs_of_pos] <;> norm_num) (by norm_num)
    have n2 : Cl 0.57 0.58 0.57 (0.57 : Fl M).val := Cl.lit D (by rw [abs_of_pos] <;> norm_num) (by norm_num)
    have n3 : Cl 0.1 0.11 0.10 (0.10 : Fl M).val := Cl.lit D (by rw [abs_of_pos] <;> norm_num) (by norm_num)
    have n4 : Cl 0.09 0.1 0.09 (0.09 : Fl M).val := Cl.lit D (by rw [abs_of_pos] <;> norm_num) (by norm_num)
    have m1 : Cl 9.2 29600 _ (9.20 * cos o : Fl M).val := Cl.fmul D n1 k1 (by norm_num) (by norm_num) (by norm_num) (by norm_num)
    have m2 : Cl 0.57 63000 _ (0.57 * cos (2.0 * l) : Fl M).val := Cl.fmul D n2 k2 (by norm_num) (by norm_num) (by norm_num) (by norm_num)
    have m3 : Cl 0.1 149000 _ (0.10 * cos (2.0 * p) : Fl M).val := Cl.fmul D n3 k3 (by norm_num) (by norm_num) (by norm_num) (by norm_num)
    have m4 : Cl 0.09 600 _ (0.09 * cos (2.0 * o) : Fl M).val := Cl.fmul D n4 k4 (by norm_num) (by norm_num) (by norm_num) (by norm_num)
    have q1 : Cl 9.77 92700 _ (9.20 * cos o + 0.57 * cos (2.0 * l) : Fl M).val := Cl.fadd D m1 m2 (by norm_num) (by norm_num) (by norm_num)
    have q2 : Cl 9.87 241800 _ (9.20 * cos o + 0.57 * cos (2.0 * l) + 0.10 * cos (2.0 * p) : Fl M).val := Cl.fadd D q1 m3 (by norm_num) (by norm_num) (by norm_num)
    have q3 : Cl 9.96 243000 _ (9.20 * cos o + 0.57 * cos (2.0 * l) + 0.10 * cos (2.0 * p) - 0.09 * cos (2.0 * o) : Fl M).val :=
      Cl.fsub D q2 m4 (by norm_num) (by norm_num) (by norm_num)
    exact Cl.fmul D q3 (arcsec_fl D) (by norm_num) (by norm_num) (by norm_num) (by norm_num)

theorem obliquity_fl (D : Double M) (h : Cl 2 80 T t.val) : Cl 0.41 97 (obliquity T) (meanObliquity t).val := by
  have a1 : Cl 84382 84470 (23 * 3600 + 26 * 60 + 21.448) (84381.448 : Fl M).val := by
    rw [show (23 * 3600 + 26 * 60 + 21.448 : ℝ) = 84381.448 by norm_num]
    exact Cl.lit D (by rw [abs_of_pos] <;> norm_num) (by norm_num)
  have a2 : Cl 46.82 46.9 46.8150 (46.8150 : Fl M).val := Cl.lit D (by rw [abs_of_pos] <;> norm_num) (by norm_num)
  have a3 : Cl 93.7 3950 _ (46.8150 * t : Fl M).val := Cl.fmul D a2 h (by norm_num) (by norm_num) (by norm_num) (by norm_num)
  have a4 : Cl 0.0006 0.0017 0.00059 (0.00059 : Fl M).val := Cl.lit D (by rw [abs_of_pos] <;> norm_num) (by norm_num)
  have a5 : Cl 0.0025 0.5 _ (0.00059 * t ^ 2 : Fl M).val := Cl.fmul D a4 (sq_fl D h (by norm_num)) (by norm_num) (by norm_num) (by norm_num) (by norm_num)
  have a6 : Cl 0.002 0.0031 0.001813 (0.001813 : Fl M).val := Cl.lit D (by rw [abs_of_pos] <;> norm_num) (by norm_num)
  have a7 : Cl 0.02 3 _ (0.001813 * t ^ 3 : Fl M).val := Cl.fmul D a6 (cube_fl D h (by norm_num)) (by norm_num) (by norm_num) (by norm_num) (by norm_num)
  have b1 : Cl 84476 173000 _ (84381.448 - 46.8150 * t : Fl M).val := Cl.fsub D a1 a3 (by norm_num) (by norm_num) (by norm_num)
  have b2 : Cl 84477 257700 _ (84381.448 - 46.8150 * t - 0.00059 * t ^ 2 : Fl M).val := Cl.fsub D b1 a5 (by norm_num) (by norm_num) (by norm_num)
  have b3 : Cl 84478 342500 _ (84381.448 - 46.8150 * t - 0.00059 * t ^ 2 + 0.001813 * t ^ 3 : Fl M).val := Cl.fadd D b2 a7 (by norm_num) (by norm_num) (by norm_num)
  rw [obliquity, arcsec_real]
  exact Cl.fmul D b3 (arcsec_fl D) (by norm_num) (by norm_num) (by norm_num) (by norm_num)

theorem eqeq_fl (D : Double M) (h : Cl 2 80 T t.val) : Cl 9.3e-5 3.1 (nutLon T * Real.cos (trueObliquity T)) (equationOfEquinoxes t).val := by
  obtain ⟨n1, n2⟩ := nutation_fl D h
  have a1 : Cl 0.42 99 (trueObliquity T) (meanObliquity t + (nutationShort t).2).val := Cl.fadd D (obliquity_fl D h) n2 (by norm_num) (by norm_num) (by norm_num)
  have a2 := Ang.cos D (Ang.of_cl a1) (C := 107.2) (by norm_num)
  exact Cl.fmul D n1 a2 (by norm_num) (by norm_num) (by norm_num) (by norm_num)

theorem gast_core (D : Double M) {J K : ℝ} {j k : Fl M} (h : Cl 2 c (centuries J) (julianCenturies j).val) (hc : c ≤ 80)
    (h2 : Cl 2 80 (centuries K) (julianCenturies k).val) :
    Ang (2.305e5 * c + 5.31e6) (gast J K) (greenwichApparentSiderealTime j k).val ∧ |(greenwichApparentSiderealTime j k).val| ≤ 6.2833 := by
  have h0 := h.c_nonneg
  obtain ⟨g1, g2⟩ := gmst_core D h hc
  obtain ⟨m, hm⟩ := g1.toCl g2 (by norm_num; linarith)
  have a1 : Cl 6.284 (2.305e5 * c + 5.301e6) _ (greenwichMeanSiderealTime j + equationOfEquinoxes (julianCenturies k) : Fl M).val :=
    Cl.fadd D hm (eqeq_fl D h2) (by norm_num; linarith) (by norm_num) (by norm_num; linarith)
  have a2 := Ang.pymod D a1 (by norm_num; linarith) (C := 2.305e5 * c + 5.31e6) (by norm_num; linarith)
  refine ⟨?_, a2.2⟩
  refine Ang.shift (k := m) ?_
  have e : gast J K + 2 * Real.pi * m = gmst J + 2 * Real.pi * m + nutLon (centuries K) * Real.cos (trueObliquity (centuries K)) := by
    unfold gast; ring
  rw [e]; exact a2.1

/-! ### the two time offsets -/

/-- adding seconds in any arithmetic: the datetime moves by the number of microseconds that arithmetic computes -/
theorem utcWithOffset_fl {t : DateTime} (ht : t.Valid) (hr : Spec.Representable (Spec.instant t)) (s : Fl M)
    (hr2 : Spec.Representable (Spec.instant t + timedeltaSeconds s)) :
    ∃ u, utcWithOffset t s = .ok u ∧ u.Valid ∧ u.utcoffset = some 0 ∧ Spec.instant u = Spec.instant t + timedeltaSeconds s := by
  obtain ⟨u, hu, huv, hu0, hui⟩ := (ensureUtc_spec ht).1 hr
  have hw := utc_wall huv hu0
  obtain ⟨v, hv, hvv, hvw, hv0⟩ := (addMicros_spec huv (timedeltaSeconds s)).1 (by rw [hw, hui]; exact hr2)
  refine ⟨v, ?_, hvv, hv0.trans hu0, ?_⟩
  · simp only [utcWithOffset, hu]; exact hv
  · rw [← utc_wall hvv (hv0.trans hu0), hvw, hw, hui]

theorem truncR_abs_le {x : ℝ} : |((PyReal.truncR x : ℤ) : ℝ)| ≤ |x| ∧ |x - (PyReal.truncR x : ℤ)| ≤ 1 := by
  unfold PyReal.truncR
  split_ifs with h
  · have h1 := Int.floor_le x
    have h2 := Int.lt_floor_add_one x
    have h3 : (0:ℝ) ≤ (⌊x⌋ : ℤ) := by exact_mod_cast Int.floor_nonneg.mpr (by linarith)
    rw [abs_of_nonneg h3, abs_of_nonneg (by linarith : 0 ≤ x), abs_le]
    exact ⟨h1, by constructor <;> linarith⟩
  · have h1 := Int.le_ceil x
    have h2 := Int.ceil_lt_add_one x
    have h4 : x < 0 := by linarith
    have h3 : ((⌈x⌉ : ℤ) : ℝ) ≤ 0 := by exact_mod_cast Int.ceil_le.mpr (by push_cast; linarith)
    rw [abs_of_nonpos h3, abs_of_neg h4, abs_le]
    exact ⟨by linarith, by constructor <;> linarith⟩

/-- `timedelta(seconds=s)` is within 0.51 microseconds of `s` -/
theorem timedelta_fl (D : Double M) (s : Fl M) (hs : |s.val| ≤ 100000) : |((timedeltaSeconds s : ℤ) : ℝ) - 1000000 * s.val| ≤ 0.51 := by
  have e : timedeltaSeconds s = PyReal.truncR s.val * 1000000 + PyReal.roundEvenR (((s - ofInt (trunc s)) * 1e6 : Fl M)).val := rfl
  rw [e]
  obtain ⟨t1, t2⟩ := truncR_abs_le (x := s.val)
  have htr : (trunc s : ℤ) = PyReal.truncR s.val := rfl
  rw [htr]
  generalize PyReal.truncR s.val = q at *
  have hq : |q| < 2 ^ 51 := by
    have : |(q : ℝ)| ≤ 100000 := t1.trans hs
    have h2 : |q| ≤ 100000 := by exact_mod_cast this
    linarith
  have l1 : (1e6 : Fl M).val = 1000000 := by rw [val_lit, D.lit _ 4000000 (by norm_num) (by norm_num)]; norm_num
  have a1 : Cl 1 2 (s.val - q) (s - ofInt q : Fl M).val := by
    rw [val_sub, D.ofInt q hq]
    exact Cl.lit D t2 (by norm_num)
  have a2 : Cl 1000000 0 1000000 (1e6 : Fl M).val := by rw [l1]; exact Cl.exact (by rw [abs_of_pos]; norm_num)
  have a3 : Cl 1000000 4e6 _ (((s - ofInt q) * 1e6 : Fl M)).val := Cl.fmul D a1 a2 (by norm_num) (by norm_num) (by norm_num) (by norm_num)
  have h1 := roundEvenR_close (((s - ofInt q) * 1e6 : Fl M)).val
  have h2 := a3.2
  generalize (((s - ofInt q) * 1e6 : Fl M)).val = z at *
  have hw := w53_le
  have h3 : |z - (s.val - q) * 1000000| ≤ 0.01 := h2.trans (by linarith)
  push_cast
  have p1 := abs_le.mp h1
  have p2 := abs_le.mp h3
  rw [abs_le]
  constructor <;> linarith

/-- the offset of TT is the exact number of microseconds -/
theorem timedelta_tt_fl (D : Double M) (l : ℤ) (h0 : 0 ≤ l) (h1 : l ≤ 1000) : timedeltaSeconds (ofInt l + (32.184 : Fl M)) = l * 1000000 + 32184000 := by
  have hl0 : (0:ℝ) ≤ l := by exact_mod_cast h0
  have hl1 : (l:ℝ) ≤ 1000 := by exact_mod_cast h1
  have hw := w53_le
  have a1 : Cl 1000 0 (l : ℝ) (ofInt l : Fl M).val := by
    rw [D.ofInt l (by rw [abs_of_nonneg h0]; omega)]; exact Cl.exact (by rw [abs_of_nonneg hl0]; exact hl1)
  have a2 : Cl 33 34 32.184 (32.184 : Fl M).val := Cl.lit D (by rw [abs_of_pos] <;> norm_num) (by norm_num)
  have a3 : Cl 1033 1100 _ (ofInt l + (32.184 : Fl M)).val := Cl.fadd D a1 a2 (by norm_num) (by norm_num) (by norm_num)
  have hb := abs_le.mp a3.2
  have hs : |(ofInt l + (32.184 : Fl M)).val| ≤ 100000 := by
    rw [abs_le]; constructor <;> linarith
  have h2 := timedelta_fl D _ hs
  have h3 := abs_le.mp h2
  have key : |((timedeltaSeconds (ofInt l + (32.184 : Fl M)) : ℤ) : ℝ) - ((l * 1000000 + 32184000 : ℤ) : ℝ)| < 1 := by
    push_cast
    rw [abs_lt]
    constructor <;> linarith
  have : |timedeltaSeconds (ofInt l + (32.184 : Fl M)) - (l * 1000000 + 32184000)| < 1 := by exact_mod_cast key
  rw [Int.abs_lt_one_iff] at this
  linarith

/-- **C86.** `utc_to_tt` in double precision is exact to the microsecond. -/
theorem utcToTt_float (D : Double M) {t : DateTime} (ht : t.Valid) (hr : Spec.Representable (Spec.instant t))
    (hr2 : Spec.Representable (Spec.instant t + Spec.taiMinusUtc (Spec.instant t) * 1000000 + 32184000)) :
    ∃ u, utcToTt (Fl M) t = .ok u ∧ u.Valid ∧ u.utcoffset = some 0 ∧
      Spec.instant u = Spec.instant t + Spec.taiMinusUtc (Spec.instant t) * 1000000 + 32184000 := by
  have e := leapSeconds_exact ht hr
  have hl := taiMinusUtc_range (Spec.instant t)
  have htd := timedelta_tt_fl D (Spec.taiMinusUtc (Spec.instant t)) (by omega) (by omega)
  obtain ⟨u, hu, huv, hu0, hui⟩ := utcWithOffset_fl ht hr (ofInt (Spec.taiMinusUtc (Spec.instant t)) + (32.184 : Fl M))
    (by rw [htd, ← add_assoc]; exact hr2)
  refine ⟨u, ?_, huv, hu0, ?_⟩
  · simp only [utcToTt, e]; exact hu
  · rw [hui, htd]; ring

/-- between the years 1800 and 2200 -/
def Modern (i : ℤ) : Prop := |1721425.5 + (i : ℝ) / 86400000000 - 2451545| ≤ 73000

/-- **C86.** `greenwichsrt` in double precision: IAU 1982 mean sidereal time of the given Julian date (1800 to 2200) within 7·10⁻¹⁰ rad, up to whole turns. -/
theorem greenwichsrt_float (D : Double M) (j : Fl M) (hj : |j.val - 2451545| ≤ 73050) :
    ∃ v : Fl M, greenwichsrt (.leaf j) = .leaf v ∧ ∃ k : ℤ, |v.val - gmst j.val - 2 * Real.pi * k| ≤ 7e-10 := by
  refine ⟨greenwichMeanSiderealTime j, by simp only [greenwichsrt], ?_⟩
  have h1 := centuries_fl D (j := j) (c0 := 0) hj (by simp) (by norm_num)
  obtain ⟨k, hk⟩ := (gmst_core D h1 (by norm_num)).1
  refine ⟨k, hk.trans ?_⟩
  have hw := w53_le
  norm_num at hw ⊢
  linarith

/-- the two Julian dates used by the sidereal time and the inertial frames -/
theorem julian_dates_fl (D : Double M) {t : DateTime} (ht : t.Valid) (hy : Modern (Spec.instant t)) (delta_ut1 : Fl M) (hd : |delta_ut1.val| ≤ 1) :
    ∃ (a b : DateTime) (ja jb : Fl M), utcWithOffset t delta_ut1 = .ok a ∧ juliandate a = .ok ja ∧ utcToTt (Fl M) t = .ok b ∧ juliandate b = .ok jb ∧
      Cl 2 75.4 (centuries (1721425.5 + ((Spec.instant t : ℝ) + 1000000 * delta_ut1.val) / 86400000000)) (julianCenturies ja).val ∧
      Cl 2 80 (centuries (jdTt (Spec.instant t))) (julianCenturies jb).val := by
  have hl := taiMinusUtc_range (Spec.instant t)
  have hy' := abs_le.mp hy
  have hi1 : 56000000000000000 ≤ Spec.instant t := by
    have : (56000000000000000 : ℝ) ≤ (Spec.instant t : ℝ) := by linarith [hy'.1]
    exact_mod_cast this
  have hi2 : Spec.instant t ≤ 70000000000000000 := by
    have : (Spec.instant t : ℝ) ≤ (70000000000000000 : ℝ) := by linarith [hy'.2]
    exact_mod_cast this
  have htd := abs_le.mp (timedelta_fl D delta_ut1 (by linarith))
  have hd' := abs_le.mp hd
  have htd2 : -1000001 ≤ timedeltaSeconds delta_ut1 ∧ timedeltaSeconds delta_ut1 ≤ 1000001 := by
    constructor
    · have : ((-1000001 : ℤ) : ℝ) ≤ (timedeltaSeconds delta_ut1 : ℝ) := by push_cast; linarith
      exact_mod_cast this
    · have : (timedeltaSeconds delta_ut1 : ℝ) ≤ ((1000001 : ℤ) : ℝ) := by push_cast; linarith
      exact_mod_cast this
  have r0 : Spec.Representable (Spec.instant t) := by unfold Spec.Representable; omega
  have r1 : Spec.Representable (Spec.instant t + timedeltaSeconds delta_ut1) := by unfold Spec.Representable; omega
  have r2 : Spec.Representable (Spec.instant t + Spec.taiMinusUtc (Spec.instant t) * 1000000 + 32184000) := by unfold Spec.Representable; omega
  obtain ⟨a, ha, hav, ha0, hai⟩ := utcWithOffset_fl ht r0 delta_ut1 r1
  obtain ⟨b, hb, hbv, hb0, hbi⟩ := utcToTt_float D ht r0 r2
  obtain ⟨ja, hja, eja⟩ := juliandate_float D hav (hai ▸ r1)
  obtain ⟨jb, hjb, ejb⟩ := juliandate_float D hbv (hbi ▸ r2)
  have hu : M.u ≤ w53 := D.u_le
  have hw := w53_pos
  have hw2 := w53_le
  have hit : (Spec.instant t : ℝ) ≤ 70000000000000000 := by exact_mod_cast hi2
  have hit0 : (56000000000000000 : ℝ) ≤ (Spec.instant t : ℝ) := by exact_mod_cast hi1
  obtain ⟨U, hU⟩ : ∃ U : ℝ, U = 1721425.5 + ((Spec.instant t : ℝ) + 1000000 * delta_ut1.val) / 86400000000 := ⟨_, rfl⟩
  have cA : |ja.val - U| ≤ 2.6e6 * w53 := by
    rw [hai] at eja
    push_cast at eja
    have k1 : 1.001 * M.u * (1721425.5 + ((Spec.instant t : ℝ) + timedeltaSeconds delta_ut1) / 86400000000) ≤ 1.001 * w53 * 2531700 := by
      refine mul_le_mul (mul_le_mul_of_nonneg_left hu (by norm_num)) ?_ ?_ (by positivity) <;> linarith
    have k2 := abs_le.mp (eja.trans k1)
    have hw3 : 1.11e-16 ≤ w53 := by unfold w53; norm_num
    rw [hU, abs_le]
    constructor <;> linarith
  have cB : |jb.val - jdTt (Spec.instant t)| ≤ 2.6e6 * w53 := by
    rw [hbi] at ejb
    have hl2 : (Spec.taiMinusUtc (Spec.instant t) : ℝ) ≤ 37 := by exact_mod_cast hl.2
    have hl1 : (10 : ℝ) ≤ (Spec.taiMinusUtc (Spec.instant t) : ℝ) := by exact_mod_cast hl.1
    have k1 : 1.001 * M.u * (1721425.5 + ((Spec.instant t + Spec.taiMinusUtc (Spec.instant t) * 1000000 + 32184000 : ℤ) : ℝ) / 86400000000) ≤ 1.001 * w53 * 2531700 := by
      push_cast
      refine mul_le_mul (mul_le_mul_of_nonneg_left hu (by norm_num)) ?_ ?_ (by positivity) <;> linarith
    unfold jdTt
    refine ejb.trans (k1.trans ?_)
    linarith
  have dA : |U - 2451545| ≤ 73050 := by
    rw [hU, abs_le]; constructor <;> linarith [hy'.1, hy'.2]
  have dB : |jdTt (Spec.instant t) - 2451545| ≤ 73050 := by
    have hl2 : (Spec.taiMinusUtc (Spec.instant t) : ℝ) ≤ 37 := by exact_mod_cast hl.2
    have hl1 : (10 : ℝ) ≤ (Spec.taiMinusUtc (Spec.instant t) : ℝ) := by exact_mod_cast hl.1
    unfold jdTt
    push_cast
    rw [abs_le]; constructor <;> linarith [hy'.1, hy'.2]
  have hA := (centuries_fl D dA cA (by norm_num)).mono le_rfl (show 2.6e6 / 36525 + 4.1 ≤ (75.4 : ℝ) by norm_num)
  have hB := (centuries_fl D dB cB (by norm_num)).mono le_rfl (show 2.6e6 / 36525 + 4.1 ≤ (80 : ℝ) by norm_num)
  exact ⟨a, b, ja, jb, ha, hja, hb, hjb, hU ▸ hA, hB⟩

/-- **C86.** `datetime2sidereal` in double precision: for every datetime from 1800 to 2200, every UT1−UTC of at most a second and every longitude, the result
is the apparent sidereal time of the IAU formulas at the exact instant, plus the longitude, within 2.6·10⁻⁹ rad (1.6 cm on the equator), up to whole turns. -/
theorem datetime2sidereal_float (D : Double M) (fromiso) {t : DateTime} (ht : t.Valid) (hy : Modern (Spec.instant t)) (lon delta_ut1 : Fl M)
    (hlon : |lon.val| ≤ 1000000) (hd : |delta_ut1.val| ≤ 1) :
    ∃ r : Fl M, datetime2sidereal fromiso (.leaf (.dt t)) lon delta_ut1 = .ok (.leaf r) ∧
      ∃ k : ℤ, |r.val - (gast (1721425.5 + ((Spec.instant t : ℝ) + 1000000 * delta_ut1.val) / 86400000000) (jdTt (Spec.instant t)) + lon.val)
        - 2 * Real.pi * k| ≤ 2.6e-9 + 4e-16 * |lon.val| := by
  obtain ⟨a, b, ja, jb, ha, hja, hb, hjb, hA, hB⟩ := julian_dates_fl D ht hy delta_ut1 hd
  obtain ⟨U, hU⟩ : ∃ U : ℝ, U = 1721425.5 + ((Spec.instant t : ℝ) + 1000000 * delta_ut1.val) / 86400000000 := ⟨_, rfl⟩
  have hw2 := w53_le
  rw [← hU] at hA
  obtain ⟨g1, g2⟩ := gast_core D hA (by norm_num) hB
  obtain ⟨m, hm⟩ := g1.toCl g2 (by norm_num)
  have L0 : Cl (|lon.val|) 0 lon.val lon.val := Cl.exact le_rfl
  have s1 : Cl (6.284 + |lon.val|) (2.27e7 + 1.002 * |lon.val|) _ (greenwichApparentSiderealTime ja jb + lon : Fl M).val :=
    Cl.fadd D hm L0 (by have := abs_nonneg lon.val; norm_num; linarith) (by norm_num) (by norm_num; linarith)
  have s2 := (Ang.pymod D s1 (by norm_num; linarith) (C := 2.271e7 + 3.2 * |lon.val|) (by have := abs_nonneg lon.val; norm_num; linarith)).1
  refine ⟨pymod (greenwichApparentSiderealTime ja jb + lon) tau, ?_, ?_⟩
  · simp only [datetime2sidereal, datetime2siderealVallado, str2dt]
    simp only [bind, Except.bind, ha, hja, hb, hjb, Except.map]
    rfl
  · rw [← hU]
    have s3 : Ang (2.271e7 + 3.2 * |lon.val|) (gast U (jdTt (Spec.instant t)) + lon.val) (pymod (greenwichApparentSiderealTime ja jb + lon) tau : Fl M).val := by
      refine Ang.shift (k := m) ?_
      rw [show gast U (jdTt (Spec.instant t)) + lon.val + 2 * Real.pi * m = gast U (jdTt (Spec.instant t)) + 2 * Real.pi * m + lon.val by ring]
      exact s2
    obtain ⟨k, hk⟩ := s3
    refine ⟨k, hk.trans ?_⟩
    have h5 := mul_le_mul_of_nonneg_left hw2 (abs_nonneg lon.val)
    have h6 := abs_nonneg lon.val
    clear * - hw2 h5 h6
    nlinarith

/-- the hypotheses are met by IEEE arithmetic and a date given in Indian time -/
example (fromiso) : ∃ r : Fl binary64, datetime2sidereal fromiso (.leaf (.dt exampleIst)) (Fl.of _ 1) (Fl.of _ 0.1) = .ok (.leaf r) := by
  have hm : Modern (Spec.instant exampleIst) := by
    rw [exampleIst_instant]; unfold Modern; rw [abs_le]; constructor <;> norm_num
  obtain ⟨r, hr, -⟩ := datetime2sidereal_float binary64_double fromiso exampleIst_valid hm (Fl.of _ 1) (Fl.of _ 0.1)
    (by simp) (by simp only [of_val]; rw [abs_le]; constructor <;> norm_num)
  exact ⟨r, hr⟩

end
end Pymap3d
