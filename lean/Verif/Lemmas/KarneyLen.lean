import Verif.Lemmas.Bd
import Mathlib.Tactic.LinearCombination
import Mathlib.Tactic.Positivity
/-!
Generated by tools/series/karney_len.py: the length and longitude integrands of `karney.py`.
-/
set_option linter.unusedVariables false
namespace KarneyLen

set_option maxHeartbeats 2000000 in
/-- the length series, squared -/
theorem len_sq {e c q1 q2 q3 q4 q5 q6 : ℝ} (he : |e| ≤ (1/18)) (hc : |c| ≤ 1) (hq1 : q1 = (1) * c) (hq2 : q2 = (-1) + (2) * c^2) (hq3 : q3 = (-3) * c + (4) * c^3) (hq4 : q4 = (1) + (-8) * c^2 + (8) * c^4) (hq5 : q5 = (5) * c + (-20) * c^3 + (16) * c^5) (hq6 : q6 = (-1) + (18) * c^2 + (-48) * c^4 + (32) * c^6) :
    |(((1) + (1/4) * e^2 + (1/64) * e^4 + (1/256) * e^6) * (1 + 2 * ((-1/2) * e + (3/16) * e^3 + (-1/32) * e^5) * q1 + 4 * ((-1/16) * e^2 + (1/32) * e^4 + (-9/2048) * e^6) * q2 + 6 * ((-1/48) * e^3 + (3/256) * e^5) * q3 + 8 * ((-5/512) * e^4 + (3/512) * e^6) * q4 + 10 * ((-7/1280) * e^5) * q5 + 12 * ((-7/2048) * e^6) * q6)) ^ 2 - (1 - 2 * e * c + e ^ 2)| ≤ (1937/100) * |e| ^ 7 := by
  obtain ⟨R, hR⟩ : ∃ R : ℝ, R = (((-113/128) * c + (323/64) * c^3 + (-133/16) * c^5 + (33/8) * c^7) + e * (((259/2048) + (-475/256) * c^2 + (1523/256) * c^4 + (-217/32) * c^6 + (165/64) * c^8) + e * (((-33/1024) * c + (-105/128) * c^3 + (253/64) * c^5 + (-11/2) * c^7 + (77/32) * c^9) + e * (((21/2048) + (23/1024) * c^2 + (-831/512) * c^4 + (1415/256) * c^6 + (-203/32) * c^8 + (77/32) * c^10) + e * (((-17/8192) * c + (1423/4096) * c^3 + (-1347/512) * c^5 + (1663/256) * c^7 + (-833/128) * c^9 + (147/64) * c^11) + e * (((-15/32768) + (965/16384) * c^2 + (1183/16384) * c^4 + (-1881/1024) * c^6 + (10103/2048) * c^8 + (-1267/256) * c^10 + (441/256) * c^12) + e * (((-1145/32768) * c + (4411/8192) * c^3 + (-4757/2048) * c^5 + (1101/256) * c^7 + (-3717/1024) * c^9 + (147/128) * c^11) + e * (((211/65536) + (-125/2048) * c^2 + (18631/32768) * c^4 + (-17203/8192) * c^6 + (7329/2048) * c^8 + (-2919/1024) * c^10 + (441/512) * c^12) + e * (((-3475/524288) * c + (27209/262144) * c^3 + (-29181/65536) * c^5 + (26809/32768) * c^7 + (-2807/4096) * c^9 + (441/2048) * c^11) + e * (((9865/16777216) + (-12521/1048576) * c^2 + (116633/1048576) * c^4 + (-53241/131072) * c^6 + (179309/262144) * c^8 + (-4417/8192) * c^10 + (1323/8192) * c^12) + e * (((-8957/8388608) * c + (9137/524288) * c^3 + (-19787/262144) * c^5 + (567/4096) * c^7 + (-15099/131072) * c^9 + (147/4096) * c^11) + e * (((1557/16777216) + (-8069/4194304) * c^2 + (39755/2097152) * c^4 + (-73057/1048576) * c^6 + (15267/131072) * c^8 + (-11907/131072) * c^10 + (441/16384) * c^12) + e * (((-7351/33554432) * c + (51441/16777216) * c^3 + (-12703/1048576) * c^5 + (10943/524288) * c^7 + (-8729/524288) * c^9 + (1323/262144) * c^11) + e * (((2771/134217728) + (-29837/67108864) * c^2 + (235809/67108864) * c^4 + (-1501/131072) * c^6 + (74665/4194304) * c^8 + (-13867/1048576) * c^10 + (3969/1048576) * c^12) + e * (((-1111/134217728) * c + (4621/33554432) * c^3 + (-2505/4194304) * c^5 + (1145/1048576) * c^7 + (-1897/2097152) * c^9 + (147/524288) * c^11) + e * (((189/268435456) + (-2023/134217728) * c^2 + (20293/134217728) * c^4 + (-9309/16777216) * c^6 + (7735/8388608) * c^8 + (-749/1048576) * c^10 + (441/2097152) * c^12) + e * (((-945/536870912) * c + (6333/268435456) * c^3 + (-189/2097152) * c^5 + (633/4194304) * c^7 + (-987/8388608) * c^9 + (147/4194304) * c^11) + e * ((729/4294967296) + (-3969/1073741824) * c^2 + (29709/1073741824) * c^4 + (-1449/16777216) * c^6 + (1089/8388608) * c^8 + (-1575/16777216) * c^10 + (441/16777216) * c^12)))))))))))))))))) := ⟨_, rfl⟩
  have hb : |R| ≤ (1937/100) := by rw [hR]; bdnum
  have e2 : (((1) + (1/4) * e^2 + (1/64) * e^4 + (1/256) * e^6) * (1 + 2 * ((-1/2) * e + (3/16) * e^3 + (-1/32) * e^5) * q1 + 4 * ((-1/16) * e^2 + (1/32) * e^4 + (-9/2048) * e^6) * q2 + 6 * ((-1/48) * e^3 + (3/256) * e^5) * q3 + 8 * ((-5/512) * e^4 + (3/512) * e^6) * q4 + 10 * ((-7/1280) * e^5) * q5 + 12 * ((-7/2048) * e^6) * q6)) ^ 2 - (1 - 2 * e * c + e ^ 2) = R * e ^ 7 := by
    rw [hR]; subst hq1 hq2 hq3 hq4 hq5 hq6; ring
  rw [e2, abs_mul, abs_pow]
  exact mul_le_mul_of_nonneg_right hb (by positivity)

set_option maxRecDepth 20000 in
set_option maxHeartbeats 4000000 in
/-- the square root to order five -/
theorem root_sq {e c : ℝ} (he : |e| ≤ (1/18)) (hc : |c| ≤ 1) :
    |((1) + (-1) * c * e + (1/2) * c * e^3 + (-3/8) * c * e^5 + (-1/2) * c^2 * e^2 + (3/4) * c^2 * e^4 + (-1/2) * c^3 * e^3 + (5/4) * c^3 * e^5 + (-5/8) * c^4 * e^4 + (-7/8) * c^5 * e^5 + (1/2) * e^2 + (-1/8) * e^4) ^ 2 - (1 - 2 * e * c + e ^ 2)| ≤ (9469/1000) * |e| ^ 6 := by
  obtain ⟨R, hR⟩ : ∃ R : ℝ, R = (((-1/8) + (15/8) * c^2 + (-35/8) * c^4 + (21/8) * c^6) + e * (((-1/2) * c + (5/2) * c^3 + (-7/2) * c^5 + (3/2) * c^7) + e * (((1/64) + (-9/16) * c^2 + (75/32) * c^4 + (-49/16) * c^6 + (81/64) * c^8) + e * (((3/32) * c + (-7/8) * c^3 + (41/16) * c^5 + (-23/8) * c^7 + (35/32) * c^9) + e * ((9/64) * c^2 + (-15/16) * c^4 + (71/32) * c^6 + (-35/16) * c^8 + (49/64) * c^10))))) := ⟨_, rfl⟩
  have hb : |R| ≤ (9469/1000) := by rw [hR]; bdnum
  have e2 : ((1) + (-1) * c * e + (1/2) * c * e^3 + (-3/8) * c * e^5 + (-1/2) * c^2 * e^2 + (3/4) * c^2 * e^4 + (-1/2) * c^3 * e^3 + (5/4) * c^3 * e^5 + (-5/8) * c^4 * e^4 + (-7/8) * c^5 * e^5 + (1/2) * e^2 + (-1/8) * e^4) ^ 2 - (1 - 2 * e * c + e ^ 2) = R * e ^ 6 := by rw [hR]; ring
  rw [e2, abs_mul, abs_pow]
  exact mul_le_mul_of_nonneg_right hb (by positivity)

set_option maxRecDepth 20000 in
set_option maxHeartbeats 4000000 in
/-- the longitude series times the denominator of the integrand; `e = n t` -/
theorem lon_poly {e n t c q1 q2 q3 q4 q5 : ℝ} (he : e = n * t) (hn : |n| ≤ (1/18)) (ht : |t| ≤ 1) (hc : |c| ≤ 1)
    (hq1 : q1 = (1) * c) (hq2 : q2 = (-1) + (2) * c^2) (hq3 : q3 = (-3) * c + (4) * c^3) (hq4 : q4 = (1) + (-8) * c^2 + (8) * c^4) (hq5 : q5 = (5) * c + (-20) * c^3 + (16) * c^5) :
    |((1) + (-1/2) * e + (1/2) * e * n + (-1/4) * e^2 + (-1/8) * e^2 * n + (3/8) * e^2 * n^2 + (-1/16) * e^3 + (-3/16) * e^3 * n + (-1/16) * e^3 * n^2 + (-3/64) * e^4 + (-1/32) * e^4 * n + (-3/128) * e^5) * (1 + 2 * ((1/4) * e + (-1/4) * e * n + (1/8) * e^2 + (-1/8) * e^2 * n^2 + (3/64) * e^3 + (3/64) * e^3 * n + (-1/64) * e^3 * n^2 + (5/128) * e^4 + (1/64) * e^4 * n + (3/128) * e^5) * q1 + 4 * ((1/16) * e^2 + (-3/32) * e^2 * n + (1/32) * e^2 * n^2 + (3/64) * e^3 + (-1/32) * e^3 * n + (-3/64) * e^3 * n^2 + (3/128) * e^4 + (1/128) * e^4 * n + (5/256) * e^5) * q2 + 6 * ((5/192) * e^3 + (-3/64) * e^3 * n + (5/192) * e^3 * n^2 + (3/128) * e^4 + (-5/192) * e^4 * n + (7/512) * e^5) * q3 + 8 * ((7/512) * e^4 + (-7/256) * e^4 * n + (7/512) * e^5) * q4 + 10 * ((21/2560) * e^5) * q5) *
      ((1 + n) * (1 - e) + (1 - n) * ((1) + (-1) * c * e + (1/2) * c * e^3 + (-3/8) * c * e^5 + (-1/2) * c^2 * e^2 + (3/4) * c^2 * e^4 + (-1/2) * c^3 * e^3 + (5/4) * c^3 * e^5 + (-5/8) * c^4 * e^4 + (-7/8) * c^5 * e^5 + (1/2) * e^2 + (-1/8) * e^4)) - 2 * (1 - e)| ≤ (4401/100) * |n| ^ 6 := by
  obtain ⟨R6, hR6⟩ : ∃ R : ℝ, R = t ^ 3 * ((-3/8) + (1/8) * c + (-1/2) * c^2 + (1/4) * c^3) + t ^ 4 * ((-9/32) + (-5/8) * c + (49/16) * c^2 + (3/4) * c^3 + (-5/2) * c^4) + t ^ 5 * ((27/64) + (101/64) * c + (-41/16) * c^2 + (-221/32) * c^3 + (5/2) * c^4 + (45/8) * c^5) + t ^ 6 * ((9/128) + (-69/128) * c + (-15/32) * c^2 + (189/64) * c^3 + (23/8) * c^4 + (-45/16) * c^5 + (-45/16) * c^6) := ⟨_, rfl⟩
  have hb6 : |R6| ≤ (203/5) := by rw [hR6]; bdnum
  obtain ⟨R7, hR7⟩ : ∃ R : ℝ, R = t ^ 4 * ((1/16) + (3/4) * c + (-1/16) * c^2 + (-5/4) * c^3 + (3/4) * c^4) + t ^ 5 * ((15/32) + (-47/32) * c + (-49/16) * c^2 + (153/32) * c^3 + (41/16) * c^4 + (-55/16) * c^5) + t ^ 6 * ((-55/128) + (-23/64) * c + (21/4) * c^2 + (19/8) * c^3 + (-647/64) * c^4 + (-35/16) * c^5 + (165/32) * c^6) + t ^ 7 * ((7/128) + (67/128) * c + (-19/32) * c^2 + (-883/256) * c^3 + (67/128) * c^4 + (323/64) * c^5 + (15/64) * c^6 + (-123/64) * c^7) := ⟨_, rfl⟩
  have hb7 : |R7| ≤ (1422/25) := by rw [hR7]; bdnum
  obtain ⟨R8, hR8⟩ : ∃ R : ℝ, R = t ^ 4 * ((-1/32) + (1/16) * c + (-1/4) * c^2 + (1/8) * c^3) + t ^ 5 * ((-9/32) + (-7/16) * c + (71/32) * c^2 + (1/8) * c^3 + (-31/16) * c^4 + (7/16) * c^5) + t ^ 6 * ((45/128) + (211/128) * c + (-119/32) * c^2 + (-95/16) * c^3 + (201/32) * c^4 + (71/16) * c^5 + (-45/16) * c^6) + t ^ 7 * ((-3/128) + (-97/64) * c + (-3/8) * c^2 + (2135/256) * c^3 + (157/64) * c^4 + (-1439/128) * c^5 + (-75/32) * c^6 + (133/32) * c^7) + t ^ 8 * ((-33/2048) + (35/256) * c + (7/8) * c^2 + (-425/512) * c^3 + (-1945/512) * c^4 + (243/256) * c^5 + (307/64) * c^6 + (-5/32) * c^7 + (-7/4) * c^8) := ⟨_, rfl⟩
  have hb8 : |R8| ≤ (3743/50) := by rw [hR8]; bdnum
  obtain ⟨R9, hR9⟩ : ∃ R : ℝ, R = t ^ 5 * ((-1/64) + (25/64) * c + (-3/32) * c^2 + (-19/32) * c^3 + (3/8) * c^4) + t ^ 6 * ((31/128) + (-167/128) * c + (-111/128) * c^2 + (115/32) * c^3 + (7/64) * c^4 + (-73/32) * c^5 + (15/32) * c^6) + t ^ 7 * ((-167/512) + (557/512) * c + (927/256) * c^2 + (-1147/256) * c^3 + (-469/64) * c^4 + (793/128) * c^5 + (127/32) * c^6 + (-91/32) * c^7) + t ^ 8 * ((125/1024) + (35/512) * c + (-371/128) * c^2 + (-75/64) * c^3 + (4865/512) * c^4 + (157/64) * c^5 + (-1347/128) * c^6 + (-21/16) * c^7 + (245/64) * c^8) + t ^ 9 * ((-21/2048) + (-259/2048) * c + (157/512) * c^2 + (741/512) * c^3 + (-951/1024) * c^4 + (-4351/1024) * c^5 + (211/256) * c^6 + (581/128) * c^7 + (-21/128) * c^8 + (-203/128) * c^9) := ⟨_, rfl⟩
  have hb9 : |R9| ≤ (345/4) := by rw [hR9]; bdnum
  obtain ⟨R10, hR10⟩ : ∃ R : ℝ, R = t ^ 5 * ((3/64) + (3/64) * c + (-3/16) * c^2 + (3/32) * c^3) + t ^ 6 * ((-35/128) + (-13/64) * c + (95/64) * c^2 + (-19/16) * c^4 + (7/32) * c^5) + t ^ 7 * ((93/256) + (21/32) * c + (-791/256) * c^2 + (-645/256) * c^3 + (631/128) * c^4 + (173/128) * c^5 + (-67/32) * c^6 + (39/64) * c^7) + t ^ 8 * ((-17/128) + (-911/1024) * c + (2019/1024) * c^2 + (2941/512) * c^3 + (-2639/512) * c^4 + (-2119/256) * c^5 + (1465/256) * c^6 + (103/32) * c^7 + (-21/8) * c^8) + t ^ 9 * ((-33/4096) + (1791/4096) * c + (61/1024) * c^2 + (-4185/1024) * c^3 + (-319/256) * c^4 + (10331/1024) * c^5 + (629/256) * c^6 + (-4861/512) * c^7 + (-77/64) * c^8 + (399/128) * c^9) + t ^ 10 * ((3/4096) + (-151/8192) * c + (-435/2048) * c^2 + (539/2048) * c^3 + (859/512) * c^4 + (-1281/2048) * c^5 + (-4141/1024) * c^6 + (381/1024) * c^7 + (959/256) * c^8 + (7/256) * c^9 + (-147/128) * c^10) := ⟨_, rfl⟩
  have hb10 : |R10| ≤ (9743/100) := by rw [hR10]; bdnum
  obtain ⟨R11, hR11⟩ : ∃ R : ℝ, R = t ^ 6 * ((-7/128) + (19/64) * c + (-11/128) * c^2 + (-7/16) * c^3 + (9/32) * c^4) + t ^ 7 * ((21/128) + (-227/256) * c + (-71/128) * c^2 + (619/256) * c^3 + (17/128) * c^4 + (-97/64) * c^5 + (15/64) * c^6) + t ^ 8 * ((-181/1024) + (25/32) * c + (2005/1024) * c^2 + (-1747/512) * c^3 + (-1805/512) * c^4 + (299/64) * c^5 + (299/256) * c^6 + (-263/128) * c^7 + (35/64) * c^8) + t ^ 9 * ((157/2048) + (-171/1024) * c + (-903/512) * c^2 + (3115/2048) * c^3 + (6233/1024) * c^4 + (-1037/256) * c^5 + (-3621/512) * c^6 + (2175/512) * c^7 + (343/128) * c^8 + (-49/32) * c^9) + t ^ 10 * ((-57/4096) + (-295/4096) * c + (633/1024) * c^2 + (1391/2048) * c^3 + (-7199/2048) * c^4 + (-2547/1024) * c^5 + (13529/2048) * c^6 + (889/256) * c^7 + (-1239/256) * c^8 + (-203/128) * c^9 + (147/128) * c^10) + t ^ 11 * ((-15/16384) + (27/4096) * c + (15/2048) * c^2 + (-3499/16384) * c^3 + (-323/4096) * c^4 + (4151/4096) * c^5 + (2183/4096) * c^6 + (-6457/4096) * c^7 + (-525/512) * c^8 + (399/512) * c^9 + (147/256) * c^10) := ⟨_, rfl⟩
  have hb11 : |R11| ≤ (8541/100) := by rw [hR11]; bdnum
  obtain ⟨R12, hR12⟩ : ∃ R : ℝ, R = t ^ 7 * ((-7/256) + (17/256) * c + (11/64) * c^2 + (-27/128) * c^3 + (-21/128) * c^4 + (21/128) * c^5) + t ^ 8 * ((45/512) + (-21/256) * c + (-549/512) * c^2 + (129/512) * c^3 + (1183/512) * c^4 + (-59/128) * c^5 + (-343/256) * c^6 + (39/128) * c^7) + t ^ 9 * ((-63/1024) + (-513/2048) * c + (1357/1024) * c^2 + (3837/2048) * c^3 + (-4249/1024) * c^4 + (-3479/1024) * c^5 + (571/128) * c^6 + (457/256) * c^7 + (-203/128) * c^8) + t ^ 10 * ((11/2048) + (295/1024) * c + (-1725/4096) * c^2 + (-10109/4096) * c^3 + (3065/2048) * c^4 + (13163/2048) * c^5 + (-1711/1024) * c^6 + (-6727/1024) * c^7 + (301/512) * c^8 + (595/256) * c^9) + t ^ 11 * ((79/16384) + (-75/2048) * c + (-247/2048) * c^2 + (9729/16384) * c^3 + (363/512) * c^4 + (-2335/1024) * c^5 + (-1053/512) * c^6 + (393/128) * c^7 + (1337/512) * c^8 + (-1379/1024) * c^9 + (-147/128) * c^10) + t ^ 12 * ((-19/32768) + (-231/32768) * c + (65/8192) * c^2 + (-585/32768) * c^3 + (-1793/32768) * c^4 + (1173/4096) * c^5 + (159/512) * c^6 + (-2261/4096) * c^7 + (-1127/2048) * c^8 + (595/2048) * c^9 + (147/512) * c^10) := ⟨_, rfl⟩
  have hb12 : |R12| ≤ (6421/100) := by rw [hR12]; bdnum
  obtain ⟨R13, hR13⟩ : ∃ R : ℝ, R = t ^ 8 * ((-17/256) * c + (59/512) * c^2 + (57/256) * c^3 + (-149/512) * c^4 + (-5/32) * c^5 + (45/256) * c^6) + t ^ 9 * ((-3/256) + (265/1024) * c + (-25/1024) * c^2 + (-411/256) * c^3 + (239/1024) * c^4 + (2717/1024) * c^5 + (-241/512) * c^6 + (-669/512) * c^7 + (35/128) * c^8) + t ^ 10 * ((69/4096) + (-819/4096) * c + (-1579/4096) * c^2 + (6465/4096) * c^3 + (489/256) * c^4 + (-7167/2048) * c^5 + (-5929/2048) * c^6 + (739/256) * c^7 + (693/512) * c^8 + (-49/64) * c^9) + t ^ 11 * ((-69/8192) + (151/4096) * c + (295/1024) * c^2 + (-1793/8192) * c^3 + (-12997/8192) * c^4 + (1775/8192) * c^5 + (12381/4096) * c^6 + (377/2048) * c^7 + (-2345/1024) * c^8 + (-7/32) * c^9 + (147/256) * c^10) + t ^ 12 * ((9/32768) + (615/32768) * c + (-63/4096) * c^2 + (-4323/32768) * c^3 + (2651/32768) * c^4 + (967/4096) * c^5 + (-1981/8192) * c^6 + (-1063/8192) * c^7 + (1309/4096) * c^8 + (7/1024) * c^9 + (-147/1024) * c^10) + t ^ 13 * ((15/65536) + (-51/65536) * c + (-237/16384) * c^2 + (-725/32768) * c^3 + (4149/65536) * c^4 + (9585/65536) * c^5 + (-297/8192) * c^6 + (-4023/16384) * c^7 + (-693/8192) * c^8 + (1001/8192) * c^9 + (147/2048) * c^10) := ⟨_, rfl⟩
  have hb13 : |R13| ≤ (1707/50) := by rw [hR13]; bdnum
  obtain ⟨R14, hR14⟩ : ∃ R : ℝ, R = t ^ 9 * ((5/512) + (-17/512) * c + (-33/256) * c^2 + (15/64) * c^3 + (163/512) * c^4 + (-55/128) * c^5 + (-51/256) * c^6 + (117/512) * c^7) + t ^ 10 * ((-31/2048) + (-1/2048) * c + (219/512) * c^2 + (-15/1024) * c^3 + (-3671/2048) * c^4 + (33/2048) * c^5 + (2491/1024) * c^6 + (-1/1024) * c^7 + (-539/512) * c^8) + t ^ 11 * ((39/8192) + (449/8192) * c + (-563/2048) * c^2 + (-2815/4096) * c^3 + (10609/8192) * c^4 + (20035/8192) * c^5 + (-3905/2048) * c^6 + (-12999/4096) * c^7 + (903/1024) * c^8 + (1393/1024) * c^9) + t ^ 12 * ((1/8192) + (-451/16384) * c + (13/2048) * c^2 + (3203/8192) * c^3 + (67/512) * c^4 + (-22731/16384) * c^5 + (-6249/8192) * c^6 + (3679/2048) * c^7 + (2457/2048) * c^8 + (-791/1024) * c^9 + (-147/256) * c^10) + t ^ 13 * ((-55/65536) + (141/65536) * c + (397/8192) * c^2 + (-801/32768) * c^3 + (-18509/65536) * c^4 + (3105/65536) * c^5 + (9363/16384) * c^6 + (-397/16384) * c^7 + (-1967/4096) * c^8 + (-7/8192) * c^9 + (147/1024) * c^10) + t ^ 14 * ((3/32768) + (171/131072) * c + (-129/65536) * c^2 + (-1869/65536) * c^3 + (-39/8192) * c^4 + (15327/131072) * c^5 + (3879/65536) * c^6 + (-2667/16384) * c^7 + (-1743/16384) * c^8 + (1197/16384) * c^9 + (441/8192) * c^10) := ⟨_, rfl⟩
  have hb14 : |R14| ≤ (2871/100) := by rw [hR14]; bdnum
  obtain ⟨R15, hR15⟩ : ∃ R : ℝ, R = t ^ 10 * ((-3/2048) + (17/512) * c + (-27/512) * c^2 + (-189/1024) * c^3 + (569/2048) * c^4 + (5/16) * c^5 + (-439/1024) * c^6 + (-165/1024) * c^7 + (105/512) * c^8) + t ^ 11 * ((5/4096) + (-97/2048) * c + (7/128) * c^2 + (903/2048) * c^3 + (-999/4096) * c^4 + (-2651/2048) * c^5 + (679/2048) * c^6 + (3021/2048) * c^7 + (-147/1024) * c^8 + (-147/256) * c^9) + t ^ 12 * ((3/16384) + (199/16384) * c + (57/8192) * c^2 + (-391/2048) * c^3 + (-3013/16384) * c^4 + (11279/16384) * c^5 + (2999/4096) * c^6 + (-7283/8192) * c^7 + (-4039/4096) * c^8 + (777/2048) * c^9 + (441/1024) * c^10) + t ^ 13 * ((5/8192) + (-63/32768) * c + (-113/4096) * c^2 + (811/16384) * c^3 + (1353/8192) * c^4 + (-6507/32768) * c^5 + (-195/512) * c^6 + (2231/8192) * c^7 + (791/2048) * c^8 + (-497/4096) * c^9 + (-147/1024) * c^10) + t ^ 14 * ((-3/32768) + (-411/131072) * c + (579/65536) * c^2 + (2761/65536) * c^3 + (-639/16384) * c^4 + (-19839/131072) * c^5 + (2739/65536) * c^6 + (1617/8192) * c^7 + (105/16384) * c^8 + (-1393/16384) * c^9 + (-147/8192) * c^10) + t ^ 15 * ((9/32768) * c + (243/131072) * c^2 + (-237/32768) * c^3 + (-1161/65536) * c^4 + (963/32768) * c^5 + (7119/131072) * c^6 + (-1323/32768) * c^7 + (-1071/16384) * c^8 + (147/8192) * c^9 + (441/16384) * c^10) := ⟨_, rfl⟩
  have hb15 : |R15| ≤ (1337/100) := by rw [hR15]; bdnum
  obtain ⟨R16, hR16⟩ : ∃ R : ℝ, R = t ^ 11 * ((-9/2048) * c + (3/256) * c^2 + (3/128) * c^3 + (-55/1024) * c^4 + (-81/2048) * c^5 + (39/512) * c^6 + (21/1024) * c^7 + (-35/1024) * c^8) + t ^ 12 * ((15/4096) * c + (-3/512) * c^2 + (-103/2048) * c^3 + (55/2048) * c^4 + (723/4096) * c^5 + (-39/1024) * c^6 + (-231/1024) * c^7 + (35/2048) * c^8 + (49/512) * c^9) + t ^ 13 * ((9/16384) * c + (-105/16384) * c^2 + (-3/1024) * c^3 + (221/4096) * c^4 + (81/16384) * c^5 + (-2529/16384) * c^6 + (-21/8192) * c^7 + (1463/8192) * c^8 + (-147/2048) * c^10) + t ^ 14 * ((15/8192) * c + (-225/32768) * c^2 + (-223/16384) * c^3 + (717/16384) * c^4 + (141/4096) * c^5 + (-3309/32768) * c^6 + (-567/16384) * c^7 + (819/8192) * c^8 + (49/4096) * c^9 + (-147/4096) * c^10) + t ^ 15 * ((-9/32768) * c + (-243/131072) * c^2 + (237/32768) * c^3 + (1161/65536) * c^4 + (-963/32768) * c^5 + (-7119/131072) * c^6 + (1323/32768) * c^7 + (1071/16384) * c^8 + (-147/8192) * c^9 + (-441/16384) * c^10) := ⟨_, rfl⟩
  have hb16 : |R16| ≤ (81/40) := by rw [hR16]; bdnum
  obtain ⟨R, hR⟩ : ∃ R : ℝ, R = (R6 + n * (R7 + n * (R8 + n * (R9 + n * (R10 + n * (R11 + n * (R12 + n * (R13 + n * (R14 + n * (R15 + n * R16)))))))))) := ⟨_, rfl⟩
  have hb : |R| ≤ (4401/100) := by rw [hR]; clear hR6 hR7 hR8 hR9 hR10 hR11 hR12 hR13 hR14 hR15 hR16; bdnum
  have e2 : ((1) + (-1/2) * e + (1/2) * e * n + (-1/4) * e^2 + (-1/8) * e^2 * n + (3/8) * e^2 * n^2 + (-1/16) * e^3 + (-3/16) * e^3 * n + (-1/16) * e^3 * n^2 + (-3/64) * e^4 + (-1/32) * e^4 * n + (-3/128) * e^5) * (1 + 2 * ((1/4) * e + (-1/4) * e * n + (1/8) * e^2 + (-1/8) * e^2 * n^2 + (3/64) * e^3 + (3/64) * e^3 * n + (-1/64) * e^3 * n^2 + (5/128) * e^4 + (1/64) * e^4 * n + (3/128) * e^5) * q1 + 4 * ((1/16) * e^2 + (-3/32) * e^2 * n + (1/32) * e^2 * n^2 + (3/64) * e^3 + (-1/32) * e^3 * n + (-3/64) * e^3 * n^2 + (3/128) * e^4 + (1/128) * e^4 * n + (5/256) * e^5) * q2 + 6 * ((5/192) * e^3 + (-3/64) * e^3 * n + (5/192) * e^3 * n^2 + (3/128) * e^4 + (-5/192) * e^4 * n + (7/512) * e^5) * q3 + 8 * ((7/512) * e^4 + (-7/256) * e^4 * n + (7/512) * e^5) * q4 + 10 * ((21/2560) * e^5) * q5) *
      ((1 + n) * (1 - e) + (1 - n) * ((1) + (-1) * c * e + (1/2) * c * e^3 + (-3/8) * c * e^5 + (-1/2) * c^2 * e^2 + (3/4) * c^2 * e^4 + (-1/2) * c^3 * e^3 + (5/4) * c^3 * e^5 + (-5/8) * c^4 * e^4 + (-7/8) * c^5 * e^5 + (1/2) * e^2 + (-1/8) * e^4)) - 2 * (1 - e) = R * n ^ 6 := by
    rw [hR, hR6, hR7, hR8, hR9, hR10, hR11, hR12, hR13, hR14, hR15, hR16]; subst hq1 hq2 hq3 hq4 hq5; subst he; ring
  rw [e2, abs_mul, abs_pow]
  exact mul_le_mul_of_nonneg_right hb (by positivity)

end KarneyLen
