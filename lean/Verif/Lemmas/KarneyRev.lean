import Verif.Lemmas.TM
import Verif.Lemmas.TrigTaylor
/-!
Generated by tools/series/karney_rev.py: the reversion series of `karney.py`, to order six.
-/
set_option linter.unusedVariables false
namespace KarneyRev

set_option maxHeartbeats 4000000 in
theorem core {e c s u G q1 r1 q2 r2 q3 r3 q4 r4 q5 r5 q6 r6 : ℝ} (he : |e| ≤ (1/18)) (hsc : s ^ 2 = 1 - c ^ 2) (hs : |s| ≤ 1) (hc : |-c| ≤ 1)
    (hq1 : q1 = (1) * c) (hr1 : r1 = s * ((1)))
    (hq2 : q2 = (-1) + (2) * c^2) (hr2 : r2 = s * ((2) * c))
    (hq3 : q3 = (-3) * c + (4) * c^3) (hr3 : r3 = s * ((-1) + (4) * c^2))
    (hq4 : q4 = (1) + (-8) * c^2 + (8) * c^4) (hr4 : r4 = s * ((-4) * c + (8) * c^3))
    (hq5 : q5 = (5) * c + (-20) * c^3 + (16) * c^5) (hr5 : r5 = s * ((1) + (-12) * c^2 + (16) * c^4))
    (hq6 : q6 = (-1) + (18) * c^2 + (-48) * c^4 + (32) * c^6) (hr6 : r6 = s * ((6) * c + (-32) * c^3 + (32) * c^5))
    (bq1 : |q1| ≤ 1) (br1 : |r1| ≤ 1) (bq2 : |q2| ≤ 1) (br2 : |r2| ≤ 1) (bq3 : |q3| ≤ 1) (br3 : |r3| ≤ 1) (bq4 : |q4| ≤ 1) (br4 : |r4| ≤ 1) (bq5 : |q5| ≤ 1) (br5 : |r5| ≤ 1) (bq6 : |q6| ≤ 1) (br6 : |r6| ≤ 1)
    (hG : G = 1 + e * (1 * q1) + e ^ 2 * ((5/4) * q2) + e ^ 3 * ((-9/16) * q1 + (29/16) * q3) + e ^ 4 * ((-37/24) * q2 + (539/192) * q4) + e ^ 5 * ((205/768) * q1 + (-225/64) * q3 + (3467/768) * q5) + e ^ 6 * ((1335/1024) * q2 + (-2391/320) * q4 + (38081/5120) * q6))
    (hu : u = 0 + e * (1 * r1) + e ^ 2 * ((5/8) * r2) + e ^ 3 * ((-9/16) * r1 + (29/48) * r3) + e ^ 4 * ((-37/48) * r2 + (539/768) * r4) + e ^ 5 * ((205/768) * r1 + (-75/64) * r3 + (3467/3840) * r5) + e ^ 6 * ((1335/2048) * r2 + (-2391/1280) * r4 + (38081/30720) * r6)) :
    |G ^ 2 * (1 + e ^ 2 - 2 * e * (c * Real.cos u - s * Real.sin u)) - ((1) + (1/4) * e^2 + (1/64) * e^4 + (1/256) * e^6) ^ 2| ≤ (4679/10) * |e| ^ 7 := by
  have hGb : TM e G (1) (1 * q1) ((5/4) * q2) ((-9/16) * q1 + (29/16) * q3) ((-37/24) * q2 + (539/192) * q4) ((205/768) * q1 + (-225/64) * q3 + (3467/768) * q5) ((1335/1024) * q2 + (-2391/320) * q4 + (38081/5120) * q6) 1 1 (5/4) (19/8) (835/192) (531/64) (20753/1280) 0 := by
    refine ⟨?_, ?_, ?_, ?_, ?_, ?_, ?_, 0, by simp, by rw [hG]; ring⟩
    all_goals bdnum
  have hub : TM e u (0) (1 * r1) ((5/8) * r2) ((-9/16) * r1 + (29/48) * r3) ((-37/48) * r2 + (539/768) * r4) ((205/768) * r1 + (-75/64) * r3 + (3467/3840) * r5) ((1335/2048) * r2 + (-2391/1280) * r4 + (38081/30720) * r6) 0 1 (5/8) (7/6) (377/256) (281/120) (11549/3072) 0 := by
    refine ⟨?_, ?_, ?_, ?_, ?_, ?_, ?_, 0, by simp, by rw [hu]; ring⟩
    on_goal 1 => simp
    all_goals bdnum
  have hG0 : TM e (G) ((1)) ((1) * c) ((-5/4) + (5/2) * c^2) ((-6) * c + (29/4) * c^3) ((835/192) + (-613/24) * c^2 + (539/24) * c^4) ((3205/96) * c + (-20035/192) * c^3 + (3467/48) * c^5) ((-20753/1280) + (125607/640) * c^2 + (-133371/320) * c^4 + (38081/160) * c^6) 1 1 (5/4) (19/8) (4349/1000) (8297/1000) (811/50) 0 := by
    refine (hGb).congr ?_ ?_ ?_ ?_ ?_ ?_ ?_ ?_ ?_ ?_ ?_ ?_ ?_ ?_ ?_
    on_goal 15 => norm_num
    on_goal 14 => norm_num
    on_goal 13 => norm_num
    on_goal 12 => norm_num
    on_goal 11 => norm_num
    on_goal 10 => norm_num
    on_goal 9 => norm_num
    on_goal 8 => norm_num
    · norm_num
    · rw [hq1]; ring
    · rw [hq2]; ring
    · rw [hq1, hq3]; ring
    · rw [hq2, hq4]; ring
    · rw [hq1, hq3, hq5]; ring
    · rw [hq2, hq4, hq6]; ring
  have hu0 : TM e u (s * (0)) (s * ((1))) (s * ((5/4) * c)) (s * ((-7/6) + (29/12) * c^2)) (s * ((-835/192) * c + (539/96) * c^3)) (s * ((281/120) + (-4967/320) * c^2 + (3467/240) * c^4)) (s * ((20753/1280) * c + (-52427/960) * c^3 + (38081/960) * c^5)) 0 1 (5/8) (1167/1000) (1473/1000) (1171/500) (94/25) 0 := by
    refine hub.congr ?_ ?_ ?_ ?_ ?_ ?_ ?_ ?_ ?_ ?_ ?_ ?_ ?_ ?_ ?_
    on_goal 15 => norm_num
    on_goal 14 => norm_num
    on_goal 13 => norm_num
    on_goal 12 => norm_num
    on_goal 11 => norm_num
    on_goal 10 => norm_num
    on_goal 9 => norm_num
    on_goal 8 => norm_num
    · ring
    · rw [hr1]; ring
    · rw [hr2]; ring
    · rw [hr1, hr3]; ring
    · rw [hr2, hr4]; ring
    · rw [hr1, hr3, hr5]; ring
    · rw [hr2, hr4, hr6]; ring
  have hu2 : TM e (u * u) (0) (0) ((1) + (-1) * c^2) ((5/2) * c + (-5/2) * c^3) ((-7/3) + (419/48) * c^2 + (-307/48) * c^4) ((-1115/96) * c + (2773/96) * c^3 + (-829/48) * c^5) ((272/45) + (-102911/1920) * c^2 + (61647/640) * c^4 + (-140453/2880) * c^6) 0 0 1 (5/4) (109/40) (881/200) (986/125) (1463/100) := by
    refine (TM.mul he hu0 hu0).congr ?_ ?_ ?_ ?_ ?_ ?_ ?_ ?_ ?_ ?_ ?_ ?_ ?_ ?_ ?_
    on_goal 15 => norm_num
    on_goal 14 => norm_num
    on_goal 13 => norm_num
    on_goal 12 => norm_num
    on_goal 11 => norm_num
    on_goal 10 => norm_num
    on_goal 9 => norm_num
    on_goal 8 => norm_num
    · linear_combination (0) * hsc
    · linear_combination (0) * hsc
    · linear_combination ((1)) * hsc
    · linear_combination ((5/2) * c) * hsc
    · linear_combination ((-7/3) + (307/48) * c^2) * hsc
    · linear_combination ((-1115/96) * c + (829/48) * c^3) * hsc
    · linear_combination ((272/45) + (-273917/5760) * c^2 + (140453/2880) * c^4) * hsc
  have hv : TM e (s * u) (0) ((1) + (-1) * c^2) ((5/4) * c + (-5/4) * c^3) ((-7/6) + (43/12) * c^2 + (-29/12) * c^4) ((-835/192) * c + (1913/192) * c^3 + (-539/96) * c^5) ((281/120) + (-17149/960) * c^2 + (28769/960) * c^4 + (-3467/240) * c^6) ((20753/1280) * c + (-271967/3840) * c^3 + (22627/240) * c^5 + (-38081/960) * c^7) 0 1 (5/8) (1167/1000) (1473/1000) (1171/500) (94/25) 0 := by
    refine (TM.smul hs hu0).congr ?_ ?_ ?_ ?_ ?_ ?_ ?_ ?_ ?_ ?_ ?_ ?_ ?_ ?_ ?_
    on_goal 15 => norm_num
    on_goal 14 => norm_num
    on_goal 13 => norm_num
    on_goal 12 => norm_num
    on_goal 11 => norm_num
    on_goal 10 => norm_num
    on_goal 9 => norm_num
    on_goal 8 => norm_num
    · linear_combination (0) * hsc
    · linear_combination ((1)) * hsc
    · linear_combination ((5/4) * c) * hsc
    · linear_combination ((-7/6) + (29/12) * c^2) * hsc
    · linear_combination ((-835/192) * c + (539/96) * c^3) * hsc
    · linear_combination ((281/120) + (-4967/320) * c^2 + (3467/240) * c^4) * hsc
    · linear_combination ((20753/1280) * c + (-52427/960) * c^3 + (38081/960) * c^5) * hsc
  have hu4 : TM e (u * u * (u * u)) (0) (0) (0) (0) ((1) + (-2) * c^2 + (1) * c^4) ((5) * c + (-10) * c^3 + (5) * c^5) ((-14/3) + (227/8) * c^2 + (-171/4) * c^4 + (457/24) * c^6) 0 0 0 0 1 (5/2) (7013/1000) (1777/100) := by
    refine (TM.mul he hu2 hu2).congr ?_ ?_ ?_ ?_ ?_ ?_ ?_ ?_ ?_ ?_ ?_ ?_ ?_ ?_ ?_
    on_goal 15 => norm_num
    on_goal 14 => norm_num
    on_goal 13 => norm_num
    on_goal 12 => norm_num
    on_goal 11 => norm_num
    on_goal 10 => norm_num
    on_goal 9 => norm_num
    on_goal 8 => norm_num
    · ring
    · ring
    · ring
    · ring
    · ring
    · ring
    · ring
  have hv3 : TM e (s * u * (u * u)) (0) (0) (0) ((1) + (-2) * c^2 + (1) * c^4) ((15/4) * c + (-15/2) * c^3 + (15/4) * c^5) ((-7/2) + (303/16) * c^2 + (-219/8) * c^4 + (191/16) * c^6) ((-1395/64) * c + (5153/64) * c^3 + (-6121/64) * c^5 + (2363/64) * c^7) 0 0 0 1 (15/8) (2337/500) (226/25) (201/10) := by
    refine (TM.mul he hv hu2).congr ?_ ?_ ?_ ?_ ?_ ?_ ?_ ?_ ?_ ?_ ?_ ?_ ?_ ?_ ?_
    on_goal 15 => norm_num
    on_goal 14 => norm_num
    on_goal 13 => norm_num
    on_goal 12 => norm_num
    on_goal 11 => norm_num
    on_goal 10 => norm_num
    on_goal 9 => norm_num
    on_goal 8 => norm_num
    · ring
    · ring
    · ring
    · ring
    · ring
    · ring
    · ring
  have hv5 : TM e (s * u * (u * u * (u * u))) (0) (0) (0) (0) (0) ((1) + (-3) * c^2 + (3) * c^4 + (-1) * c^6) ((25/4) * c + (-75/4) * c^3 + (75/4) * c^5 + (-25/4) * c^7) 0 0 0 0 0 1 (25/8) (1131/100) := by
    refine (TM.mul he hv hu4).congr ?_ ?_ ?_ ?_ ?_ ?_ ?_ ?_ ?_ ?_ ?_ ?_ ?_ ?_ ?_
    on_goal 15 => norm_num
    on_goal 14 => norm_num
    on_goal 13 => norm_num
    on_goal 12 => norm_num
    on_goal 11 => norm_num
    on_goal 10 => norm_num
    on_goal 9 => norm_num
    on_goal 8 => norm_num
    · ring
    · ring
    · ring
    · ring
    · ring
    · ring
    · ring
  have hone : TM e 1 1 0 0 0 0 0 0 1 0 0 0 0 0 0 0 := ⟨by simp, by simp, by simp, by simp, by simp, by simp, by simp, 0, by simp, by ring⟩
  have ha1 : TM e ((-1/2) * (u * u)) (0) (0) ((-1/2) + (1/2) * c^2) ((-5/4) * c + (5/4) * c^3) ((7/6) + (-419/96) * c^2 + (307/96) * c^4) ((1115/192) * c + (-2773/192) * c^3 + (829/96) * c^5) ((-136/45) + (102911/3840) * c^2 + (-61647/1280) * c^4 + (140453/5760) * c^6) 0 0 (1/2) (5/8) (1363/1000) (2203/1000) (493/125) (1463/200) := by
    refine (TM.smul (show |((-1/2) : ℝ)| ≤ (1/2) by rw [abs_le]; constructor <;> norm_num) hu2).congr ?_ ?_ ?_ ?_ ?_ ?_ ?_ ?_ ?_ ?_ ?_ ?_ ?_ ?_ ?_
    on_goal 15 => norm_num
    on_goal 14 => norm_num
    on_goal 13 => norm_num
    on_goal 12 => norm_num
    on_goal 11 => norm_num
    on_goal 10 => norm_num
    on_goal 9 => norm_num
    on_goal 8 => norm_num
    · ring
    · ring
    · ring
    · ring
    · ring
    · ring
    · ring
  have ha2 : TM e ((1/24) * (u * u * (u * u))) (0) (0) (0) (0) ((1/24) + (-1/12) * c^2 + (1/24) * c^4) ((5/24) * c + (-5/12) * c^3 + (5/24) * c^5) ((-7/36) + (227/192) * c^2 + (-57/32) * c^4 + (457/576) * c^6) 0 0 0 0 (4167/100000) (521/5000) (2923/10000) (1481/2000) := by
    refine (TM.smul (show |((1/24) : ℝ)| ≤ (1/24) by rw [abs_le]; constructor <;> norm_num) hu4).congr ?_ ?_ ?_ ?_ ?_ ?_ ?_ ?_ ?_ ?_ ?_ ?_ ?_ ?_ ?_
    on_goal 15 => norm_num
    on_goal 14 => norm_num
    on_goal 13 => norm_num
    on_goal 12 => norm_num
    on_goal 11 => norm_num
    on_goal 10 => norm_num
    on_goal 9 => norm_num
    on_goal 8 => norm_num
    · ring
    · ring
    · ring
    · ring
    · ring
    · ring
    · ring
  have ha3 : TM e (1 + (-1/2) * (u * u)) ((1)) (0) ((-1/2) + (1/2) * c^2) ((-5/4) * c + (5/4) * c^3) ((7/6) + (-419/96) * c^2 + (307/96) * c^4) ((1115/192) * c + (-2773/192) * c^3 + (829/96) * c^5) ((-136/45) + (102911/3840) * c^2 + (-61647/1280) * c^4 + (140453/5760) * c^6) 1 0 (1/2) (5/8) (1363/1000) (2203/1000) (493/125) (1463/200) := by
    refine (TM.add hone ha1).congr ?_ ?_ ?_ ?_ ?_ ?_ ?_ ?_ ?_ ?_ ?_ ?_ ?_ ?_ ?_
    on_goal 15 => norm_num
    on_goal 14 => norm_num
    on_goal 13 => norm_num
    on_goal 12 => norm_num
    on_goal 11 => norm_num
    on_goal 10 => norm_num
    on_goal 9 => norm_num
    on_goal 8 => norm_num
    · ring
    · ring
    · ring
    · ring
    · ring
    · ring
    · ring
  have hW : TM e (1 + (-1/2) * (u * u) + (1/24) * (u * u * (u * u))) ((1)) (0) ((-1/2) + (1/2) * c^2) ((-5/4) * c + (5/4) * c^3) ((29/24) + (-427/96) * c^2 + (311/96) * c^4) ((385/64) * c + (-951/64) * c^3 + (283/32) * c^5) ((-193/60) + (35817/1280) * c^2 + (-63927/1280) * c^4 + (48341/1920) * c^6) 1 0 (1/2) (5/8) (281/200) (577/250) (4237/1000) (1007/125) := by
    refine (TM.add ha3 ha2).congr ?_ ?_ ?_ ?_ ?_ ?_ ?_ ?_ ?_ ?_ ?_ ?_ ?_ ?_ ?_
    on_goal 15 => norm_num
    on_goal 14 => norm_num
    on_goal 13 => norm_num
    on_goal 12 => norm_num
    on_goal 11 => norm_num
    on_goal 10 => norm_num
    on_goal 9 => norm_num
    on_goal 8 => norm_num
    · ring
    · ring
    · ring
    · ring
    · ring
    · ring
    · ring
  have hb1 : TM e ((-1/6) * (s * u * (u * u))) (0) (0) (0) ((-1/6) + (1/3) * c^2 + (-1/6) * c^4) ((-5/8) * c + (5/4) * c^3 + (-5/8) * c^5) ((7/12) + (-101/32) * c^2 + (73/16) * c^4 + (-191/96) * c^6) ((465/128) * c + (-5153/384) * c^3 + (6121/384) * c^5 + (-2363/384) * c^7) 0 0 0 (1667/10000) (5/16) (779/1000) (1507/1000) (67/20) := by
    refine (TM.smul (show |((-1/6) : ℝ)| ≤ (1/6) by rw [abs_le]; constructor <;> norm_num) hv3).congr ?_ ?_ ?_ ?_ ?_ ?_ ?_ ?_ ?_ ?_ ?_ ?_ ?_ ?_ ?_
    on_goal 15 => norm_num
    on_goal 14 => norm_num
    on_goal 13 => norm_num
    on_goal 12 => norm_num
    on_goal 11 => norm_num
    on_goal 10 => norm_num
    on_goal 9 => norm_num
    on_goal 8 => norm_num
    · ring
    · ring
    · ring
    · ring
    · ring
    · ring
    · ring
  have hb2 : TM e ((1/120) * (s * u * (u * u * (u * u)))) (0) (0) (0) (0) (0) ((1/120) + (-1/40) * c^2 + (1/40) * c^4 + (-1/120) * c^6) ((5/96) * c + (-5/32) * c^3 + (5/32) * c^5 + (-5/96) * c^7) 0 0 0 0 0 (4167/500000) (521/20000) (377/4000) := by
    refine (TM.smul (show |((1/120) : ℝ)| ≤ (1/120) by rw [abs_le]; constructor <;> norm_num) hv5).congr ?_ ?_ ?_ ?_ ?_ ?_ ?_ ?_ ?_ ?_ ?_ ?_ ?_ ?_ ?_
    on_goal 15 => norm_num
    on_goal 14 => norm_num
    on_goal 13 => norm_num
    on_goal 12 => norm_num
    on_goal 11 => norm_num
    on_goal 10 => norm_num
    on_goal 9 => norm_num
    on_goal 8 => norm_num
    · ring
    · ring
    · ring
    · ring
    · ring
    · ring
    · ring
  have hb3 : TM e (s * u + (-1/6) * (s * u * (u * u))) (0) ((1) + (-1) * c^2) ((5/4) * c + (-5/4) * c^3) ((-4/3) + (47/12) * c^2 + (-31/12) * c^4) ((-955/192) * c + (2153/192) * c^3 + (-599/96) * c^5) ((117/40) + (-20179/960) * c^2 + (33149/960) * c^4 + (-7889/480) * c^6) ((25403/1280) * c + (-323497/3840) * c^3 + (211621/1920) * c^5 + (-87977/1920) * c^7) 0 1 (5/8) (667/500) (893/500) (3121/1000) (5267/1000) (67/20) := by
    refine (TM.add hv hb1).congr ?_ ?_ ?_ ?_ ?_ ?_ ?_ ?_ ?_ ?_ ?_ ?_ ?_ ?_ ?_
    on_goal 15 => norm_num
    on_goal 14 => norm_num
    on_goal 13 => norm_num
    on_goal 12 => norm_num
    on_goal 11 => norm_num
    on_goal 10 => norm_num
    on_goal 9 => norm_num
    on_goal 8 => norm_num
    · ring
    · ring
    · ring
    · ring
    · ring
    · ring
    · ring
  have hV : TM e (s * u + (-1/6) * (s * u * (u * u)) + (1/120) * (s * u * (u * u * (u * u)))) (0) ((1) + (-1) * c^2) ((5/4) * c + (-5/4) * c^3) ((-4/3) + (47/12) * c^2 + (-31/12) * c^4) ((-955/192) * c + (2153/192) * c^3 + (-599/96) * c^5) ((44/15) + (-20203/960) * c^2 + (33173/960) * c^4 + (-2631/160) * c^6) ((76409/3840) * c + (-324097/3840) * c^3 + (211921/1920) * c^5 + (-29359/640) * c^7) 0 1 (5/8) (667/500) (893/500) (313/100) (2647/500) (689/200) := by
    refine (TM.add hb3 hb2).congr ?_ ?_ ?_ ?_ ?_ ?_ ?_ ?_ ?_ ?_ ?_ ?_ ?_ ?_ ?_
    on_goal 15 => norm_num
    on_goal 14 => norm_num
    on_goal 13 => norm_num
    on_goal 12 => norm_num
    on_goal 11 => norm_num
    on_goal 10 => norm_num
    on_goal 9 => norm_num
    on_goal 8 => norm_num
    · ring
    · ring
    · ring
    · ring
    · ring
    · ring
    · ring
  have hcW : TM e ((-c) * (1 + (-1/2) * (u * u) + (1/24) * (u * u * (u * u)))) ((-1) * c) (0) ((1/2) * c + (-1/2) * c^3) ((5/4) * c^2 + (-5/4) * c^4) ((-29/24) * c + (427/96) * c^3 + (-311/96) * c^5) ((-385/64) * c^2 + (951/64) * c^4 + (-283/32) * c^6) ((193/60) * c + (-35817/1280) * c^3 + (63927/1280) * c^5 + (-48341/1920) * c^7) 1 0 (1/2) (5/8) (281/200) (577/250) (4237/1000) (1007/125) := by
    refine (TM.smul hc hW).congr ?_ ?_ ?_ ?_ ?_ ?_ ?_ ?_ ?_ ?_ ?_ ?_ ?_ ?_ ?_
    on_goal 15 => norm_num
    on_goal 14 => norm_num
    on_goal 13 => norm_num
    on_goal 12 => norm_num
    on_goal 11 => norm_num
    on_goal 10 => norm_num
    on_goal 9 => norm_num
    on_goal 8 => norm_num
    · ring
    · ring
    · ring
    · ring
    · ring
    · ring
    · ring
  have hZ : TM e ((-c) * (1 + (-1/2) * (u * u) + (1/24) * (u * u * (u * u))) + (s * u + (-1/6) * (s * u * (u * u)) + (1/120) * (s * u * (u * u * (u * u))))) ((-1) * c) ((1) + (-1) * c^2) ((7/4) * c + (-7/4) * c^3) ((-4/3) + (31/6) * c^2 + (-23/6) * c^4) ((-1187/192) * c + (3007/192) * c^3 + (-455/48) * c^5) ((44/15) + (-12989/480) * c^2 + (23719/480) * c^4 + (-2023/80) * c^6) ((29587/1280) * c + (-107887/960) * c^3 + (615623/3840) * c^5 + (-68209/960) * c^7) 1 1 (9/8) (1959/1000) (3191/1000) (2719/500) (9531/1000) (1151/100) := by
    refine (TM.add hcW hV).congr ?_ ?_ ?_ ?_ ?_ ?_ ?_ ?_ ?_ ?_ ?_ ?_ ?_ ?_ ?_
    on_goal 15 => norm_num
    on_goal 14 => norm_num
    on_goal 13 => norm_num
    on_goal 12 => norm_num
    on_goal 11 => norm_num
    on_goal 10 => norm_num
    on_goal 9 => norm_num
    on_goal 8 => norm_num
    · ring
    · ring
    · ring
    · ring
    · ring
    · ring
    · ring
  have heZ : TM e (e * ((-c) * (1 + (-1/2) * (u * u) + (1/24) * (u * u * (u * u))) + (s * u + (-1/6) * (s * u * (u * u)) + (1/120) * (s * u * (u * u * (u * u)))))) (0) ((-1) * c) ((1) + (-1) * c^2) ((7/4) * c + (-7/4) * c^3) ((-4/3) + (31/6) * c^2 + (-23/6) * c^4) ((-1187/192) * c + (3007/192) * c^3 + (-455/48) * c^5) ((44/15) + (-12989/480) * c^2 + (23719/480) * c^4 + (-2023/80) * c^6) 0 1 1 (9/8) (1959/1000) (3191/1000) (2719/500) (509/50) := by
    refine (TM.shift he hZ).congr ?_ ?_ ?_ ?_ ?_ ?_ ?_ ?_ ?_ ?_ ?_ ?_ ?_ ?_ ?_
    on_goal 15 => norm_num
    on_goal 14 => norm_num
    on_goal 13 => norm_num
    on_goal 12 => norm_num
    on_goal 11 => norm_num
    on_goal 10 => norm_num
    on_goal 9 => norm_num
    on_goal 8 => norm_num
    · ring
    · ring
    · ring
    · ring
    · ring
    · ring
    · ring
  have hub' : |u| ≤ (1039/1000) * |e| := by
    have h1 : |(1 * r1) + e * ((5/8) * r2) + e ^ 2 * ((-9/16) * r1 + (29/48) * r3) + e ^ 3 * ((-37/48) * r2 + (539/768) * r4) + e ^ 4 * ((205/768) * r1 + (-75/64) * r3 + (3467/3840) * r5) + e ^ 5 * ((1335/2048) * r2 + (-2391/1280) * r4 + (38081/30720) * r6)| ≤ (1039/1000) := by bdnum
    have h2 : u = e * ((1 * r1) + e * ((5/8) * r2) + e ^ 2 * ((-9/16) * r1 + (29/48) * r3) + e ^ 3 * ((-37/48) * r2 + (539/768) * r4) + e ^ 4 * ((205/768) * r1 + (-75/64) * r3 + (3467/3840) * r5) + e ^ 5 * ((1335/2048) * r2 + (-2391/1280) * r4 + (38081/30720) * r6)) := by rw [hu]; ring
    rw [h2, abs_mul, mul_comm]
    exact mul_le_mul_of_nonneg_right h1 (abs_nonneg e)
  have hper : |e * (s * Real.sin u - c * Real.cos u) - e * ((-c) * (1 + (-1/2) * (u * u) + (1/24) * (u * u * (u * u))) + (s * u + (-1/6) * (s * u * (u * u)) + (1/120) * (s * u * (u * u * (u * u)))))| ≤ (881/500000) * |e| ^ 7 := by
    have k1 := Bd.cos_taylor6 u
    have k2 := Bd.sin_taylor7 u
    have k3 : |u| ^ 6 ≤ ((1039/1000) * |e|) ^ 6 := pow_le_pow_left₀ (abs_nonneg u) hub' 6
    have k4 : |u| ^ 7 ≤ ((1039/1000) * |e|) ^ 7 := pow_le_pow_left₀ (abs_nonneg u) hub' 7
    have e1 : e * (s * Real.sin u - c * Real.cos u) - e * ((-c) * (1 + (-1/2) * (u * u) + (1/24) * (u * u * (u * u))) + (s * u + (-1/6) * (s * u * (u * u)) + (1/120) * (s * u * (u * u * (u * u)))))
        = e * (s * (Real.sin u - (u - u ^ 3 / 6 + u ^ 5 / 120)) - c * (Real.cos u - (1 - u ^ 2 / 2 + u ^ 4 / 24))) := by ring
    have hc' : |c| ≤ 1 := by rw [← abs_neg]; exact hc
    have k5 := Bd.sub (Bd.mul hs k2) (Bd.mul hc' k1)
    rw [e1, abs_mul]
    have k6 : |e| * (1 * (|u| ^ 7 / 5040) + 1 * (|u| ^ 6 / 720)) ≤ |e| * ((((1039/1000) * |e|) ^ 7) / 5040 + (((1039/1000) * |e|) ^ 6) / 720) := by
      apply mul_le_mul_of_nonneg_left _ (abs_nonneg e); linarith
    refine (mul_le_mul_of_nonneg_left k5 (abs_nonneg e)).trans (k6.trans ?_)
    have k7 : |e| ^ 8 ≤ (1/18) * |e| ^ 7 := by
      rw [show |e| ^ 8 = |e| * |e| ^ 7 by ring]; exact mul_le_mul_of_nonneg_right he (by positivity)
    nlinarith [pow_nonneg (abs_nonneg e) 7]
  have hp := heZ.perturb (y := e * (s * Real.sin u - c * Real.cos u)) (by norm_num) hper
  have heS : TM e (e * (s * Real.sin u - c * Real.cos u)) (0) ((-1) * c) ((1) + (-1) * c^2) ((7/4) * c + (-7/4) * c^3) ((-4/3) + (31/6) * c^2 + (-23/6) * c^4) ((-1187/192) * c + (3007/192) * c^3 + (-455/48) * c^5) ((44/15) + (-12989/480) * c^2 + (23719/480) * c^4 + (-2023/80) * c^6) 0 1 1 (9/8) (1959/1000) (3191/1000) (2719/500) (1019/100) := by
    refine (hp).congr ?_ ?_ ?_ ?_ ?_ ?_ ?_ ?_ ?_ ?_ ?_ ?_ ?_ ?_ ?_
    on_goal 15 => norm_num
    on_goal 14 => norm_num
    on_goal 13 => norm_num
    on_goal 12 => norm_num
    on_goal 11 => norm_num
    on_goal 10 => norm_num
    on_goal 9 => norm_num
    on_goal 8 => norm_num
    · ring
    · ring
    · ring
    · ring
    · ring
    · ring
    · ring
  have h2S : TM e (2 * (e * (s * Real.sin u - c * Real.cos u))) (0) ((-2) * c) ((2) + (-2) * c^2) ((7/2) * c + (-7/2) * c^3) ((-8/3) + (31/3) * c^2 + (-23/3) * c^4) ((-1187/96) * c + (3007/96) * c^3 + (-455/24) * c^5) ((88/15) + (-12989/240) * c^2 + (23719/240) * c^4 + (-2023/40) * c^6) 0 2 2 (9/4) (1959/500) (3191/500) (272/25) (1019/50) := by
    refine (TM.smul (show |(2 : ℝ)| ≤ 2 by rw [abs_le]; constructor <;> norm_num) heS).congr ?_ ?_ ?_ ?_ ?_ ?_ ?_ ?_ ?_ ?_ ?_ ?_ ?_ ?_ ?_
    on_goal 15 => norm_num
    on_goal 14 => norm_num
    on_goal 13 => norm_num
    on_goal 12 => norm_num
    on_goal 11 => norm_num
    on_goal 10 => norm_num
    on_goal 9 => norm_num
    on_goal 8 => norm_num
    · ring
    · ring
    · ring
    · ring
    · ring
    · ring
    · ring
  have hesq : TM e (1 + e * e) 1 0 1 0 0 0 0 1 0 1 0 0 0 0 0 := ⟨by simp, by simp, by simp, by simp, by simp, by simp, by simp, 0, by simp, by ring⟩
  have hL : TM e (1 + e * e + 2 * (e * (s * Real.sin u - c * Real.cos u))) ((1)) ((-2) * c) ((3) + (-2) * c^2) ((7/2) * c + (-7/2) * c^3) ((-8/3) + (31/3) * c^2 + (-23/3) * c^4) ((-1187/96) * c + (3007/96) * c^3 + (-455/24) * c^5) ((88/15) + (-12989/240) * c^2 + (23719/240) * c^4 + (-2023/40) * c^6) 1 2 3 (9/4) (1959/500) (3191/500) (272/25) (1019/50) := by
    refine (TM.add hesq h2S).congr ?_ ?_ ?_ ?_ ?_ ?_ ?_ ?_ ?_ ?_ ?_ ?_ ?_ ?_ ?_
    on_goal 15 => norm_num
    on_goal 14 => norm_num
    on_goal 13 => norm_num
    on_goal 12 => norm_num
    on_goal 11 => norm_num
    on_goal 10 => norm_num
    on_goal 9 => norm_num
    on_goal 8 => norm_num
    · ring
    · ring
    · ring
    · ring
    · ring
    · ring
    · ring
  have hGG : TM e (G * G) ((1)) ((2) * c) ((-5/2) + (6) * c^2) ((-29/2) * c + (39/2) * c^3) ((985/96) + (-208/3) * c^2 + (197/3) * c^4) ((2895/32) * c + (-9853/32) * c^3 + (1805/8) * c^5) ((-41567/960) + (69707/120) * c^2 + (-315149/240) * c^4 + (31413/40) * c^6) 1 2 (7/2) (29/4) (751/50) (3123/100) (1311/20) (1996/25) := by
    refine (TM.mul he hG0 hG0).congr ?_ ?_ ?_ ?_ ?_ ?_ ?_ ?_ ?_ ?_ ?_ ?_ ?_ ?_ ?_
    on_goal 15 => norm_num
    on_goal 14 => norm_num
    on_goal 13 => norm_num
    on_goal 12 => norm_num
    on_goal 11 => norm_num
    on_goal 10 => norm_num
    on_goal 9 => norm_num
    on_goal 8 => norm_num
    · ring
    · ring
    · ring
    · ring
    · ring
    · ring
    · ring
  have hT : TM e (G * G * (1 + e * e + 2 * (e * (s * Real.sin u - c * Real.cos u)))) ((1)) (0) ((1/2)) (0) ((3/32)) (0) ((1/64)) 1 4 (21/2) (45/2) (1211/25) (526/5) (1134/5) (2339/5) := by
    refine (TM.mul he hGG hL).congr ?_ ?_ ?_ ?_ ?_ ?_ ?_ ?_ ?_ ?_ ?_ ?_ ?_ ?_ ?_
    on_goal 15 => norm_num
    on_goal 14 => norm_num
    on_goal 13 => norm_num
    on_goal 12 => norm_num
    on_goal 11 => norm_num
    on_goal 10 => norm_num
    on_goal 9 => norm_num
    on_goal 8 => norm_num
    · ring
    · ring
    · ring
    · ring
    · ring
    · ring
    · ring
  obtain ⟨-, -, -, -, -, -, -, r, hr, hx⟩ := hT
  have e2 : G ^ 2 * (1 + e ^ 2 - 2 * e * (c * Real.cos u - s * Real.sin u)) - ((1) + (1/4) * e^2 + (1/64) * e^4 + (1/256) * e^6) ^ 2 = (r - ((9/4096) * e + (1/8192) * e^3 + (1/65536) * e^5)) * e ^ 7 := by
    linear_combination hx
  rw [e2, abs_mul, abs_pow]
  apply mul_le_mul_of_nonneg_right _ (by positivity)
  bdnum

end KarneyRev
