import Verif.Lemmas.Bd
import Mathlib.Tactic.LinearCombination
import Mathlib.Tactic.Positivity
/-!
Generated by tools/series/vincenty_true.py: Vincenty's length and longitude series against the exact integrands.
-/
set_option linter.unusedVariables false
namespace VincentySeries

theorem len4 {c : ℝ} (hc : |c| ≤ 1) : |(1/8192) + (-1/256) * c^2 + (5/1024) * c^4| ≤ (11/10000) := by
  have h1 : c ^ 2 ≤ 1 := by rw [← sq_abs]; nlinarith [abs_nonneg c]
  have h0 := sq_nonneg c
  have e : c ^ 4 = (c ^ 2) ^ 2 := by ring
  rw [e]
  generalize c ^ 2 = t at *
  rw [abs_le]; constructor
  · nlinarith [sq_nonneg (t - 2 / 5)]
  · nlinarith

set_option maxRecDepth 20000 in
set_option maxHeartbeats 4000000 in
/-- the derivative of Vincenty's length series, squared, against the square of the exact one; `w = u²`, `c = cos 2x` -/
theorem len_sq {w c A B : ℝ} (hw : |w| ≤ (1/4)) (hc : |c| ≤ 1) (hA : A = (1) + (1/4) * w + (-3/64) * w^2 + (5/256) * w^3 + (-175/16384) * w^4) (hB : B = (1/4) * w + (-1/8) * w^2 + (37/512) * w^3 + (-47/1024) * w^4) :
    |(A * (1 - B * c - B ^ 2 / 4 * (2 * c ^ 2 - 1) - B ^ 3 / 8 * (4 * c ^ 3 - 3 * c))) ^ 2 - (1 + w * (1 - c) / 2)|
      ≤ ((11/10000) + (99/1000) * |w|) * |w| ^ 4 := by
  obtain ⟨R, hR⟩ : ∃ R : ℝ, R = (((-447/32768) + (2047/32768) * c + (3/512) * c^2 + (-5/8192) * c^3 + (-15/2048) * c^4 + (1/2048) * c^5) + w * (((-225/131072) + (-451/65536) * c + (-1655/262144) * c^2 + (5/4096) * c^3 + (257/32768) * c^4 + (-1/1024) * c^5 + (1/16384) * c^6) + w * (((2461/2097152) + (6017/4194304) * c + (3155/524288) * c^2 + (-1705/1048576) * c^3 + (-485/65536) * c^4 + (341/262144) * c^5 + (-5/32768) * c^6) + w * (((-220799/268435456) + (111/524288) * c + (-58315/16777216) * c^2 + (1915/1048576) * c^3 + (17417/4194304) * c^4 + (-383/262144) * c^5 + (253/1048576) * c^6) + w * (((81715/134217728) + (-221615/268435456) * c + (49361/33554432) * c^2 + (-50195/33554432) * c^3 + (-53401/33554432) * c^4 + (10039/8388608) * c^5 + (-651/2097152) * c^6) + w * (((523847/8589934592) + (61673/268435456) * c + (-949939/4294967296) * c^2 + (267645/268435456) * c^3 + (15667/536870912) * c^4 + (-53529/67108864) * c^5 + (83301/268435456) * c^6) + w * (((-587203/17179869184) + (-804521/34359738368) * c + (-2049155/4294967296) * c^2 + (-2270365/4294967296) * c^3 + (1720769/2147483648) * c^4 + (454073/1073741824) * c^5 + (-69027/268435456) * c^6) + w * (((3914045/274877906944) + (914917/137438953472) * c + (7974479/17179869184) * c^2 + (5391095/34359738368) * c^3 + (-99402281/137438953472) * c^4 + (-1078219/8589934592) * c^5 + (385441/2147483648) * c^6) + w * (((-5947391/2199023255552) + (-107868755/8796093022208) * c + (-41162957/137438953472) * c^2 + (19399205/1099511627776) * c^3 + (248925187/549755813888) * c^4 + (-3879841/274877906944) * c^5 + (-422651/4294967296) * c^6) + w * (((-546810247/140737488355328) + (60184741/4398046511104) * c + (5107518145/35184372088832) * c^2 + (-308689855/4398046511104) * c^3 + (-937067539/4398046511104) * c^4 + (61737971/1099511627776) * c^5 + (87226873/2199023255552) * c^6) + w * (((166111083/140737488355328) + (-16968065853/1125899906842624) * c + (-2500689447/70368744177664) * c^2 + (9037002045/140737488355328) * c^3 + (870336417/17592186044416) * c^4 + (-1807400409/35184372088832) * c^5 + (-27881087/4398046511104) * c^6) + w * (((-43488829/4503599627370496) + (20211747471/2251799813685248) * c + (-4898185551/2251799813685248) * c^2 + (-20288608985/562949953421312) * c^3 + (9844179099/1125899906842624) * c^4 + (4057721797/140737488355328) * c^5 + (-1063970687/140737488355328) * c^6) + w * (((-10772209099/36028797018963968) + (-576026356443/144115188075855872) * c + (44767866539/4503599627370496) * c^2 + (138483547185/9007199254740992) * c^3 + (-177719436647/9007199254740992) * c^4 + (-27696709437/2251799813685248) * c^5 + (2580383149/281474976710656) * c^6) + w * (((73840091185/288230376151711744) + (343223745433/288230376151711744) * c + (-4465442550479/576460752303423488) * c^2 + (-315829697465/72057594037927936) * c^3 + (535026833389/36028797018963968) * c^4 + (63165939493/18014398509481984) * c^5 + (-233617736951/36028797018963968) * c^6) + w * (((-249660439831/2305843009213693952) + (55533554719/2305843009213693952) * c + (527526508555/144115188075855872) * c^2 + (-3733875365/1152921504606846976) * c^3 + (-4212206932211/576460752303423488) * c^4 + (746775073/288230376151711744) * c^5 + (7718501909/2251799813685248) * c^6) + w * (((11071162456209/295147905179352825856) + (-4186945987859/18446744073709551616) * c + (-24818943191913/18446744073709551616) * c^2 + (6893454529765/9223372036854775808) * c^3 + (201998806795221/73786976294838206464) * c^4 + (-1378690905953/2305843009213693952) * c^5 + (-190941399107/144115188075855872) * c^6) + w * (((-1505075463635/147573952589676412928) + (195322500243147/1180591620717411303424) * c + (3238262593709/9223372036854775808) * c^2 + (-325537500405245/590295810358705651712) * c^3 + (-26012706705631/36893488147419103232) * c^4 + (65107500081049/147573952589676412928) * c^5 + (96288173893/288230376151711744) * c^6) + w * (((1137993907275/590295810358705651712) + (-189990633431409/2361183241434822606848) * c + (-453641851460907/18889465931478580854784) * c^2 + (316651055719015/1180591620717411303424) * c^3 + (48035836227369/2361183241434822606848) * c^4 + (-63330211143803/295147905179352825856) * c^5 + (14334558784877/1180591620717411303424) * c^6) + w * (((-185959970875/590295810358705651712) + (4278278649906783/151115727451828646838272) * c + (-1425884005953533/37778931862957161709568) * c^2 + (-7130464416511305/75557863725914323419136) * c^3 + (509015410036511/4722366482869645213696) * c^4 + (1426092883302261/18889465931478580854784) * c^5 + (-179589668458837/2361183241434822606848) * c^6) + w * (((149440230625/4722366482869645213696) + (-2519190871192209/302231454903657293676544) * c + (35096240009912369/1208925819614629174706176) * c^2 + (4198651451987015/151115727451828646838272) * c^3 + (-11807140650584123/151115727451828646838272) * c^4 + (-839730290397403/37778931862957161709568) * c^5 + (3967594132728041/75557863725914323419136) * c^6) + w * (((593626049930595/302231454903657293676544) * c + (-34510920704233551/2417851639229258349412352) * c^2 + (-989376749884325/151115727451828646838272) * c^3 + (11503640234744517/302231454903657293676544) * c^4 + (197875349976865/37778931862957161709568) * c^5 + (-3834546744914839/151115727451828646838272) * c^6) + w * (((-208913385530025/604462909807314587353088) * c + (1687945193403296625/309485009821345068724781056) * c^2 + (348188975883375/302231454903657293676544) * c^3 + (-562648397801098875/38685626227668133590597632) * c^4 + (-69637795176675/75557863725914323419136) * c^5 + (187549465933699625/19342813113834066795298816) * c^6) + w * (((121469289172875/2417851639229258349412352) * c + (-518477523973815321/309485009821345068724781056) * c^2 + (-202448815288125/1208925819614629174706176) * c^3 + (172825841324605107/38685626227668133590597632) * c^4 + (40489763057625/302231454903657293676544) * c^5 + (-57608613774868369/19342813113834066795298816) * c^6) + w * (((-21071072518125/4835703278458516698824704) * c + (538763317705054359/1237940039285380274899124224) * c^2 + (35118454196875/2417851639229258349412352) * c^3 + (-179587772568351453/154742504910672534362390528) * c^4 + (-7023690839375/604462909807314587353088) * c^5 + (59862590856117151/77371252455336267181195264) * c^6) + w * (((-56866298097607335/618970019642690137449562112) * c^2 + (18955432699202445/77371252455336267181195264) * c^4 + (-6318477566400815/38685626227668133590597632) * c^6) + w * (((74419488779396175/4951760157141521099596496896) * c^2 + (-24806496259798725/618970019642690137449562112) * c^4 + (8268832086599575/309485009821345068724781056) * c^6) + w * (((-9733029411443625/4951760157141521099596496896) * c^2 + (3244343137147875/618970019642690137449562112) * c^4 + (-1081447712382625/309485009821345068724781056) * c^6) + w * ((2971021225055625/19807040628566084398385987584) * c^2 + (-990340408351875/2475880078570760549798248448) * c^4 + (330113469450625/1237940039285380274899124224) * c^6)))))))))))))))))))))))))))) := ⟨_, rfl⟩
  have hb : |R| ≤ (99/1000) := by rw [hR]; bdnum
  have e2 : (A * (1 - B * c - B ^ 2 / 4 * (2 * c ^ 2 - 1) - B ^ 3 / 8 * (4 * c ^ 3 - 3 * c))) ^ 2 - (1 + w * (1 - c) / 2) =
      (((1/8192) + (-1/256) * c^2 + (5/1024) * c^4) + R * w) * w ^ 4 := by
    rw [hR]; subst hA hB; ring
  rw [e2, abs_mul, abs_pow]
  refine mul_le_mul_of_nonneg_right ?_ (by positivity)
  exact Bd.add (len4 hc) (Bd.mul hb le_rfl)

set_option maxHeartbeats 2000000 in
theorem turn4 {p c : ℝ} (h0 : 0 ≤ p) (h1 : p ≤ 1) (hc : |c| ≤ 1) : |(1/2) * c * p + (-7/8) * c * p^2 + (9/32) * c * p^3 + (1/16) * c^2 * p^2 + (-1/32) * c^2 * p^3 + (5/32) * c^3 * p^3 + (-1/2) * p + (13/16) * p^2 + (-3/8) * p^3| ≤ (1/4) := by
  obtain ⟨m, hm⟩ : ∃ m, m = (1 + c) / 2 := ⟨_, rfl⟩
  obtain ⟨q, hq⟩ : ∃ q, q = 1 - p := ⟨_, rfl⟩
  obtain ⟨r, hr⟩ : ∃ r, r = 1 - m := ⟨_, rfl⟩
  rw [abs_le] at hc
  have m0 : 0 ≤ m := by rw [hm]; linarith
  have r0 : 0 ≤ r := by rw [hr, hm]; linarith
  have q0 : 0 ≤ q := by rw [hq]; linarith
  have ec : c = 2 * m - 1 := by rw [hm]; ring
  have e1 : ((1/2) * c * p + (-7/8) * c * p^2 + (9/32) * c * p^3 + (1/16) * c^2 * p^2 + (-1/32) * c^2 * p^3 + (5/32) * c^3 * p^3 + (-1/2) * p + (13/16) * p^2 + (-3/8) * p^3) + 1 / 4 = p ^ 0 * q ^ 4 * ((1/4) * (m ^ 0 * r ^ 4) + 1 * (m ^ 1 * r ^ 3) + (3/2) * (m ^ 2 * r ^ 2) + 1 * (m ^ 3 * r ^ 1) + (1/4) * (m ^ 4 * r ^ 0)) + p ^ 1 * q ^ 3 * (1 * (m ^ 1 * r ^ 3) + 3 * (m ^ 2 * r ^ 2) + 3 * (m ^ 3 * r ^ 1) + 1 * (m ^ 4 * r ^ 0)) + p ^ 2 * q ^ 2 * ((1/4) * (m ^ 0 * r ^ 4) + 2 * (m ^ 1 * r ^ 3) + (19/4) * (m ^ 2 * r ^ 2) + (9/2) * (m ^ 3 * r ^ 1) + (3/2) * (m ^ 4 * r ^ 0)) + p ^ 3 * q ^ 1 * ((21/32) * (m ^ 0 * r ^ 4) + (13/4) * (m ^ 1 * r ^ 3) + (69/16) * (m ^ 2 * r ^ 2) + (11/4) * (m ^ 3 * r ^ 1) + (33/32) * (m ^ 4 * r ^ 0)) + p ^ 4 * q ^ 0 * ((5/32) * (m ^ 0 * r ^ 4) + (5/4) * (m ^ 1 * r ^ 3) + (17/16) * (m ^ 2 * r ^ 2) + (1/4) * (m ^ 3 * r ^ 1) + (9/32) * (m ^ 4 * r ^ 0)) := by
    rw [ec, hr, hq]; ring
  have e2 : 1 / 4 - ((1/2) * c * p + (-7/8) * c * p^2 + (9/32) * c * p^3 + (1/16) * c^2 * p^2 + (-1/32) * c^2 * p^3 + (5/32) * c^3 * p^3 + (-1/2) * p + (13/16) * p^2 + (-3/8) * p^3) = p ^ 0 * q ^ 4 * ((1/4) * (m ^ 0 * r ^ 4) + 1 * (m ^ 1 * r ^ 3) + (3/2) * (m ^ 2 * r ^ 2) + 1 * (m ^ 3 * r ^ 1) + (1/4) * (m ^ 4 * r ^ 0)) + p ^ 1 * q ^ 3 * (2 * (m ^ 0 * r ^ 4) + 7 * (m ^ 1 * r ^ 3) + 9 * (m ^ 2 * r ^ 2) + 5 * (m ^ 3 * r ^ 1) + 1 * (m ^ 4 * r ^ 0)) + p ^ 2 * q ^ 2 * ((11/4) * (m ^ 0 * r ^ 4) + 10 * (m ^ 1 * r ^ 3) + (53/4) * (m ^ 2 * r ^ 2) + (15/2) * (m ^ 3 * r ^ 1) + (3/2) * (m ^ 4 * r ^ 0)) + p ^ 3 * q ^ 1 * ((43/32) * (m ^ 0 * r ^ 4) + (19/4) * (m ^ 1 * r ^ 3) + (123/16) * (m ^ 2 * r ^ 2) + (21/4) * (m ^ 3 * r ^ 1) + (31/32) * (m ^ 4 * r ^ 0)) + p ^ 4 * q ^ 0 * ((11/32) * (m ^ 0 * r ^ 4) + (3/4) * (m ^ 1 * r ^ 3) + (31/16) * (m ^ 2 * r ^ 2) + (7/4) * (m ^ 3 * r ^ 1) + (7/32) * (m ^ 4 * r ^ 0)) := by
    rw [ec, hr, hq]; ring
  have p1 : 0 ≤ ((1/2) * c * p + (-7/8) * c * p^2 + (9/32) * c * p^3 + (1/16) * c^2 * p^2 + (-1/32) * c^2 * p^3 + (5/32) * c^3 * p^3 + (-1/2) * p + (13/16) * p^2 + (-3/8) * p^3) + 1 / 4 := by rw [e1]; positivity
  have p2 : 0 ≤ 1 / 4 - ((1/2) * c * p + (-7/8) * c * p^2 + (9/32) * c * p^3 + (1/16) * c^2 * p^2 + (-1/32) * c^2 * p^3 + (5/32) * c^3 * p^3 + (-1/2) * p + (13/16) * p^2 + (-3/8) * p^3) := by rw [e2]; positivity
  rw [abs_le]; constructor <;> linarith

set_option maxHeartbeats 2000000 in
/-- the derivative `V` of Vincenty's longitude series in the quadratic equation of the exact one; `p = cos²α`, `c = cos 2x` -/
theorem turn_eq {f p c C V : ℝ} (hf : |f| ≤ (1/10)) (h0 : 0 ≤ p) (h1 : p ≤ 1) (hc : |c| ≤ 1) (hC : C = f / 16 * p * (4 + f * (4 - 3 * p)))
    (hV : V = f * (1 - C) * (1 + C * c + C ^ 2 * (2 * c ^ 2 - 1))) :
    |V ^ 2 * (1 - p * (1 - c) / 2) - 2 * V + f * (2 - f)| ≤ ((1/4) + (1629/500) * |f|) * |f| ^ 4 := by
  have hp : |p| ≤ 1 := by rw [abs_of_nonneg h0]; exact h1
  obtain ⟨k, hk⟩ : ∃ k, k = (1/4) * f * p + (-3/16) * f * p^2 + (1/4) * p := ⟨_, rfl⟩
  have hkb : |k| ≤ (11/40) := by
    have : k = p * (1/4 + f * ((4 - 3 * p) / 16)) := by rw [hk]; ring
    have h2 : |(4 - 3 * p) / 16| ≤ 1/4 := by rw [abs_le]; constructor <;> linarith
    rw [this]
    refine (Bd.mul hp (Bd.add (Bd.num (by norm_num)) (Bd.mul hf h2))).trans ?_
    norm_num
  obtain ⟨y, hy⟩ : ∃ y, y = p * (1 - c) / 2 := ⟨_, rfl⟩
  have hyb : |1 - y| ≤ 1 := by
    rw [abs_le] at hc
    rw [hy, abs_le]; constructor <;> nlinarith
  obtain ⟨z, hz⟩ : ∃ z, z = 1 - y := ⟨_, rfl⟩
  rw [← hz] at hyb
  obtain ⟨R1, hR1⟩ : ∃ R : ℝ, R = (((-10) * c^2 * k^3 * z + (4) * c^3 * k^3 * z + (4) * k^3 * z) + f * (((4) * c * k^4 * z + (1) * c^2 * k^4 * z + (-8) * c^3 * k^4 * z + (4) * c^4 * k^4 * z + (-1) * k^4 * z) + f * (((-2) * c * k^5 * z + (8) * c^2 * k^5 * z + (4) * c^3 * k^5 * z + (-8) * c^4 * k^5 * z + (-2) * k^5 * z) + f * ((-4) * c^2 * k^6 * z + (4) * c^4 * k^6 * z + (1) * k^6 * z)))) := ⟨_, rfl⟩
  have hb1 : |R1| ≤ (193/500) := by rw [hR1]; bdnum
  obtain ⟨R2, hR2⟩ : ∃ R : ℝ, R = (((-3/8) * c * p^2 + (3/8) * c * p^3 + (-9/128) * c * p^4 + (3/8) * c^2 * p^2 + (-15/32) * c^2 * p^3 + (9/64) * c^2 * p^4 + (5/16) * c^3 * p^3 + (-15/64) * c^3 * p^4 + (-1/8) * p^3 + (3/32) * p^4) + f * (((-1/4) * c * p^2 + (15/32) * c * p^3 + (-9/32) * c * p^4 + (27/512) * c * p^5 + (5/16) * c^2 * p^2 + (-9/16) * c^2 * p^3 + (81/256) * c^2 * p^4 + (-27/512) * c^2 * p^5 + (5/32) * c^3 * p^3 + (-15/64) * c^3 * p^4 + (45/512) * c^3 * p^5 + (-1/16) * p^2 + (1/32) * p^3 + (15/256) * p^4 + (-9/256) * p^5) + f * ((1/16) * c^2 * p^3 + (-9/64) * c^2 * p^4 + (27/256) * c^2 * p^5 + (-27/1024) * c^2 * p^6 + (-1/32) * p^3 + (9/128) * p^4 + (-27/512) * p^5 + (27/2048) * p^6))) := ⟨_, rfl⟩
  have hb2 : |R2| ≤ (359/125) := by rw [hR2]; clear hR1 hb1; bdnum
  have e1 : V ^ 2 * z - 2 * V + f * (2 - f) = f * (f ^ 1 * ((-1) + (-2) * c * k + (2) * k + (1) * z) + f ^ 2 * ((2) * c * k * z + (2) * c * k^2 + (-4) * c^2 * k^2 + (-2) * k * z + (2) * k^2) + f ^ 3 * ((-4) * c * k^2 * z + (5) * c^2 * k^2 * z + (4) * c^2 * k^3 + (-1) * k^2 * z + (-2) * k^3)) + R1 * f ^ 5 := by
    rw [hR1, hV, show C = f * k by rw [hC, hk]; ring]; ring
  have e3 : f * (f ^ 1 * ((-1) + (-2) * c * k + (2) * k + (1) * z) + f ^ 2 * ((2) * c * k * z + (2) * c * k^2 + (-4) * c^2 * k^2 + (-2) * k * z + (2) * k^2) + f ^ 3 * ((-4) * c * k^2 * z + (5) * c^2 * k^2 * z + (4) * c^2 * k^3 + (-1) * k^2 * z + (-2) * k^3)) = (((1/2) * c * p + (-7/8) * c * p^2 + (9/32) * c * p^3 + (1/16) * c^2 * p^2 + (-1/32) * c^2 * p^3 + (5/32) * c^3 * p^3 + (-1/2) * p + (13/16) * p^2 + (-3/8) * p^3) + R2 * f) * f ^ 4 := by
    rw [hR2, hz, hy, hk]; ring
  have e2 : V ^ 2 * (1 - p * (1 - c) / 2) - 2 * V + f * (2 - f) = (((1/2) * c * p + (-7/8) * c * p^2 + (9/32) * c * p^3 + (1/16) * c^2 * p^2 + (-1/32) * c^2 * p^3 + (5/32) * c^3 * p^3 + (-1/2) * p + (13/16) * p^2 + (-3/8) * p^3) + (R2 + R1) * f) * f ^ 4 := by
    rw [← hy, ← hz, e1, e3]; ring
  rw [e2, abs_mul, abs_pow]
  refine mul_le_mul_of_nonneg_right ?_ (by positivity)
  refine Bd.add (turn4 h0 h1 hc) (Bd.mul ((Bd.add hb2 hb1).trans ?_) le_rfl)
  norm_num

end VincentySeries
