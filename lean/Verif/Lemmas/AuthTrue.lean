import Verif.Lemmas.Bd
import Mathlib.Tactic.LinearCombination
/-!
Generated by tools/series/auth_true.py: the authalic series against the area of a zone.
-/
namespace AuthTrue

/-- `h = E * sin t * cos t * X` is the shift of the authalic series -/
noncomputable def X (E g : ℝ) : ℝ := -2 * (1 / 3 + 31 / 180 * E + 59 / 560 * E ^ 2) + 4 * (1 - 2 * g) * (17 / 360 * E + 61 / 1260 * E ^ 2) -
  383 / 45360 * E ^ 2 * (6 - 32 * g * (1 - g))

/-- Taylor polynomial of the sine of the authalic latitude, divided by `sin t` (`g = sin t ^ 2`) -/
noncomputable def A (E g : ℝ) : ℝ := 1 - g * (1 - g) * E ^ 2 * X E g ^ 2 / 2 + (1 - g) * E * X E g - g * (1 - g) ^ 2 * E ^ 3 * X E g ^ 3 / 6

/-- Taylor polynomial of the area of the zone, divided by `sin t` -/
noncomputable def f (E g : ℝ) : ℝ := 1 + 2 / 3 * E * g + 3 / 5 * E ^ 2 * g ^ 2 + 4 / 7 * E ^ 3 * g ^ 3 + 5 / 9 * E ^ 4 * g ^ 4

set_option maxHeartbeats 4000000 in
theorem defect {E g : ℝ} (h0 : 0 ≤ E) (h1 : E ≤ 1 / 2) (g0 : 0 ≤ g) (g1 : g ≤ 1) :
    |A E g * f E 1 - f E g| ≤ 1 / 2 * E ^ 4 + 2 * E ^ 5 := by
  have bE : |E| ≤ 1 / 2 := by rwa [abs_of_nonneg h0]
  have bg : |g| ≤ 1 := by rwa [abs_of_nonneg g0]
  obtain ⟨R, hR⟩ : ∃ R : ℝ, R = (512/14175) + (91/4050) * g + (347/12150) * g^2 + (11309/85050) * g^3 + (-18721/85050) * g^4 := ⟨_, rfl⟩
  obtain ⟨S, hS⟩ : ∃ S : ℝ, S = ((-2362/4725) + (244/4725) * g + (827/18225) * g^2 + (17273/127575) * g^3 + (7373/127575) * g^4 + (8917/42525) * g^5) +
      E ^ 1 * ((-2483/19845) + (-4099477/13395375) * g + (308981/4465125) * g^2 + (11344021/80372250) * g^3 + (1548527/26790750) * g^4 + (1325507/26790750) * g^5 + (9125231/80372250) * g^6) +
      E ^ 2 * ((-64/1701) + (-458968/8037225) * g + (-376963/1488375) * g^2 + (1266157/8037225) * g^3 + (7564588/120558375) * g^4 + (673972/13395375) * g^5 + (1207/35721) * g^6 + (5258207/120558375) * g^7) +
      E ^ 3 * ((-55201/200930625) * g + (-18733208/602791875) * g^2 + (-62447401/401861250) * g^3 + (251577451/3616751250) * g^4 + (184925147/3616751250) * g^5 + (39952499/1205583750) * g^6 + (6918512/361675125) * g^7 + (4987426/361675125) * g^8) +
      E ^ 4 * ((148729387/12658629375) * g + (51544712/12658629375) * g^2 + (-227693023/12658629375) * g^3 + (-38660616448/341782993125) * g^4 + (3652004149/68356598625) * g^5 + (11304153344/341782993125) * g^6 + (6357290227/341782993125) * g^7 + (471165068/68356598625) * g^8 + (224727548/68356598625) * g^9) +
      E ^ 5 * ((346850929/75951776250) * g + (290964353/25317258750) * g^2 + (545836439/113927664375) * g^3 + (-21122220443/1025348979375) * g^4 + (-125309881201/2050697958750) * g^5 + (68890673501/2050697958750) * g^6 + (18794371478/1025348979375) * g^7 + (6911105546/1025348979375) * g^8 + (449455096/205069795875) * g^9) +
      E ^ 6 * ((2165344/1406514375) * g + (17797202/4219543125) * g^2 + (348835901/37975888125) * g^3 + (-263238968/113927664375) * g^4 + (-241612906/22785532875) * g^5 + (-3245223134/113927664375) * g^6 + (2048887991/113927664375) * g^7 + (740486072/113927664375) * g^8 + (224727548/113927664375) * g^9) +
      E ^ 7 * ((149504/656373375) * g + (45969664/53166243375) * g^2 + (326234584/159498730125) * g^3 + (859305808/478496190375) * g^4 + (-196996438/95699238075) * g^5 + (-2410757366/478496190375) * g^6 + (-2900651266/478496190375) * g^7 + (3036755678/478496190375) * g^8 + (898910192/478496190375) * g^9) +
      E ^ 8 * ((131072/4557106575) * g + (139264/1519035525) * g^2 + (4547072/13671319725) * g^3 + (34936672/123041877525) * g^4 + (8034512/24608375505) * g^5 + (-134280824/123041877525) * g^6 + (-64048324/123041877525) * g^7 + (-157250608/123041877525) * g^8 + (224727548/123041877525) * g^9) := ⟨_, rfl⟩
  have hb : |R| ≤ 1 / 2 := by
    rw [hR]; bdnum
  have hc : |S| ≤ 2 := by
    rw [hS]; bdnum
  have key : ∀ T : ℝ, T = R * E ^ 4 + S * E ^ 5 → |T| ≤ 1 / 2 * E ^ 4 + 2 * E ^ 5 := by
    intro T hT
    rw [hT]
    exact Bd.add (Bd.mul hb (Bd.num (by positivity))) (Bd.mul hc (Bd.num (by positivity)))
  apply key
  rw [hR, hS]
  unfold A f X
  ring

end AuthTrue
