import Verif.Lemmas.Double
import Verif.Props.Time
import Mathlib.Tactic.IntervalCases
/-!
**C86** Julian dates in double precision.
-/
set_option linter.unusedSectionVars false
namespace Pymap3d
open Py PyFloat
open Spec hiding norm dist

noncomputable section

variable {M : FloatArith}

theorem trunc_of_near {x : ℝ} {q : ℤ} (h0 : 0 ≤ q) (h1 : (q : ℝ) ≤ x) (h2 : x < q + 1) : PyReal.truncR x = q := by
  have hq : (0:ℝ) ≤ q := by exact_mod_cast h0
  unfold PyReal.truncR
  rw [if_pos (by linarith), Int.floor_eq_iff]
  exact ⟨h1, h2⟩

/-- a rounded quotient of integers truncates to the quotient -/
theorem truncR_rnd_div (D : Double M) (a b : ℤ) (ha : 0 ≤ a) (ha' : a < 2 ^ 40) (hb : 0 < b) : PyReal.truncR (M.rnd ((a : ℝ) / b)) = a / b := by
  have hb' : (0 : ℝ) < b := by exact_mod_cast hb
  have ha0 : (0 : ℝ) ≤ a := by exact_mod_cast ha
  have haR : (a : ℝ) < 2 ^ 40 := by exact_mod_cast ha'
  have hq0 : 0 ≤ a / b := Int.ediv_nonneg ha hb.le
  have hqa : a / b ≤ a := Int.ediv_le_self _ ha
  have h1 : b * (a / b) + a % b = a := Int.mul_ediv_add_emod a b
  have h3 := Int.emod_lt_of_pos a hb
  have h2 := Int.emod_nonneg a hb.ne'
  have hle : ((a / b : ℤ) : ℝ) ≤ (a : ℝ) / b := by
    rw [le_div_iff₀ hb']
    have : a / b * b ≤ a := by nlinarith
    exact_mod_cast this
  have hlt : (a : ℝ) / b ≤ (a / b : ℤ) + 1 - 1 / b := by
    rw [div_le_iff₀ hb', sub_mul, one_div_mul_cancel hb'.ne']
    have : a ≤ (a / b + 1) * b - 1 := by nlinarith
    exact_mod_cast this
  refine trunc_of_near hq0 ?_ ?_
  · have := D.mono hle
    rwa [D.int _ (by rw [abs_of_nonneg hq0]; omega)] at this
  · have hc := D.close ((a : ℝ) / b)
    rw [abs_of_nonneg (div_nonneg ha0 hb'.le)] at hc
    have h4 := (abs_le.mp hc).2
    have h5 : 1.0001 * M.u * ((a : ℝ) / b) < 1 / b := by
      rw [show 1.0001 * M.u * ((a : ℝ) / b) = (1.0001 * M.u * a) / b by ring]
      refine div_lt_div_of_pos_right ?_ hb'
      have h6 : M.u * a ≤ (1 / 2) ^ 53 * 2 ^ 40 := mul_le_mul D.u_le haR.le ha0 (by positivity)
      norm_num at h6
      linarith
    linarith

/-- `int(30.6001 * (month + 1))` -/
theorem truncR_rnd_month (D : Double M) (m : ℤ) (h1 : 3 ≤ m) (h2 : m ≤ 14) :
    PyReal.truncR (M.rnd (M.rnd (30.6001 : ℝ) * ((m + 1 : ℤ) : ℝ))) = (306001 * (m + 1)) / 10000 := by
  have hu := D.u_le
  have hu0 := M.u_nonneg
  have hus : M.u ≤ 1 / 1000000000 := hu.trans (by norm_num)
  have c1 := abs_le.mp (D.close (30.6001 : ℝ))
  have c2 := abs_le.mp (D.close (M.rnd (30.6001 : ℝ) * ((m + 1 : ℤ) : ℝ)))
  have e0 : (|(30.6001 : ℝ)|) = 30.6001 := abs_of_pos (by norm_num)
  rw [e0] at c1
  have hr1 : 30.60009 ≤ M.rnd (30.6001 : ℝ) ∧ M.rnd (30.6001 : ℝ) ≤ 30.60011 := by
    constructor <;> nlinarith
  have hr2 : |M.rnd (30.6001 : ℝ) - 30.6001| ≤ 1 / 10000000 := by rw [abs_le]; constructor <;> nlinarith
  generalize M.rnd (30.6001 : ℝ) = r at *
  have hm : (4:ℝ) ≤ ((m + 1 : ℤ) : ℝ) ∧ ((m + 1 : ℤ) : ℝ) ≤ 15 := by
    constructor
    · exact_mod_cast (by omega : (4:ℤ) ≤ m + 1)
    · exact_mod_cast (by omega : m + 1 ≤ (15:ℤ))
  have hx : |r * ((m + 1 : ℤ) : ℝ)| ≤ 1000 := by
    rw [abs_of_nonneg (by nlinarith)]; nlinarith
  have hd : |M.rnd (r * ((m + 1 : ℤ) : ℝ)) - r * ((m + 1 : ℤ) : ℝ)| ≤ 1 / 100000 := by
    rw [abs_le]
    have : 1.0001 * M.u * |r * ((m + 1 : ℤ) : ℝ)| ≤ 1 / 100000 := by
      have := mul_le_mul (mul_le_mul_of_nonneg_left hus (by norm_num : (0:ℝ) ≤ 1.0001)) hx (abs_nonneg _) (by norm_num)
      norm_num at this ⊢
      linarith
    constructor <;> linarith
  have hd2 : |M.rnd (r * ((m + 1 : ℤ) : ℝ)) - 30.6001 * ((m + 1 : ℤ) : ℝ)| ≤ 2 / 100000 := by
    have : M.rnd (r * ((m + 1 : ℤ) : ℝ)) - 30.6001 * ((m + 1 : ℤ) : ℝ) =
      (M.rnd (r * ((m + 1 : ℤ) : ℝ)) - r * ((m + 1 : ℤ) : ℝ)) + (r - 30.6001) * ((m + 1 : ℤ) : ℝ) := by ring
    rw [this]
    refine (abs_add_le _ _).trans ?_
    rw [abs_mul, abs_of_nonneg (by linarith : (0:ℝ) ≤ ((m + 1 : ℤ) : ℝ))]
    nlinarith [abs_nonneg (r - 30.6001)]
  generalize M.rnd (r * ((m + 1 : ℤ) : ℝ)) = v at *
  clear c1 c2 hd hx
  have hd3 := abs_le.mp hd2
  have hkey : 5 ≤ 306001 * (m + 1) % 10000 ∧ 306001 * (m + 1) % 10000 ≤ 9000 := by
    interval_cases m <;> norm_num
  have hdm : 10000 * (306001 * (m + 1) / 10000) + 306001 * (m + 1) % 10000 = 306001 * (m + 1) := Int.mul_ediv_add_emod _ _
  have hq : (10000:ℝ) * ((306001 * (m + 1) / 10000 : ℤ) : ℝ) + ((306001 * (m + 1) % 10000 : ℤ) : ℝ) = 306001 * ((m + 1 : ℤ) : ℝ) := by
    exact_mod_cast hdm
  have hk1 : (5:ℝ) ≤ ((306001 * (m + 1) % 10000 : ℤ) : ℝ) := by exact_mod_cast hkey.1
  have hk2 : ((306001 * (m + 1) % 10000 : ℤ) : ℝ) ≤ 9000 := by exact_mod_cast hkey.2
  refine trunc_of_near (by omega) ?_ ?_ <;> linarith

/-- the day number inside `juliandate` -/
def jdInteger (u : DateTime) : ℤ := toOrdinal u.year u.month u.day + 1722949

theorem jdInteger_bound {u : DateTime} (hu : u.Valid) : 1722950 ≤ jdInteger u ∧ jdInteger u ≤ 5375008 := by
  have h1 := hu.wall_range
  have h2 := hu.tod
  unfold Spec.Representable DateTime.wall at h1
  unfold jdInteger
  omega

/-- the fraction of the day as a real number -/
def dayFractionR (u : DateTime) : ℝ := (((u.second + u.microsecond / 1000000) / 60 + u.minute) / 60 + u.hour) / 24

theorem dayFractionR_eq (u : DateTime) : dayFractionR u = (u.timeOfDay : ℝ) / 86400000000 := by
  unfold dayFractionR DateTime.timeOfDay
  push_cast
  ring

/-- the steps of the fraction of the day in double precision -/
theorem dayFraction_fl (D : Double M) {u : DateTime} (hu : u.Valid) :
    (dayFraction u : Fl M).val = M.rnd (M.rnd (M.rnd (M.rnd (M.rnd (M.rnd (u.second + M.rnd (u.microsecond / 1000000)) / 60) + u.minute) / 60) + u.hour) / 24) := by
  have hs := hu.second1; have hs2 := hu.second2; have hm := hu.minute1; have hm2 := hu.minute2
  have hh := hu.hour1; have hh2 := hu.hour2; have hc := hu.micro1; have hc2 := hu.micro2
  unfold dayFraction
  simp only [val_div, val_add]
  rw [D.ofInt u.second (by rw [abs_of_nonneg hs]; omega), D.ofInt u.minute (by rw [abs_of_nonneg hm]; omega), D.ofInt u.hour (by rw [abs_of_nonneg hh]; omega),
    D.ofInt u.microsecond (by rw [abs_of_nonneg hc]; omega)]
  have l1 : (1e6 : Fl M).val = 1000000 := by rw [val_lit, D.lit _ 4000000 (by norm_num) (by norm_num)]; norm_num
  have l2 : (60.0 : Fl M).val = 60 := by rw [val_lit, D.lit _ 240 (by norm_num) (by norm_num)]; norm_num
  have l3 : (24.0 : Fl M).val = 24 := by rw [val_lit, D.lit _ 96 (by norm_num) (by norm_num)]; norm_num
  rw [l1, l2, l3]

theorem dayFraction_near (D : Double M) {u : DateTime} (hu : u.Valid) : Near M.u 7 (dayFractionR u) (dayFraction u : Fl M).val := by
  have h := M.small
  have hs : (0:ℝ) ≤ u.second := by exact_mod_cast hu.second1
  have hm : (0:ℝ) ≤ u.minute := by exact_mod_cast hu.minute1
  have hh : (0:ℝ) ≤ u.hour := by exact_mod_cast hu.hour1
  have hc : (0:ℝ) ≤ u.microsecond := by exact_mod_cast hu.micro1
  rw [dayFraction_fl D hu]
  unfold dayFractionR
  have r : ∀ {k : ℕ} {x y : ℝ}, Near M.u k x y → Near M.u (k + 1) x (M.rnd y) := fun n => n.trans h (M.rnd_near _)
  have rf : ∀ (k : ℕ) (x : ℝ), Near M.u k x x := fun k x => Near.refl M.u_nonneg h.lt k x
  have n1 : Near M.u 1 ((u.microsecond : ℝ) / 1000000) (M.rnd (u.microsecond / 1000000)) := M.rnd_near _
  have n2 := r ((Near.add h hs (by positivity) (rf 1 _) n1))
  have n3 := r (Near.div h n2 (rf 0 (60:ℝ)))
  have n4 := r (Near.add h (by positivity) hm n3 (rf _ _))
  have n5 := r (Near.div h n4 (rf 0 (60:ℝ)))
  have n6 := r (Near.add h (by positivity) hh n5 (rf _ _))
  exact r (Near.div h n6 (rf 0 (24:ℝ)))

/-- `juliandate` of a UTC datetime in double precision: one rounding of the exact day number plus the computed fraction -/
theorem juliandateUtc_fl (D : Double M) {u : DateTime} (hu : u.Valid) :
    (juliandateUtc u : Fl M).val = M.rnd (((jdInteger u : ℝ) - 1524.5) + (dayFraction u : Fl M).val) := by
  have hm := meeus_integer u.year u.month u.day hu.month1 hu.month2
  simp only [juliandateUtc]
  obtain ⟨Y, hY⟩ : ∃ Y, Y = (if u.month < 3 then u.year - 1 else u.year) := ⟨_, rfl⟩
  obtain ⟨K, hK⟩ : ∃ K, K = (if u.month < 3 then u.month + 12 else u.month) := ⟨_, rfl⟩
  rw [← hY, ← hK] at hm ⊢
  have hY0 : 0 ≤ Y ∧ Y ≤ 9999 := by rw [hY]; have := hu.year1; have := hu.year2; split_ifs <;> omega
  have hK1 : 3 ≤ K ∧ K ≤ 14 := by
    rw [hK]; have := hu.month1; have := hu.month2; split_ifs <;> omega
  have tr : ∀ x : Fl M, (trunc x : ℤ) = PyReal.truncR x.val := fun _ => rfl
  have l1 : (100.0 : Fl M).val = ((100 : ℤ) : ℝ) := by rw [val_lit, D.lit _ 400 (by norm_num) (by norm_num)]; norm_num
  have l2 : (4.0 : Fl M).val = ((4 : ℤ) : ℝ) := by rw [val_lit, D.lit _ 16 (by norm_num) (by norm_num)]; norm_num
  have l3 : (365.25 : Fl M).val = 365.25 := by rw [val_lit, D.lit _ 1461 (by norm_num) (by norm_num)]
  have l4 : (1524.5 : Fl M).val = 1524.5 := by rw [val_lit, D.lit _ 6098 (by norm_num) (by norm_num)]
  have l5 : (30.6001 : Fl M).val = M.rnd 30.6001 := val_lit _ _ _
  have t1 : (trunc ((ofInt Y : Fl M) / 100.0) : ℤ) = Y / 100 := by
    rw [tr, val_div, D.ofInt _ (by rw [abs_of_nonneg hY0.1]; omega), l1, truncR_rnd_div D _ _ hY0.1 (by omega) (by norm_num)]
  have hA : 0 ≤ Y / 100 ∧ Y / 100 ≤ 99 := by omega
  have t2 : (trunc ((ofInt (Y / 100) : Fl M) / 4.0) : ℤ) = Y / 100 / 4 := by
    rw [tr, val_div, D.ofInt _ (by rw [abs_of_nonneg hA.1]; omega), l2, truncR_rnd_div D _ _ hA.1 (by omega) (by norm_num)]
  have t3 : (trunc ((365.25 : Fl M) * ofInt (Y + 4716)) : ℤ) = 1461 * (Y + 4716) / 4 := by
    rw [tr, val_mul, D.ofInt _ (by rw [abs_of_nonneg (by omega)]; omega), l3]
    have e : (365.25 : ℝ) * ((Y + 4716 : ℤ) : ℝ) = ((1461 * (Y + 4716) : ℤ) : ℝ) / ((4 : ℤ) : ℝ) := by push_cast; ring
    rw [e, truncR_rnd_div D _ _ (by omega) (by omega) (by norm_num)]
  have t4 : (trunc ((30.6001 : Fl M) * ofInt (K + 1)) : ℤ) = 306001 * (K + 1) / 10000 := by
    rw [tr, val_mul, D.ofInt _ (by rw [abs_of_nonneg (by omega)]; omega), l5, truncR_rnd_month D K hK1.1 hK1.2]
  rw [t1, t2, t3, t4, hm]
  obtain ⟨b1, b2⟩ := jdInteger_bound hu
  show M.rnd ((((ofInt (toOrdinal u.year u.month u.day + 1722949) : Fl M) - 1524.5).val) + (dayFraction u : Fl M).val) = _
  rw [val_sub, l4]
  change M.rnd (M.rnd ((ofInt (jdInteger u) : Fl M).val - 1524.5) + _) = _
  rw [D.ofInt _ (by rw [abs_of_nonneg (by omega)]; omega)]
  have := D.lit ((jdInteger u : ℝ) - 1524.5) (4 * jdInteger u - 6098) (by push_cast; ring) (by rw [abs_of_nonneg (by omega)]; omega)
  rw [this]

theorem jd_split {u : DateTime} : (1721425.5 : ℝ) + (u.wall : ℝ) / 86400000000 = ((jdInteger u : ℝ) - 1524.5) + dayFractionR u := by
  rw [dayFractionR_eq]
  unfold DateTime.wall jdInteger
  push_cast
  ring

theorem dayFractionR_range {u : DateTime} (hu : u.Valid) : 0 ≤ dayFractionR u ∧ dayFractionR u ≤ 86399999999 / 86400000000 := by
  have h := hu.tod
  rw [dayFractionR_eq]
  have h1 : (0:ℝ) ≤ u.timeOfDay := by exact_mod_cast h.1
  have h2 : (u.timeOfDay : ℝ) ≤ 86399999999 := by exact_mod_cast (by omega : u.timeOfDay ≤ 86399999999)
  constructor
  · positivity
  · linarith

/-- **C86.** The Julian date computed in double precision is within one rounding (half a unit in its last place: 24 microseconds in this century) of the
exact day count. -/
theorem juliandate_float (D : Double M) {t : DateTime} (ht : t.Valid) (hr : Spec.Representable (Spec.instant t)) :
    ∃ j : Fl M, juliandate t = .ok j ∧
      |j.val - (1721425.5 + (Spec.instant t : ℝ) / 86400000000)| ≤ 1.001 * M.u * (1721425.5 + (Spec.instant t : ℝ) / 86400000000) := by
  obtain ⟨w, hw, hwv, hw0, hwi⟩ := (ensureUtc_spec ht).1 hr
  refine ⟨juliandateUtc w, by simp only [juliandate, hw]; rfl, ?_⟩
  rw [← hwi, ← utc_wall hwv hw0, jd_split, juliandateUtc_fl D hwv]
  have hn := (dayFraction_near D hwv).abs_sub M.small
  have hg := g_le M.small (show 7 ≤ 1000 by norm_num)
  obtain ⟨c0, c1⟩ := dayFractionR_range hwv
  obtain ⟨b1, b2⟩ := jdInteger_bound hwv
  have hb1 : (1722950:ℝ) ≤ jdInteger w := by exact_mod_cast b1
  rw [abs_of_nonneg c0] at hn
  have hu0 := M.u_nonneg
  have hus : M.u ≤ 1 / 1000000000 := D.u_le.trans (by norm_num)
  have hn' : |(dayFraction w : Fl M).val - dayFractionR w| ≤ 8 * M.u := by
    refine hn.trans ?_
    have : (g M.u 7 - 1) * dayFractionR w ≤ (g M.u 7 - 1) * 1 := mul_le_mul_of_nonneg_left (by linarith) (by linarith [one_le_g M.small 7])
    push_cast at hg
    nlinarith
  generalize (dayFraction w : Fl M).val = c' at *
  generalize dayFractionR w = c at *
  generalize (jdInteger w : ℝ) = n at *
  have hcl := D.close (n - 1524.5 + c')
  have hp := abs_le.mp hn'
  rw [abs_of_nonneg (by linarith : (0:ℝ) ≤ n - 1524.5 + c')] at hcl
  have : M.rnd (n - 1524.5 + c') - (n - 1524.5 + c) = (M.rnd (n - 1524.5 + c') - (n - 1524.5 + c')) + (c' - c) := by ring
  rw [this]
  refine (abs_add_le _ _).trans ?_
  have h3 : n - 1524.5 + c' ≤ n - 1524.5 + c + 1 := by linarith
  have h4 : 1.0001 * M.u * (n - 1524.5 + c') ≤ 1.0001 * M.u * (n - 1524.5 + c + 1) := mul_le_mul_of_nonneg_left h3 (by positivity)
  nlinarith [mul_nonneg hu0 (by linarith : (0:ℝ) ≤ n - 1524.5 + c - 1721425)]

/-! ### order -/

/-- one stage `int + fraction`, the fraction between 0 and 1 -/
theorem stage_range (D : Double M) (n : ℤ) (hn : 0 ≤ n) (hn' : n < 100) {x : ℝ} (h0 : 0 ≤ x) (h1 : x ≤ 1) :
    (n : ℝ) ≤ M.rnd (x + n) ∧ M.rnd (x + n) ≤ n + 1 := by
  constructor
  · have := D.mono (show (n : ℝ) ≤ x + n by linarith)
    rwa [D.int n (by rw [abs_of_nonneg hn]; omega)] at this
  · have := D.mono (show x + n ≤ ((n + 1 : ℤ) : ℝ) by push_cast; linarith)
    rw [D.int (n + 1) (by rw [abs_of_nonneg (by omega)]; omega)] at this
    exact_mod_cast this

theorem stage_mono (D : Double M) (n m : ℤ) (hn : 0 ≤ n) (hn' : n < 100) (hm : 0 ≤ m) (hm' : m < 100) {x y : ℝ} (hx0 : 0 ≤ x) (hx : x ≤ 1) (hy0 : 0 ≤ y)
    (hy : y ≤ 1) (h : n < m ∨ (n = m ∧ x ≤ y)) : M.rnd (x + n) ≤ M.rnd (y + m) := by
  rcases h with h | ⟨h, hxy⟩
  · have h1 := (stage_range D n hn hn' hx0 hx).2
    have h2 := (stage_range D m hm hm' hy0 hy).1
    have : (n : ℝ) + 1 ≤ m := by exact_mod_cast h
    linarith
  · subst h
    exact D.mono (by linarith)

/-- dividing a stage by its length -/
theorem stage_div (D : Double M) (L : ℤ) (hL : 0 < L) (hL' : L < 100) {x : ℝ} (h0 : 0 ≤ x) (h1 : x ≤ L) : 0 ≤ M.rnd (x / L) ∧ M.rnd (x / L) ≤ 1 := by
  have hLR : (0:ℝ) < L := by exact_mod_cast hL
  have z := D.int 0 (by norm_num)
  have o := D.int 1 (by norm_num)
  push_cast at z o
  constructor
  · have := D.mono (show (0:ℝ) ≤ x / L by positivity)
    rwa [z] at this
  · have := D.mono (show x / L ≤ 1 by rw [div_le_one hLR]; exact h1)
    rwa [o] at this

theorem dayFraction_mono (D : Double M) {s t : DateTime} (hs : s.Valid) (ht : t.Valid) (h : s.timeOfDay ≤ t.timeOfDay) :
    (dayFraction s : Fl M).val ≤ (dayFraction t : Fl M).val ∧ (dayFraction s : Fl M).val ≤ 1 ∧ 0 ≤ (dayFraction s : Fl M).val := by
  have z := D.int 0 (by norm_num)
  have o := D.int 1 (by norm_num)
  push_cast at z o
  have stages : ∀ u : DateTime, u.Valid →
      (0 ≤ M.rnd ((u.microsecond : ℝ) / 1000000) ∧ M.rnd ((u.microsecond : ℝ) / 1000000) ≤ 1) ∧
      (0 ≤ M.rnd (M.rnd (u.second + M.rnd ((u.microsecond : ℝ) / 1000000)) / 60) ∧ M.rnd (M.rnd (u.second + M.rnd ((u.microsecond : ℝ) / 1000000)) / 60) ≤ 1) ∧
      (0 ≤ M.rnd (M.rnd (M.rnd (M.rnd (u.second + M.rnd ((u.microsecond : ℝ) / 1000000)) / 60) + u.minute) / 60) ∧
        M.rnd (M.rnd (M.rnd (M.rnd (u.second + M.rnd ((u.microsecond : ℝ) / 1000000)) / 60) + u.minute) / 60) ≤ 1) ∧
      (0 ≤ (dayFraction u : Fl M).val ∧ (dayFraction u : Fl M).val ≤ 1) := by
    intro u hu
    have q1 : 0 ≤ M.rnd ((u.microsecond : ℝ) / 1000000) ∧ M.rnd ((u.microsecond : ℝ) / 1000000) ≤ 1 := by
      have a : (0:ℝ) ≤ u.microsecond := by exact_mod_cast hu.micro1
      have b : (u.microsecond : ℝ) ≤ 1000000 := by exact_mod_cast hu.micro2.le
      constructor
      · have := D.mono (show (0:ℝ) ≤ (u.microsecond : ℝ) / 1000000 by positivity)
        rwa [z] at this
      · have := D.mono (show (u.microsecond : ℝ) / 1000000 ≤ 1 by linarith)
        rwa [o] at this
    have r2 := stage_range D u.second hu.second1 (by have := hu.second2; omega) q1.1 q1.2
    rw [add_comm] at r2
    have s0 : (0:ℝ) ≤ u.second := by exact_mod_cast hu.second1
    have s1 : (u.second : ℝ) + 1 ≤ 60 := by exact_mod_cast hu.second2
    have q2 := stage_div D 60 (by norm_num) (by norm_num) (x := M.rnd (u.second + M.rnd ((u.microsecond : ℝ) / 1000000))) (by linarith) (by push_cast; linarith)
    push_cast at q2
    have r3 := stage_range D u.minute hu.minute1 (by have := hu.minute2; omega) q2.1 q2.2
    have m0 : (0:ℝ) ≤ u.minute := by exact_mod_cast hu.minute1
    have m1 : (u.minute : ℝ) + 1 ≤ 60 := by exact_mod_cast hu.minute2
    have q3 := stage_div D 60 (by norm_num) (by norm_num) (x := M.rnd (M.rnd (M.rnd (u.second + M.rnd ((u.microsecond : ℝ) / 1000000)) / 60) + u.minute)) (by linarith) (by push_cast; linarith)
    push_cast at q3
    have r4 := stage_range D u.hour hu.hour1 (by have := hu.hour2; omega) q3.1 q3.2
    have h0 : (0:ℝ) ≤ u.hour := by exact_mod_cast hu.hour1
    have h1 : (u.hour : ℝ) + 1 ≤ 24 := by exact_mod_cast hu.hour2
    have q4 := stage_div D 24 (by norm_num) (by norm_num)
      (x := M.rnd (M.rnd (M.rnd (M.rnd (M.rnd (u.second + M.rnd ((u.microsecond : ℝ) / 1000000)) / 60) + u.minute) / 60) + u.hour)) (by linarith) (by push_cast; linarith)
    push_cast at q4
    rw [dayFraction_fl D hu]
    exact ⟨q1, q2, q3, q4⟩
  obtain ⟨a1, a2, a3, a4⟩ := stages s hs
  obtain ⟨b1, b2, b3, b4⟩ := stages t ht
  refine ⟨?_, a4.2, a4.1⟩
  have hs1 := hs.second1; have hs2 := hs.second2; have hs3 := hs.minute1; have hs4 := hs.minute2
  have hs5 := hs.hour1; have hs6 := hs.hour2; have hs7 := hs.micro1; have hs8 := hs.micro2
  have ht1 := ht.second1; have ht2 := ht.second2; have ht3 := ht.minute1; have ht4 := ht.minute2
  have ht5 := ht.hour1; have ht6 := ht.hour2; have ht7 := ht.micro1; have ht8 := ht.micro2
  unfold DateTime.timeOfDay at h
  rw [dayFraction_fl D hs, dayFraction_fl D ht]
  refine D.mono (div_le_div_of_nonneg_right ?_ (by norm_num))
  refine stage_mono D _ _ hs5 (by omega) ht5 (by omega) a3.1 a3.2 b3.1 b3.2 ?_
  rcases lt_trichotomy s.hour t.hour with c | c | c
  · exact .inl c
  · refine .inr ⟨c, D.mono (div_le_div_of_nonneg_right ?_ (by norm_num))⟩
    refine stage_mono D _ _ hs3 (by omega) ht3 (by omega) a2.1 a2.2 b2.1 b2.2 ?_
    rcases lt_trichotomy s.minute t.minute with d | d | d
    · exact .inl d
    · refine .inr ⟨d, D.mono (div_le_div_of_nonneg_right ?_ (by norm_num))⟩
      rw [add_comm (s.second : ℝ), add_comm (t.second : ℝ)]
      refine stage_mono D _ _ hs1 (by omega) ht1 (by omega) a1.1 a1.2 b1.1 b1.2 ?_
      rcases lt_trichotomy s.second t.second with e | e | e
      · exact .inl e
      · refine .inr ⟨e, D.mono (div_le_div_of_nonneg_right ?_ (by norm_num))⟩
        exact_mod_cast (by omega : s.microsecond ≤ t.microsecond)
      · omega
    · omega
  · omega

/-- **C86.** A later instant never gets a smaller Julian date in double precision. -/
theorem juliandate_float_mono (D : Double M) {s t : DateTime} (hs : s.Valid) (ht : t.Valid) (hrs : Spec.Representable (Spec.instant s))
    (hrt : Spec.Representable (Spec.instant t)) (h : Spec.instant s ≤ Spec.instant t) :
    ∃ i j : Fl M, juliandate s = .ok i ∧ juliandate t = .ok j ∧ i.val ≤ j.val := by
  obtain ⟨v, hv, hvv, hv0, hvi⟩ := (ensureUtc_spec hs).1 hrs
  obtain ⟨w, hw, hwv, hw0, hwi⟩ := (ensureUtc_spec ht).1 hrt
  refine ⟨juliandateUtc v, juliandateUtc w, by simp only [juliandate, hv]; rfl, by simp only [juliandate, hw]; rfl, ?_⟩
  rw [juliandateUtc_fl D hvv, juliandateUtc_fl D hwv]
  refine D.mono ?_
  rw [← hvi, ← hwi, ← utc_wall hvv hv0, ← utc_wall hwv hw0] at h
  have tv := hvv.tod
  have tw := hwv.tod
  unfold DateTime.wall at h
  by_cases hd : toOrdinal v.year v.month v.day = toOrdinal w.year w.month w.day
  · have := (dayFraction_mono D hvv hwv (by omega)).1
    have e : jdInteger v = jdInteger w := by unfold jdInteger; rw [hd]
    rw [e]; linarith
  · have h1 := (dayFraction_mono D hvv hvv le_rfl).2.1
    have h2 := (dayFraction_mono D hwv hwv le_rfl).2.2
    have e : jdInteger v + 1 ≤ jdInteger w := by unfold jdInteger; omega
    have e' : (jdInteger v : ℝ) + 1 ≤ jdInteger w := by exact_mod_cast e
    linarith

/-- **C86.** Two instants more than 104 microseconds apart (48 in this century) have different Julian dates in double precision, in the right order. -/
theorem juliandate_float_resolution (D : Double M) {s t : DateTime} (hs : s.Valid) (ht : t.Valid) (hrs : Spec.Representable (Spec.instant s))
    (hrt : Spec.Representable (Spec.instant t))
    (h : (Spec.instant t : ℝ) - Spec.instant s > 104 ∨ (Spec.instant t ≤ 65000000000000000 ∧ (Spec.instant t : ℝ) - Spec.instant s > 48)) :
    ∃ i j : Fl M, juliandate s = .ok i ∧ juliandate t = .ok j ∧ i.val < j.val := by
  obtain ⟨i, hi, ei⟩ := juliandate_float D hs hrs
  obtain ⟨j, hj, ej⟩ := juliandate_float D ht hrt
  refine ⟨i, j, hi, hj, ?_⟩
  have h1 := (abs_le.mp ei).2
  have h2 := (abs_le.mp ej).1
  have hu := D.u_le
  have hu0 := M.u_nonneg
  have r2 : (Spec.instant t : ℝ) < 3652059 * 86400000000 := by
    unfold Spec.Representable at hrt
    exact_mod_cast (by omega : Spec.instant t < 3652059 * 86400000000)
  have r0 : (0 : ℝ) ≤ Spec.instant s := by
    unfold Spec.Representable at hrs
    exact_mod_cast (by omega : 0 ≤ Spec.instant s)
  have r1 : (0 : ℝ) ≤ Spec.instant t := by
    unfold Spec.Representable at hrt
    exact_mod_cast (by omega : 0 ≤ Spec.instant t)
  rcases h with h | ⟨h, hd⟩
  · have k1 : 1.001 * M.u * (1721425.5 + (Spec.instant s : ℝ) / 86400000000) ≤ 1.001 * (1 / 2) ^ 53 * 5373485 := by
      gcongr; linarith
    have k2 : 1.001 * M.u * (1721425.5 + (Spec.instant t : ℝ) / 86400000000) ≤ 1.001 * (1 / 2) ^ 53 * 5373485 := by
      gcongr; linarith
    norm_num at k1 k2
    linarith
  · have h' : (Spec.instant t : ℝ) ≤ 65000000000000000 := by exact_mod_cast h
    have k1 : 1.001 * M.u * (1721425.5 + (Spec.instant s : ℝ) / 86400000000) ≤ 1.001 * (1 / 2) ^ 53 * 2473741 := by
      gcongr; linarith
    have k2 : 1.001 * M.u * (1721425.5 + (Spec.instant t : ℝ) / 86400000000) ≤ 1.001 * (1 / 2) ^ 53 * 2473741 := by
      gcongr; linarith
    norm_num at k1 k2
    linarith

/-- the hypotheses are met by IEEE arithmetic and a date given in Indian time -/
example : ∃ j : Fl binary64, juliandate exampleIst = .ok j ∧ |j.val - (1721425.5 + 738945)| ≤ 3e-10 := by
  have hr : Spec.Representable (Spec.instant exampleIst) := by rw [exampleIst_instant]; unfold Spec.Representable; norm_num
  obtain ⟨j, hj, e⟩ := juliandate_float binary64_double exampleIst_valid hr
  refine ⟨j, hj, ?_⟩
  rw [exampleIst_instant] at e
  have hu : binary64.u = (1 / 2) ^ 53 := rfl
  rw [hu] at e
  norm_num at e ⊢
  linarith

end
end Pymap3d
