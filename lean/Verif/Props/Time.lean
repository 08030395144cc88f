import Verif.Lemmas.CalendarLemmas
import Verif.Model.EarthOrientation
import Verif.Py.Real
import Verif.Lemmas.Trig
/-!
# C47, C48, C54: Julian date, leap seconds, time normalisation
-/
set_option linter.unusedSectionVars false
namespace Pymap3d
open Py

/-! ## C54: only the instant matters -/

/-- Converting to UTC keeps the instant; it fails (with `OverflowError`) exactly when the instant
lies outside the years 1..9999 in UTC. -/
theorem ensureUtc_spec {t : DateTime} (ht : t.Valid) :
    (Spec.Representable (Spec.instant t) →
      ∃ u, ensureUtc t = .ok u ∧ u.Valid ∧ u.utcoffset = some 0 ∧ Spec.instant u = Spec.instant t) ∧
    (¬ Spec.Representable (Spec.instant t) →
      ensureUtc t = .error (.overflowError "date value out of range")) := by
  have hw := ht.wall_eq
  unfold ensureUtc
  cases ho : t.utcoffset with
  | none =>
    simp only
    have hv : ({ t with utcoffset := some 0 } : DateTime).Valid :=
      { ht with offset := by intro o h; simp only [Option.some.injEq] at h; subst h; norm_num }
    refine ⟨fun _ => ⟨_, rfl, hv, rfl, ?_⟩, fun hn => ?_⟩
    · unfold Spec.instant; simp [ho]
    · exfalso; apply hn
      have := ht.wall_range
      rw [hw, ho] at this
      simpa using this
  | some off =>
    simp only [DateTime.astimezoneUtc]
    rw [ho] at hw
    have e : t.wall + -off = Spec.instant t := by rw [hw]; simp
    obtain ⟨h1, h2⟩ := addMicros_spec ht (-off)
    rw [e] at h1 h2
    refine ⟨fun hr => ?_, fun hr => ?_⟩
    · obtain ⟨u, hu, huv, huw, -⟩ := h1 hr
      rw [hu]
      have hv : ({ u with utcoffset := some 0 } : DateTime).Valid :=
        { huv with offset := by intro o h; simp only [Option.some.injEq] at h; subst h; norm_num }
      refine ⟨_, rfl, hv, rfl, ?_⟩
      have := hv.wall_eq
      simp only [Option.getD_some, add_zero] at this
      rw [← this, ← huw]
      rfl
    · rw [h2 hr]

/-- a datetime with UTC attached is determined by its instant -/
theorem utc_wall {u : DateTime} (hu : u.Valid) (h0 : u.utcoffset = some 0) : u.wall = Spec.instant u := by
  have := hu.wall_eq
  rw [h0] at this
  simpa using this

/-! ## C47: Julian date -/

theorem truncR_div (a b : ℤ) (ha : 0 ≤ a) (hb : 0 < b) : PyReal.truncR ((a : ℝ) / b) = a / b := by
  have hb' : (0 : ℝ) < b := by exact_mod_cast hb
  have ha' : (0 : ℝ) ≤ a := by exact_mod_cast ha
  unfold PyReal.truncR
  rw [if_pos (by positivity), Int.floor_eq_iff]
  have h1 : b * (a / b) + a % b = a := Int.mul_ediv_add_emod a b
  have h2 := Int.emod_nonneg a hb.ne'
  have h3 := Int.emod_lt_of_pos a hb
  constructor
  · rw [le_div_iff₀ hb']
    have : a / b * b ≤ a := by nlinarith
    exact_mod_cast this
  · rw [div_lt_iff₀ hb']
    have : a < (a / b + 1) * b := by nlinarith
    exact_mod_cast this

theorem truncR_month (m : ℤ) (h1 : 3 ≤ m) (h2 : m ≤ 14) :
    PyReal.truncR ((30.6001 : ℝ) * ((m + 1 : ℤ) : ℝ)) = (306001 * (m + 1)) / 10000 := by
  have : (30.6001 : ℝ) * ((m + 1 : ℤ) : ℝ) = ((306001 * (m + 1) : ℤ) : ℝ) / ((10000 : ℤ) : ℝ) := by
    push_cast; ring
  rw [this, truncR_div _ _ (by omega) (by norm_num)]

theorem meeus_integer (y m d : ℤ) (h1 : 1 ≤ m) (h2 : m ≤ 12) :
    (1461 * ((if m < 3 then y - 1 else y) + 4716)) / 4 + 306001 * ((if m < 3 then m + 12 else m) + 1) / 10000 + d
      + (2 - (if m < 3 then y - 1 else y) / 100 + (if m < 3 then y - 1 else y) / 100 / 4)
      = toOrdinal y m d + 1722949 := by
  have e : ∀ k : ℤ, k / 100 / 4 = k / 400 := by intro k; omega
  have e2 : ∀ k : ℤ, 1461 * (k + 4716) / 4 = 365 * k + k / 4 + 1722519 := by intro k; omega
  rw [e, e2]
  by_cases hm : m < 3
  · simp only [if_pos hm]
    have : toOrdinal y m d = (y - 1) * 365 + (y - 1) / 4 - (y - 1) / 100 + (y - 1) / 400 + daysBeforeMonthTable m + d := by
      unfold toOrdinal daysBeforeYear daysBeforeMonth
      rw [if_neg (by omega)]; ring
    rw [this]
    have h3 : m = 1 ∨ m = 2 := by omega
    rcases h3 with h3 | h3 <;> subst h3 <;> norm_num [daysBeforeMonthTable] <;> ring
  · simp only [if_neg hm]
    have hs := daysBeforeYear_succ y
    have hs' : daysBeforeYear (y + 1) = 365 * y + y / 4 - y / 100 + y / 400 := by
      unfold daysBeforeYear
      rw [add_sub_cancel_right]; ring
    have : toOrdinal y m d = 365 * y + y / 4 - y / 100 + y / 400 - 365 + daysBeforeMonthTable m + d := by
      unfold toOrdinal daysBeforeMonth
      rw [isLeapYear_eq]
      unfold Spec.yearDays at hs
      by_cases hl : Spec.leap y
      · rw [if_pos hl] at hs
        rw [if_pos ⟨by omega, by simp [hl]⟩]; omega
      · rw [if_neg hl] at hs
        rw [if_neg (by simp [hl])]; omega
    rw [this]
    have h3 : 3 ≤ m := by omega
    clear hs hs' this hm
    interval_cases m <;> norm_num [daysBeforeMonthTable] <;> ring

/-- the Julian date of a UTC datetime, as a function of its position on the time line -/
theorem juliandateUtc_eq {u : DateTime} (hu : u.Valid) :
    (juliandateUtc u : ℝ) = 1721425.5 + (u.wall : ℝ) / 86400000000 := by
  have hm := meeus_integer u.year u.month u.day hu.month1 hu.month2
  simp only [juliandateUtc, dayFraction, py_trunc, py_ofInt]
  obtain ⟨Y, hY⟩ : ∃ Y, Y = (if u.month < 3 then u.year - 1 else u.year) := ⟨_, rfl⟩
  obtain ⟨M, hM⟩ : ∃ M, M = (if u.month < 3 then u.month + 12 else u.month) := ⟨_, rfl⟩
  rw [← hY, ← hM] at hm ⊢
  have hY0 : 0 ≤ Y := by rw [hY]; have := hu.year1; split_ifs <;> omega
  have hM1 : 3 ≤ M ∧ M ≤ 14 := by
    rw [hM]; have := hu.month1; have := hu.month2; split_ifs <;> omega
  have t1 : PyReal.truncR ((Y : ℝ) / 100.0) = Y / 100 := by
    have := truncR_div Y 100 hY0 (by norm_num)
    rw [← this]; norm_num
  have t2 : PyReal.truncR (((Y / 100 : ℤ) : ℝ) / 4.0) = Y / 100 / 4 := by
    have := truncR_div (Y / 100) 4 (by omega) (by norm_num)
    rw [← this]; norm_num
  have t3 : PyReal.truncR ((365.25 : ℝ) * ((Y + 4716 : ℤ) : ℝ)) = (1461 * (Y + 4716)) / 4 := by
    have := truncR_div (1461 * (Y + 4716)) 4 (by omega) (by norm_num)
    rw [← this]; congr 1; push_cast; ring
  have t4 := truncR_month M hM1.1 hM1.2
  rw [t1, t2, t3, t4, hm]
  unfold DateTime.wall DateTime.timeOfDay
  push_cast
  norm_num
  ring

/-- **C47.** `juliandate` of any datetime is the exact day count: 1721425.5 (the Julian date of
0001-01-01 00:00 UTC) plus the days, with fraction, elapsed since. -/
theorem juliandate_exact {t : DateTime} (ht : t.Valid) (hr : Spec.Representable (Spec.instant t)) :
    (juliandate t : Except PyErr ℝ) = .ok ((1721425.5 : ℝ) + (Spec.instant t : ℝ) / 86400000000) := by
  obtain ⟨u, hu, huv, hu0, hui⟩ := (ensureUtc_spec ht).1 hr
  simp only [juliandate, hu]
  show Except.ok (juliandateUtc u) = _
  rw [juliandateUtc_eq huv, utc_wall huv hu0, hui]

/-- J2000 -/
theorem juliandate_j2000 :
    (juliandate { year := 2000, month := 1, day := 1, hour := 12 } : Except PyErr ℝ) = .ok 2451545.0 := by
  have hv : DateTime.Valid { year := 2000, month := 1, day := 1, hour := 12 } := by
    constructor <;> simp [daysInMonth]
  have hw := hv.wall_eq
  have e : DateTime.wall { year := 2000, month := 1, day := 1, hour := 12 } = 730119 * 86400000000 + 43200000000 := by
    decide
  simp only [Option.getD_none, add_zero] at hw
  have hr : Spec.Representable (Spec.instant { year := 2000, month := 1, day := 1, hour := 12 }) := by
    rw [← hw, e]; unfold Spec.Representable; norm_num
  rw [juliandate_exact hv hr, ← hw, e]
  norm_num

/-- the whole range of `datetime` is covered: a naive (or UTC) datetime always has a Julian date -/
theorem juliandate_total {t : DateTime} (ht : t.Valid) (h0 : t.utcoffset = none ∨ t.utcoffset = some 0) :
    ∃ jd : ℝ, juliandate t = .ok jd := by
  have hr : Spec.Representable (Spec.instant t) := by
    have h1 := ht.wall_eq
    have h2 := ht.wall_range
    rcases h0 with h | h <;> rw [h] at h1 <;> simp only [Option.getD_none, Option.getD_some, add_zero] at h1 <;>
      rwa [h1] at h2
  exact ⟨_, juliandate_exact ht hr⟩

/-- strictly increasing in the instant, and equal only for equal instants -/
theorem juliandate_lt_iff {s t : DateTime} (hs : s.Valid) (ht : t.Valid) {js jt : ℝ}
    (h1 : juliandate s = .ok js) (h2 : juliandate t = .ok jt) :
    (js < jt ↔ Spec.instant s < Spec.instant t) ∧ (js = jt ↔ Spec.instant s = Spec.instant t) := by
  have rep : ∀ {u : DateTime} {j : ℝ}, u.Valid → juliandate u = .ok j → Spec.Representable (Spec.instant u) := by
    intro u j hu h
    by_contra hn
    have := (ensureUtc_spec hu).2 hn
    simp only [juliandate, this] at h
    cases h
  have e1 := juliandate_exact hs (rep hs h1)
  have e2 := juliandate_exact ht (rep ht h2)
  rw [h1] at e1; rw [h2] at e2
  injection e1 with e1; injection e2 with e2
  subst e1; subst e2
  constructor
  · constructor
    · intro h
      have : (Spec.instant s : ℝ) < Spec.instant t := by linarith
      exact_mod_cast this
    · intro h
      have : (Spec.instant s : ℝ) < Spec.instant t := by exact_mod_cast h
      linarith
  · constructor
    · intro h
      have : (Spec.instant s : ℝ) = Spec.instant t := by linarith
      exact_mod_cast this
    · intro h; rw [h]

/-- the same clock reading on consecutive calendar days is exactly 1 Julian day apart -/
theorem juliandate_nextDay {s t : DateTime} (hs : s.Valid) (ht : t.Valid) (hd : Spec.NextDay s t)
    (hc : (t.hour, t.minute, t.second, t.microsecond, t.utcoffset) = (s.hour, s.minute, s.second, s.microsecond, s.utcoffset))
    {js jt : ℝ} (h1 : juliandate s = .ok js) (h2 : juliandate t = .ok jt) : jt = js + 1 := by
  have rep : ∀ {u : DateTime} {j : ℝ}, u.Valid → juliandate u = .ok j → Spec.Representable (Spec.instant u) := by
    intro u j hu h
    by_contra hn
    have := (ensureUtc_spec hu).2 hn
    simp only [juliandate, this] at h
    cases h
  have e1 := juliandate_exact hs (rep hs h1)
  have e2 := juliandate_exact ht (rep ht h2)
  rw [h1] at e1; rw [h2] at e2
  injection e1 with e1; injection e2 with e2
  simp only [Prod.mk.injEq] at hc
  obtain ⟨c1, c2, c3, c4, c5⟩ := hc
  have hdays : Spec.daysBefore t.year t.month t.day = Spec.daysBefore s.year s.month s.day + 1 := by
    have q1 := toOrdinal_eq s.year s.month s.day hs.year1 hs.month1 hs.month2
    have q2 := toOrdinal_eq t.year t.month t.day ht.year1 ht.month1 ht.month2
    have : toOrdinal t.year t.month t.day = toOrdinal s.year s.month s.day + 1 := by
      rcases hd with ⟨a, b, c⟩ | ⟨a, b, c, d⟩ | ⟨a, b, c, d, e⟩
      · unfold toOrdinal; rw [a, b, c]; ring
      · unfold toOrdinal
        rw [a, b, c, d, daysBeforeMonth_sum _ _ (by have := hs.month1; omega) (by have := ht.month2; omega),
          daysBeforeMonth_sum _ _ hs.month1 hs.month2]
        have e : (s.month + 1 - 1).toNat = (s.month - 1).toNat + 1 := by have := hs.month1; omega
        rw [e, Finset.sum_range_succ]
        have e2 : (((s.month - 1).toNat : ℕ) : ℤ) + 1 = s.month := by have := hs.month1; omega
        rw [e2]; ring
      · unfold toOrdinal
        rw [a, b, c, d, e, daysBeforeYear_succ]
        unfold daysBeforeMonth Spec.yearDays
        simp only [isLeapYear_eq]
        by_cases hl : Spec.leap s.year
        · simp [hl, daysBeforeMonthTable]; ring
        · simp [hl, daysBeforeMonthTable]; ring
    omega
  have hi : Spec.instant t = Spec.instant s + 86400000000 := by
    unfold Spec.instant
    rw [hdays, c1, c2, c3, c4, c5]; ring
  rw [e2, e1, hi]
  push_cast
  ring

/-- non-vacuity: 2000-02-28 is followed by 2000-02-29, and that by 2000-03-01 (years divisible by 400
are leap years), with Julian dates one apart -/
example : Spec.NextDay { year := 2000, month := 2, day := 29 } { year := 2000, month := 3, day := 1 } ∧
    DateTime.Valid { year := 2000, month := 2, day := 29 } ∧ DateTime.Valid { year := 2000, month := 3, day := 1 } := by
  refine ⟨Or.inr (Or.inl ⟨rfl, rfl, by decide, rfl⟩), ?_, ?_⟩ <;> constructor <;> simp [daysInMonth, isLeapYear]

/-- non-vacuity: a datetime with UTC offset +05:30 -/
def exampleIst : DateTime := ⟨2024, 3, 1, 5, 30, 0, 0, some 19800000000⟩

theorem exampleIst_valid : exampleIst.Valid := by
  constructor <;> simp [exampleIst, daysInMonth]

theorem exampleIst_instant : Spec.instant exampleIst = 738945 * 86400000000 := by
  have hw := exampleIst_valid.wall_eq
  have e : exampleIst.wall = 738945 * 86400000000 + 19800000000 := by decide
  have e2 : exampleIst.utcoffset.getD 0 = 19800000000 := rfl
  rw [e, e2] at hw
  linarith

example : (juliandate exampleIst : Except PyErr ℝ) = .ok 2460370.5 := by
  rw [juliandate_exact exampleIst_valid (by rw [exampleIst_instant]; unfold Spec.Representable; norm_num),
    exampleIst_instant]
  norm_num

end Pymap3d
