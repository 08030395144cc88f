import Verif.Spec.Calendar
import Mathlib.Tactic
/-!
Facts about the calendar model: `toOrdinal`, `fromOrdinal`, field comparison.
-/
namespace Pymap3d
open Py

theorem isLeapYear_iff (y : ℤ) : isLeapYear y = true ↔ Spec.leap y := by
  unfold isLeapYear Spec.leap
  simp only [Bool.and_eq_true, Bool.or_eq_true, beq_iff_eq, bne_iff_ne, ne_eq]
  omega

theorem isLeapYear_eq (y : ℤ) : isLeapYear y = decide (Spec.leap y) := by
  by_cases h : Spec.leap y
  · rw [(isLeapYear_iff y).2 h]; simp [h]
  · have : isLeapYear y = false := by
      rw [← Bool.not_eq_true]; intro h'; exact h ((isLeapYear_iff y).1 h')
    rw [this]; simp [h]

theorem daysInMonth_eq (y m : ℤ) : daysInMonth y m = Spec.monthDays y m := by
  unfold daysInMonth Spec.monthDays
  rw [isLeapYear_eq]; simp

theorem daysBeforeYear_succ (y : ℤ) : daysBeforeYear (y + 1) = daysBeforeYear y + Spec.yearDays y := by
  unfold daysBeforeYear Spec.yearDays Spec.leap
  split_ifs with h <;> omega

theorem daysBeforeYear_sum (y : ℤ) (hy : 1 ≤ y) :
    daysBeforeYear y = ∑ k ∈ Finset.range (y - 1).toNat, Spec.yearDays (k + 1) := by
  obtain ⟨n, rfl⟩ : ∃ n : ℕ, y = n + 1 := ⟨(y - 1).toNat, by omega⟩
  have : ((n : ℤ) + 1 - 1).toNat = n := by omega
  rw [this]
  clear this hy
  induction n with
  | zero => simp [daysBeforeYear]
  | succ n ih =>
    rw [Finset.sum_range_succ, ← ih]
    push_cast
    exact daysBeforeYear_succ _

theorem daysBeforeYear_mono {y y' : ℤ} (h : y ≤ y') : daysBeforeYear y ≤ daysBeforeYear y' := by
  induction y', h using Int.leInduction with
  | base => exact le_refl _
  | succ n hn ih =>
    rw [daysBeforeYear_succ]
    unfold Spec.yearDays
    split_ifs <;> omega

theorem daysBeforeMonth_sum (y m : ℤ) (h1 : 1 ≤ m) (h2 : m ≤ 12) :
    daysBeforeMonth y m = ∑ j ∈ Finset.range (m - 1).toNat, Spec.monthDays y (j + 1) := by
  unfold daysBeforeMonth Spec.monthDays
  rw [isLeapYear_eq]
  by_cases hl : Spec.leap y
  · simp only [hl, if_true, decide_true, and_true]
    interval_cases m <;> decide
  · simp only [hl, if_false, decide_false, Bool.false_eq_true, and_false]
    interval_cases m <;> decide

theorem toOrdinal_eq (y m d : ℤ) (hy : 1 ≤ y) (h1 : 1 ≤ m) (h2 : m ≤ 12) :
    toOrdinal y m d = Spec.daysBefore y m d + 1 := by
  unfold toOrdinal Spec.daysBefore
  rw [daysBeforeYear_sum y hy, daysBeforeMonth_sum y m h1 h2]
  ring

/-- months of a year come one after the other and end with the year -/
theorem daysBeforeMonth_lt (y m m' : ℤ) (h1 : 1 ≤ m) (h : m < m') (h2 : m' ≤ 12) :
    daysBeforeMonth y m + daysInMonth y m ≤ daysBeforeMonth y m' := by
  unfold daysBeforeMonth daysInMonth
  cases isLeapYear y
  · have h3 : m ≤ 11 := by omega
    have h4 : 2 ≤ m' := by omega
    interval_cases m <;> interval_cases m' <;> simp_all [daysBeforeMonthTable]
  · have h3 : m ≤ 11 := by omega
    have h4 : 2 ≤ m' := by omega
    interval_cases m <;> interval_cases m' <;> simp_all [daysBeforeMonthTable]

theorem daysBeforeMonth_last (y m : ℤ) (h1 : 1 ≤ m) (h2 : m ≤ 12) :
    daysBeforeMonth y m + daysInMonth y m ≤ Spec.yearDays y := by
  unfold daysBeforeMonth daysInMonth Spec.yearDays
  rw [isLeapYear_eq]
  by_cases hl : Spec.leap y
  · interval_cases m <;> norm_num [daysBeforeMonthTable, hl]
  · interval_cases m <;> norm_num [daysBeforeMonthTable, hl]

theorem daysBeforeMonth_nonneg (y m : ℤ) (h1 : 1 ≤ m) (h2 : m ≤ 12) : 0 ≤ daysBeforeMonth y m := by
  unfold daysBeforeMonth
  cases isLeapYear y <;> interval_cases m <;> norm_num [daysBeforeMonthTable]

theorem DateTime.Valid.ord_year {t : DateTime} (h : t.Valid) :
    daysBeforeYear t.year < toOrdinal t.year t.month t.day ∧
      toOrdinal t.year t.month t.day ≤ daysBeforeYear (t.year + 1) := by
  have h1 := daysBeforeMonth_nonneg t.year t.month h.month1 h.month2
  have h2 := daysBeforeMonth_last t.year t.month h.month1 h.month2
  have h3 := h.day1
  have h4 := h.day2
  rw [daysBeforeYear_succ]
  unfold toOrdinal
  omega

theorem DateTime.Valid.tod {t : DateTime} (h : t.Valid) : 0 ≤ t.timeOfDay ∧ t.timeOfDay < 86400000000 := by
  have := h.hour1; have := h.hour2; have := h.minute1; have := h.minute2
  have := h.second1; have := h.second2; have := h.micro1; have := h.micro2
  unfold DateTime.timeOfDay
  omega

/-- wall-clock position of a datetime on the time line of its own zone -/
def DateTime.wall (t : DateTime) : ℤ := (toOrdinal t.year t.month t.day - 1) * 86400000000 + t.timeOfDay

theorem DateTime.Valid.wall_eq {t : DateTime} (h : t.Valid) :
    t.wall = Spec.instant t + t.utcoffset.getD 0 := by
  unfold DateTime.wall Spec.instant DateTime.timeOfDay
  rw [toOrdinal_eq _ _ _ h.year1 h.month1 h.month2]
  ring

theorem DateTime.Valid.wall_range {t : DateTime} (h : t.Valid) : Spec.Representable t.wall := by
  have h1 := h.ord_year
  have h2 := h.tod
  have h3 : daysBeforeYear 1 ≤ daysBeforeYear t.year := daysBeforeYear_mono h.year1
  have h4 : daysBeforeYear (t.year + 1) ≤ daysBeforeYear 10000 := daysBeforeYear_mono (by have := h.year2; omega)
  have h5 : daysBeforeYear 1 = 0 := by decide
  have h6 : daysBeforeYear 10000 = 3652059 := by decide
  unfold Spec.Representable DateTime.wall
  constructor <;> omega

/-- lexicographic comparison of fields is comparison of wall-clock positions -/
theorem fieldsGe_iff {a b : DateTime} (ha : a.Valid) (hb : b.Valid) :
    a.fieldsGe b = true ↔ b.wall ≤ a.wall := by
  have hat := ha.tod
  have hbt := hb.tod
  unfold DateTime.fieldsGe DateTime.wall
  by_cases hy : a.year = b.year
  · by_cases hm : a.month = b.month
    · have hO : toOrdinal a.year a.month a.day - a.day = toOrdinal b.year b.month b.day - b.day := by
        unfold toOrdinal; rw [hy, hm]; ring
      by_cases hd : a.day = b.day
      · rw [if_neg (by simpa using hy), if_neg (by simpa using hm), if_neg (by simpa using hd)]
        have hO' : toOrdinal a.year a.month a.day = toOrdinal b.year b.month b.day := by omega
        rw [hO']
        unfold DateTime.timeOfDay
        have := ha.hour1; have := ha.hour2; have := ha.minute1; have := ha.minute2
        have := ha.second1; have := ha.second2; have := ha.micro1; have := ha.micro2
        have := hb.hour1; have := hb.hour2; have := hb.minute1; have := hb.minute2
        have := hb.second1; have := hb.second2; have := hb.micro1; have := hb.micro2
        split_ifs <;> simp only [decide_eq_true_eq] <;> omega
      · rw [if_neg (by simpa using hy), if_neg (by simpa using hm), if_pos (by simpa using hd)]
        simp only [decide_eq_true_eq]
        omega
    · rw [if_neg (by simpa using hy), if_pos (by simpa using hm)]
      have key : ∀ {s t : DateTime}, s.Valid → t.Valid → s.year = t.year → s.month < t.month →
          toOrdinal s.year s.month s.day < toOrdinal t.year t.month t.day := by
        intro s t hs ht hy hm
        have h1 := daysBeforeMonth_lt s.year s.month t.month hs.month1 hm ht.month2
        have := hs.day2; have := ht.day1
        unfold toOrdinal
        rw [← hy]; omega
      simp only [decide_eq_true_eq]
      rcases lt_or_gt_of_ne hm with h | h
      · have := key ha hb hy h
        omega
      · have := key hb ha hy.symm h
        omega
  · rw [if_pos (by simpa using hy)]
    have key : ∀ {s t : DateTime}, s.Valid → t.Valid → s.year < t.year →
        toOrdinal s.year s.month s.day < toOrdinal t.year t.month t.day := by
      intro s t hs ht hy
      have h1 := hs.ord_year.2
      have h2 := ht.ord_year.1
      have h3 : daysBeforeYear (s.year + 1) ≤ daysBeforeYear t.year := daysBeforeYear_mono (by omega)
      omega
    simp only [decide_eq_true_eq]
    rcases lt_or_gt_of_ne hy with h | h
    · have := key ha hb h
      omega
    · have := key hb ha h
      omega

/-! ### `fromOrdinal` inverts `toOrdinal` -/

set_option maxRecDepth 100000 in
theorem monthOfYearDay_nat (leapyear : Bool) (n : Fin 366) (h : leapyear = true ∨ n.1 < 365) :
    1 ≤ (monthOfYearDay leapyear n.1).1 ∧ (monthOfYearDay leapyear n.1).1 ≤ 12 ∧
    1 ≤ (monthOfYearDay leapyear n.1).2 ∧
    (monthOfYearDay leapyear n.1).2 ≤ daysInMonth (if leapyear then 4 else 1) (monthOfYearDay leapyear n.1).1 ∧
    daysBeforeMonth (if leapyear then 4 else 1) (monthOfYearDay leapyear n.1).1 + (monthOfYearDay leapyear n.1).2
      = n.1 + 1 := by
  cases leapyear
  · revert n; decide
  · revert n; decide

theorem monthOfYearDay_spec (y n : ℤ) (h0 : 0 ≤ n) (h1 : n < Spec.yearDays y) :
    1 ≤ (monthOfYearDay (isLeapYear y) n).1 ∧ (monthOfYearDay (isLeapYear y) n).1 ≤ 12 ∧
    1 ≤ (monthOfYearDay (isLeapYear y) n).2 ∧
    (monthOfYearDay (isLeapYear y) n).2 ≤ daysInMonth y (monthOfYearDay (isLeapYear y) n).1 ∧
    daysBeforeMonth y (monthOfYearDay (isLeapYear y) n).1 + (monthOfYearDay (isLeapYear y) n).2 = n + 1 := by
  have hlt : n < 366 := by unfold Spec.yearDays at h1; split_ifs at h1 <;> omega
  obtain ⟨k, rfl⟩ : ∃ k : ℕ, n = k := ⟨n.toNat, by omega⟩
  have hk : k < 366 := by omega
  have h := monthOfYearDay_nat (isLeapYear y) ⟨k, hk⟩ (by
    by_cases hl : Spec.leap y
    · left; exact (isLeapYear_iff y).2 hl
    · right; rw [Spec.yearDays, if_neg hl] at h1; simp only; omega)
  have e : isLeapYear (if isLeapYear y then 4 else 1) = isLeapYear y := by
    cases isLeapYear y <;> rfl
  simpa only [daysInMonth, daysBeforeMonth, e] using h

theorem daysBeforeYear_parts (q400 q100 q4 q1 : ℤ) (h100 : 0 ≤ q100 ∧ q100 ≤ 3) (h4 : 0 ≤ q4 ∧ q4 ≤ 24)
    (h1 : 0 ≤ q1 ∧ q1 ≤ 3) :
    daysBeforeYear (q400 * 400 + 1 + (q100 * 100 + q4 * 4 + q1))
      = q400 * 146097 + q100 * 36524 + q4 * 1461 + q1 * 365 := by
  unfold daysBeforeYear
  have e1 : (q400 * 400 + 1 + (q100 * 100 + q4 * 4 + q1) - 1) / 4 = q400 * 100 + q100 * 25 + q4 := by omega
  have e2 : (q400 * 400 + 1 + (q100 * 100 + q4 * 4 + q1) - 1) / 100 = q400 * 4 + q100 := by omega
  have e3 : (q400 * 400 + 1 + (q100 * 100 + q4 * 4 + q1) - 1) / 400 = q400 := by omega
  rw [e1, e2, e3]; ring

theorem fromOrdinal_spec (n : ℤ) (h0 : 0 < n) (h1 : n ≤ 3652059) :
    1 ≤ (fromOrdinal n).1 ∧ (fromOrdinal n).1 ≤ 9999 ∧
    1 ≤ (fromOrdinal n).2.1 ∧ (fromOrdinal n).2.1 ≤ 12 ∧
    1 ≤ (fromOrdinal n).2.2 ∧ (fromOrdinal n).2.2 ≤ daysInMonth (fromOrdinal n).1 (fromOrdinal n).2.1 ∧
    toOrdinal (fromOrdinal n).1 (fromOrdinal n).2.1 (fromOrdinal n).2.2 = n := by
  simp only [fromOrdinal]
  obtain ⟨q400, hq400⟩ : ∃ q, q = (n - 1) / 146097 := ⟨_, rfl⟩
  obtain ⟨r400, hr400⟩ : ∃ q, q = (n - 1) % 146097 := ⟨_, rfl⟩
  rw [← hq400, ← hr400]
  obtain ⟨q100, hq100⟩ : ∃ q, q = r400 / 36524 := ⟨_, rfl⟩
  obtain ⟨r100, hr100⟩ : ∃ q, q = r400 % 36524 := ⟨_, rfl⟩
  rw [← hq100, ← hr100]
  obtain ⟨q4, hq4⟩ : ∃ q, q = r100 / 1461 := ⟨_, rfl⟩
  obtain ⟨r4, hr4⟩ : ∃ q, q = r100 % 1461 := ⟨_, rfl⟩
  rw [← hq4, ← hr4]
  obtain ⟨q1, hq1⟩ : ∃ q, q = r4 / 365 := ⟨_, rfl⟩
  obtain ⟨r1, hr1⟩ : ∃ q, q = r4 % 365 := ⟨_, rfl⟩
  rw [← hq1, ← hr1]
  have b400 : 0 ≤ q400 ∧ q400 ≤ 24 := by omega
  have b100 : 0 ≤ q100 ∧ q100 ≤ 4 := by omega
  have b4 : 0 ≤ q4 ∧ q4 ≤ 24 := by omega
  have b1 : 0 ≤ q1 ∧ q1 ≤ 4 := by omega
  have c100 : q100 = 4 → r100 = 0 := by omega
  have c4 : q1 = 4 → r1 = 0 := by omega
  have cc : q4 = 24 → q100 ≤ 3 → r4 < 1461 := by omega
  have eN : n - 1 = q400 * 146097 + q100 * 36524 + q4 * 1461 + q1 * 365 + r1 := by omega
  by_cases hs : q1 = 4 ∨ q100 = 4
  · rw [if_pos hs]
    have hY : (q400 * 400 + 1 + (q100 * 100 + q4 * 4 + q1) - 1) % 4 = 0 := by
      rcases hs with h | h
      · omega
      · have := c100 h; omega
    have hl : Spec.leap (q400 * 400 + 1 + (q100 * 100 + q4 * 4 + q1) - 1) := by
      unfold Spec.leap
      rcases hs with h | h
      · -- the last day of a four-year cycle: not the 25th cycle of a century unless the century is the fourth
        have : q4 ≠ 24 ∨ q100 = 3 ∨ q100 = 4 := by omega
        by_cases h24 : q4 = 24
        · have : q100 = 3 := by
            have := c100
            omega
          omega
        · omega
      · have := c100 h; omega
    have hleap : isLeapYear (q400 * 400 + 1 + (q100 * 100 + q4 * 4 + q1) - 1) = true := (isLeapYear_iff _).2 hl
    refine ⟨?_, ?_, by norm_num, by norm_num, by norm_num, by simp [daysInMonth], ?_⟩
    · rcases hs with h | h <;> omega
    · rcases hs with h | h
      · omega
      · have := c100 h; omega
    · unfold toOrdinal daysBeforeMonth
      rw [hleap]
      by_cases h4 : q100 = 4
      · have h5 := c100 h4
        have hq4 : q4 = 0 := by omega
        have hq1 : q1 = 0 := by omega
        have hY' : q400 * 400 + 1 + (q100 * 100 + q4 * 4 + q1) - 1 = q400 * 400 + 1 + (3 * 100 + 24 * 4 + 3) := by
          omega
        rw [hY', daysBeforeYear_parts _ _ _ _ (by norm_num) (by norm_num) (by norm_num)]
        norm_num [daysBeforeMonthTable]
        omega
      · have h1 : q1 = 4 := by omega
        have h5 := c4 h1
        have hY' : q400 * 400 + 1 + (q100 * 100 + q4 * 4 + q1) - 1 = q400 * 400 + 1 + (q100 * 100 + q4 * 4 + 3) := by
          omega
        rw [hY', daysBeforeYear_parts _ _ _ _ (by omega) (by omega) (by norm_num)]
        norm_num [daysBeforeMonthTable]
        omega
  · rw [if_neg hs]
    push Not at hs
    have hq1 : q1 ≤ 3 := by omega
    have hq100 : q100 ≤ 3 := by omega
    have hr1 : 0 ≤ r1 ∧ r1 < 365 := by omega
    have hleap : (q1 == 3 && (q4 != 24 || q100 == 3)) = isLeapYear (q400 * 400 + 1 + (q100 * 100 + q4 * 4 + q1)) := by
      rw [isLeapYear_eq, Bool.eq_iff_iff]
      simp only [Bool.and_eq_true, Bool.or_eq_true, beq_iff_eq, bne_iff_ne, ne_eq, decide_eq_true_eq]
      unfold Spec.leap
      omega
    rw [hleap]
    have hyd : r1 < Spec.yearDays (q400 * 400 + 1 + (q100 * 100 + q4 * 4 + q1)) := by
      unfold Spec.yearDays; split_ifs <;> omega
    have h := monthOfYearDay_spec (q400 * 400 + 1 + (q100 * 100 + q4 * 4 + q1)) r1 hr1.1 hyd
    refine ⟨by omega, ?_, h.1, h.2.1, h.2.2.1, h.2.2.2.1, ?_⟩
    · omega
    · unfold toOrdinal
      have h5 := h.2.2.2.2
      dsimp only
      rw [daysBeforeYear_parts _ _ _ _ (by omega) (by omega) (by omega)]
      omega

/-- `datetime + timedelta`: the result is a valid datetime, shifted on the time line, same zone. -/
theorem addMicros_spec {t : DateTime} (ht : t.Valid) (us : ℤ) :
    (Spec.Representable (t.wall + us) →
      ∃ u, t.addMicros us = .ok u ∧ u.Valid ∧ u.wall = t.wall + us ∧ u.utcoffset = t.utcoffset) ∧
    (¬ Spec.Representable (t.wall + us) →
      t.addMicros us = .error (.overflowError "date value out of range")) := by
  have hw : t.wall + us = (toOrdinal t.year t.month t.day + (t.timeOfDay + us) / 86400000000 - 1) * 86400000000
      + (t.timeOfDay + us) % 86400000000 := by
    unfold DateTime.wall; omega
  simp only [DateTime.addMicros, Spec.Representable]
  obtain ⟨T, hT⟩ : ∃ T, T = t.timeOfDay + us := ⟨_, rfl⟩
  rw [hw, ← hT]
  have hr : 0 ≤ T % 86400000000 ∧ T % 86400000000 < 86400000000 := by omega
  obtain ⟨r, er⟩ : ∃ r, r = T % 86400000000 := ⟨_, rfl⟩
  obtain ⟨O, eO⟩ : ∃ O, O = toOrdinal t.year t.month t.day + T / 86400000000 := ⟨_, rfl⟩
  rw [← er, ← eO]
  rw [← er] at hr
  constructor
  · rintro ⟨h0, h1⟩
    have hO : 0 < O ∧ O ≤ 3652059 := by constructor <;> omega
    rw [if_pos hO]
    obtain ⟨f1, f2, f3, f4, f5, f6, f7⟩ := fromOrdinal_spec O hO.1 hO.2
    refine ⟨_, rfl, ⟨f1, f2, f3, f4, f5, f6, ?_, ?_, ?_, ?_, ?_, ?_, ?_, ?_, ht.offset⟩, ?_, rfl⟩
    · show 0 ≤ r / 3600000000; omega
    · show r / 3600000000 < 24; omega
    · show 0 ≤ r / 60000000 % 60; omega
    · show r / 60000000 % 60 < 60; omega
    · show 0 ≤ r / 1000000 % 60; omega
    · show r / 1000000 % 60 < 60; omega
    · show 0 ≤ r % 1000000; omega
    · show r % 1000000 < 1000000; omega
    · unfold DateTime.wall DateTime.timeOfDay
      simp only [f7]
      omega
  · intro h
    have hO : ¬ (0 < O ∧ O ≤ 3652059) := by
      rintro ⟨h1, h2⟩
      apply h; constructor <;> omega
    rw [if_neg hO]

end Pymap3d
