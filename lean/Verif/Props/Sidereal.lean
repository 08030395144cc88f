import Verif.Props.Time2
import Verif.Spec.Geometry
/-!
# C49: sidereal time
-/
set_option linter.unusedSectionVars false
noncomputable section
namespace Pymap3d
open Py

/-- the two Julian dates used by every Earth-orientation function, as functions of the instant -/
def jdUt1 (i : ℤ) (delta_ut1 : ℝ) : ℝ := 1721425.5 + ((i + timedeltaSeconds delta_ut1 : ℤ) : ℝ) / 86400000000
/-- Julian date in TT -/
def jdTt (i : ℤ) : ℝ := 1721425.5 + ((i + Spec.taiMinusUtc i * 1000000 + 32184000 : ℤ) : ℝ) / 86400000000

/-- all intermediate times stay within years 1..9999 -/
def TimeOk (t : DateTime) (delta_ut1 : ℝ) : Prop :=
  t.Valid ∧ Spec.Representable (Spec.instant t) ∧
  Spec.Representable (Spec.instant t + timedeltaSeconds delta_ut1) ∧
  Spec.Representable (Spec.instant t + Spec.taiMinusUtc (Spec.instant t) * 1000000 + 32184000)

theorem jds_ok {t : DateTime} {d : ℝ} (h : TimeOk t d) :
    (∃ u, utcWithOffset t d = .ok u ∧ (juliandate u : Except PyErr ℝ) = .ok (jdUt1 (Spec.instant t) d)) ∧
    (∃ u, utcToTt ℝ t = .ok u ∧ (juliandate u : Except PyErr ℝ) = .ok (jdTt (Spec.instant t))) := by
  obtain ⟨hv, h1, h2, h3⟩ := h
  constructor
  · obtain ⟨u, hu, huv, -, hui⟩ := utcWithOffset_spec hv h1 d h2
    exact ⟨u, hu, by rw [juliandate_exact huv (hui ▸ h2), hui]; rfl⟩
  · obtain ⟨u, hu, huv, -, hui⟩ := utcToTt_exact hv h1 h3
    exact ⟨u, hu, by rw [juliandate_exact huv (hui ▸ h3), hui]; rfl⟩

theorem datetime2siderealVallado_ok {t : DateTime} {d : ℝ} (h : TimeOk t d) (fromiso) (lon : ℝ) :
    datetime2siderealVallado fromiso (.dt t) lon d =
      .ok (pymod (greenwichApparentSiderealTime (jdUt1 (Spec.instant t) d) (jdTt (Spec.instant t)) + lon) tau) := by
  obtain ⟨⟨u, hu, hju⟩, ⟨v, hv, hjv⟩⟩ := jds_ok h
  simp only [datetime2siderealVallado, str2dt]
  show (do let u1 ← utcWithOffset t d
           let jd_ut1 : ℝ ← juliandate u1
           let tt ← utcToTt ℝ t
           let jd_tt : ℝ ← juliandate tt
           return pymod (greenwichApparentSiderealTime jd_ut1 jd_tt + lon) tau) = _
  rw [hu, hv]
  show (do let jd_ut1 : ℝ ← juliandate u
           let jd_tt : ℝ ← juliandate v
           return pymod (greenwichApparentSiderealTime jd_ut1 jd_tt + lon) tau) = _
  rw [hju, hjv]
  rfl

theorem datetime2siderealVallado_form (fromiso) (t : TimeLike) (d : ℝ) :
    (∃ g : ℝ, ∀ lon : ℝ, datetime2siderealVallado fromiso t lon d = .ok (pymod (g + lon) tau)) ∨
    (∃ e, ∀ lon : ℝ, datetime2siderealVallado fromiso t lon d = .error e) := by
  cases h0 : str2dt fromiso t with
  | error e => exact Or.inr ⟨e, fun _ => by simp only [datetime2siderealVallado, h0]; rfl⟩
  | ok dt =>
    cases h1 : utcWithOffset dt d with
    | error e => exact Or.inr ⟨e, fun _ => by simp only [datetime2siderealVallado, h0, h1, bind, Except.bind]⟩
    | ok u =>
      cases h2 : (juliandate u : Except PyErr ℝ) with
      | error e => exact Or.inr ⟨e, fun _ => by simp only [datetime2siderealVallado, h0, h1, h2, bind, Except.bind]⟩
      | ok j =>
        cases h3 : utcToTt ℝ dt with
        | error e =>
          exact Or.inr ⟨e, fun _ => by simp only [datetime2siderealVallado, h0, h1, h2, h3, bind, Except.bind]⟩
        | ok v =>
          cases h4 : (juliandate v : Except PyErr ℝ) with
          | error e =>
            exact Or.inr ⟨e, fun _ => by simp only [datetime2siderealVallado, h0, h1, h2, h3, h4, bind, Except.bind]⟩
          | ok k =>
            exact Or.inl ⟨greenwichApparentSiderealTime j k, fun _ => by
              simp only [datetime2siderealVallado, h0, h1, h2, h3, h4, bind, Except.bind]; rfl⟩

/-- **C49.** Local sidereal time lies in [0, 2π) for every time, longitude and UT1 offset. -/
theorem datetime2sidereal_range (fromiso) (t : TimeLike) (lon d v : ℝ)
    (h : datetime2siderealVallado fromiso t lon d = .ok v) : 0 ≤ v ∧ v < 2 * Real.pi := by
  have hp := two_pi_pos'
  rcases datetime2siderealVallado_form fromiso t d with ⟨g, hg⟩ | ⟨e, he⟩
  · rw [hg lon] at h
    injection h with h; rw [← h]
    simp only [py_pymod, py_tau]
    exact ⟨pymod_nonneg _ hp, pymod_lt _ hp⟩
  · rw [he lon] at h; cases h

/-- **C49.** Going east by `δ` advances local sidereal time by `δ` (mod 2π), at the same instant; in
particular longitudes differing by whole turns give the same local sidereal time. -/
theorem datetime2sidereal_longitude (fromiso) (t : TimeLike) (lon δ d v w : ℝ)
    (h : datetime2siderealVallado fromiso t lon d = .ok v)
    (h' : datetime2siderealVallado fromiso t (lon + δ) d = .ok w) :
    (∃ k : ℤ, w = v + δ + 2 * Real.pi * k) ∧ ((∃ k : ℤ, δ = 2 * Real.pi * k) → w = v) := by
  have r1 := datetime2sidereal_range _ _ _ _ _ h
  have r2 := datetime2sidereal_range _ _ _ _ _ h'
  rcases datetime2siderealVallado_form fromiso t d with ⟨g, hg⟩ | ⟨e, he⟩
  · rw [hg lon] at h; rw [hg (lon + δ)] at h'
    injection h with h; injection h' with h'
    simp only [py_pymod, py_tau] at h h'
    have key : ∃ k : ℤ, w = v + δ + 2 * Real.pi * k := by
      refine ⟨⌊(g + lon) / (2 * Real.pi)⌋ - ⌊(g + (lon + δ)) / (2 * Real.pi)⌋, ?_⟩
      rw [← h, ← h']; push_cast; ring
    refine ⟨key, ?_⟩
    rintro ⟨k, hk⟩
    obtain ⟨m, hm⟩ := key
    refine eq_of_mem_of_int r2.1 r2.2 r1.1 r1.2 (m + k) ?_
    rw [hm, hk]; push_cast; ring
  · rw [he lon] at h; cases h

/-! ### lists, nested to any depth -/

/-- same nesting, leaves related one by one -/
inductive Nest.Rel {α β : Type} (R : α → β → Prop) : Nest α → Nest β → Prop
  | leaf {a b} : R a b → Nest.Rel R (.leaf a) (.leaf b)
  | nil : Nest.Rel R (.list []) (.list [])
  | cons {x y xs ys} : Nest.Rel R x y → Nest.Rel R (.list xs) (.list ys) → Nest.Rel R (.list (x :: xs)) (.list (y :: ys))

section anyF
variable {F : Type} [Add F] [Sub F] [Mul F] [Div F] [Neg F] [Pow F Nat] [OfScientific F] [LT F] [LE F]
  [DecidableLT F] [DecidableLE F] [PyMath F]

mutual
theorem datetime2sidereal_list_aux (fromiso) (lon d : F) (t : Nest TimeLike) (r : Nest F) :
    datetime2sidereal fromiso t lon d = .ok r →
      Nest.Rel (fun a b => datetime2siderealVallado fromiso a lon d = .ok b) t r := by
  intro h
  cases t with
  | leaf a =>
    simp only [datetime2sidereal] at h
    cases hv : datetime2siderealVallado fromiso a lon d with
    | error e => rw [hv] at h; cases h
    | ok v => rw [hv] at h; injection h with h; rw [← h]; exact .leaf hv
  | list l =>
    simp only [datetime2sidereal] at h
    cases hv : datetime2siderealList fromiso l lon d with
    | error e => rw [hv] at h; cases h
    | ok v =>
      rw [hv] at h; injection h with h; rw [← h]
      exact datetime2sidereal_list_aux2 fromiso lon d l v hv
theorem datetime2sidereal_list_aux2 (fromiso) (lon d : F) (l : List (Nest TimeLike)) (r : List (Nest F)) :
    datetime2siderealList fromiso l lon d = .ok r →
      Nest.Rel (fun a b => datetime2siderealVallado fromiso a lon d = .ok b) (.list l) (.list r) := by
  intro h
  cases l with
  | nil => simp only [datetime2siderealList] at h; injection h with h; rw [← h]; exact .nil
  | cons t ts =>
    simp only [datetime2siderealList] at h
    cases h1 : datetime2sidereal fromiso t lon d with
    | error e => rw [h1] at h; cases h
    | ok v =>
      cases h2 : datetime2siderealList fromiso ts lon d with
      | error e => rw [h1, h2] at h; cases h
      | ok vs =>
        rw [h1, h2] at h
        injection h with h; rw [← h]
        exact .cons (datetime2sidereal_list_aux fromiso lon d t v h1) (datetime2sidereal_list_aux2 fromiso lon d ts vs h2)
end

theorem datetime2sidereal_rel_ok (fromiso) (lon d : F) (t : Nest TimeLike) (r : Nest F)
    (h : Nest.Rel (fun a b => datetime2siderealVallado fromiso a lon d = .ok b) t r) :
    datetime2sidereal fromiso t lon d = .ok r := by
  induction h with
  | leaf h => simp only [datetime2sidereal, h]; rfl
  | nil => simp only [datetime2sidereal, datetime2siderealList]; rfl
  | @cons x y xs ys h1 h2 ih1 ih2 =>
    have e : datetime2siderealList fromiso xs lon d = .ok ys := by
      simp only [datetime2sidereal] at ih2
      cases hv : datetime2siderealList fromiso xs lon d with
      | error e => rw [hv] at ih2; cases ih2
      | ok v => rw [hv] at ih2; injection ih2 with ih2; injection ih2 with ih2; rw [ih2]
    simp only [datetime2sidereal, datetime2siderealList, ih1, e]; rfl

/-- **C49.** On lists/tuples of times, nested to any depth, `datetime2sidereal` acts leaf by leaf and
keeps the nesting: it returns `r` iff `r` has the same nesting and each leaf is the result at that
time. (So it raises iff some element raises.) -/
theorem datetime2sidereal_elementwise (fromiso) (lon d : F) (t : Nest TimeLike) (r : Nest F) :
    datetime2sidereal fromiso t lon d = .ok r ↔
      Nest.Rel (fun a b => datetime2siderealVallado fromiso a lon d = .ok b) t r :=
  ⟨datetime2sidereal_list_aux fromiso lon d t r, datetime2sidereal_rel_ok fromiso lon d t r⟩

mutual
theorem juliandate_list_aux (t : Nest DateTime) (r : Nest F) :
    juliandateNest t = .ok r → Nest.Rel (fun a b => juliandate a = .ok b) t r := by
  intro h
  cases t with
  | leaf a =>
    simp only [juliandateNest] at h
    cases hv : (juliandate a : Except PyErr F) with
    | error e => rw [hv] at h; cases h
    | ok v => rw [hv] at h; injection h with h; rw [← h]; exact .leaf hv
  | list l =>
    simp only [juliandateNest] at h
    cases hv : (juliandateList l : Except PyErr (List (Nest F))) with
    | error e => rw [hv] at h; cases h
    | ok v =>
      rw [hv] at h; injection h with h; rw [← h]
      exact juliandate_list_aux2 l v hv
theorem juliandate_list_aux2 (l : List (Nest DateTime)) (r : List (Nest F)) :
    juliandateList l = .ok r → Nest.Rel (fun a b => juliandate a = .ok b) (.list l) (.list r) := by
  intro h
  cases l with
  | nil => simp only [juliandateList] at h; injection h with h; rw [← h]; exact .nil
  | cons t ts =>
    simp only [juliandateList] at h
    cases h1 : (juliandateNest t : Except PyErr (Nest F)) with
    | error e => rw [h1] at h; cases h
    | ok v =>
      cases h2 : (juliandateList ts : Except PyErr (List (Nest F))) with
      | error e => rw [h1, h2] at h; cases h
      | ok vs =>
        rw [h1, h2] at h
        injection h with h; rw [← h]
        exact .cons (juliandate_list_aux t v h1) (juliandate_list_aux2 ts vs h2)
end

theorem juliandate_rel_ok (t : Nest DateTime) (r : Nest F)
    (h : Nest.Rel (fun a b => juliandate a = .ok b) t r) : juliandateNest t = .ok r := by
  induction h with
  | leaf h => simp only [juliandateNest, h]; rfl
  | nil => simp only [juliandateNest, juliandateList]; rfl
  | @cons x y xs ys h1 h2 ih1 ih2 =>
    have e : (juliandateList xs : Except PyErr (List (Nest F))) = .ok ys := by
      simp only [juliandateNest] at ih2
      cases hv : (juliandateList xs : Except PyErr (List (Nest F))) with
      | error e => rw [hv] at ih2; cases ih2
      | ok v => rw [hv] at ih2; injection ih2 with ih2; injection ih2 with ih2; rw [ih2]
    simp only [juliandateNest, juliandateList, ih1, e]; rfl

/-- **C47/C49.** the public `juliandate` on nested lists acts leaf by leaf -/
theorem juliandate_elementwise (t : Nest DateTime) (r : Nest F) :
    juliandateNest t = .ok r ↔ Nest.Rel (fun a b => juliandate a = .ok b) t r :=
  ⟨juliandate_list_aux t r, juliandate_rel_ok t r⟩

mutual
theorem greenwichsrt_aux (t : Nest F) : Nest.Rel (fun a b => b = greenwichMeanSiderealTime a) t (greenwichsrt t) := by
  cases t with
  | leaf a => simp only [greenwichsrt]; exact .leaf rfl
  | list l => simp only [greenwichsrt]; exact greenwichsrt_aux2 l
theorem greenwichsrt_aux2 (l : List (Nest F)) :
    Nest.Rel (fun a b => b = greenwichMeanSiderealTime a) (.list l) (.list (greenwichsrtList l)) := by
  cases l with
  | nil => simp only [greenwichsrtList]; exact .nil
  | cons t ts => simp only [greenwichsrtList]; exact .cons (greenwichsrt_aux t) (greenwichsrt_aux2 ts)
end

/-- **C49.** `greenwichsrt` on nested lists acts leaf by leaf -/
theorem greenwichsrt_elementwise (t : Nest F) :
    Nest.Rel (fun a b => b = greenwichMeanSiderealTime a) t (greenwichsrt t) := greenwichsrt_aux t
end anyF

/-! ### the size of sidereal time -/

/-- **C49.** Greenwich mean sidereal time lies in [0, 2π). -/
theorem gmst_range (jd : ℝ) :
    0 ≤ (greenwichMeanSiderealTime jd : ℝ) ∧ (greenwichMeanSiderealTime jd : ℝ) < 2 * Real.pi := by
  simp only [greenwichMeanSiderealTime, py_pymod, py_tau]
  exact ⟨pymod_nonneg _ two_pi_pos', pymod_lt _ two_pi_pos'⟩

/-- GMST at J2000: 18 h 41 m 50.54841 s -/
theorem gmst_j2000 : (greenwichMeanSiderealTime (2451545 : ℝ) : ℝ) =
    2 * Real.pi * ((18 * 3600 + 41 * 60 + 50.54841) / 86400) := by
  have hp := two_pi_pos'
  have e : (gmstSec (julianCenturies (2451545 : ℝ)) * tau / 86400.0 : ℝ)
      = 2 * Real.pi * ((18 * 3600 + 41 * 60 + 50.54841) / 86400) := by
    simp only [gmstSec, julianCenturies, py_tau, py_ofInt]; norm_num; ring
  simp only [greenwichMeanSiderealTime, py_pymod, py_tau]
  simp only [py_tau] at e
  rw [e]
  apply pymod_eq_of_mem
  · positivity
  · nlinarith

/-- **C49.** The sidereal clock gains 236.555 to 236.556 s on the solar clock per day, at every epoch
within a thousand years of J2000 (so a year has about one sidereal day more than solar days). -/
theorem gmst_daily_gain (jd : ℝ) (h : |jd - 2451545| ≤ 365250) :
    ∃ gain : ℝ, 236.555 ≤ gain ∧ gain ≤ 236.556 ∧ ∃ k : ℤ,
      (greenwichMeanSiderealTime (jd + 1) : ℝ) = greenwichMeanSiderealTime jd + 2 * Real.pi * (gain / 86400)
        + 2 * Real.pi * k := by
  have hp := Real.pi_pos
  rw [abs_le] at h
  obtain ⟨T, hT⟩ : ∃ T : ℝ, T = (jd - 2451545) / 36525 := ⟨_, rfl⟩
  have hT1 : -10 ≤ T := by rw [hT, le_div_iff₀ (by norm_num)]; linarith [h.1]
  have hT2 : T ≤ 10 := by rw [hT, div_le_iff₀ (by norm_num)]; linarith [h.2]
  have hT0 : julianCenturies jd = T := by simp only [julianCenturies]; rw [hT]; norm_num
  have hT' : julianCenturies (jd + 1) = T + 1 / 36525 := by simp only [julianCenturies]; rw [hT]; norm_num; ring
  have hd : (gmstSec (T + 1 / 36525) : ℝ) - gmstSec T = 86400 +
      (8640184.812866 / 36525 + 0.093104 * (2 * T / 36525 + 1 / 36525 ^ 2)
        - 6.2e-6 * (3 * T ^ 2 / 36525 + 3 * T / 36525 ^ 2 + 1 / 36525 ^ 3)) := by
    simp only [gmstSec, py_ofInt]; push_cast; ring
  refine ⟨8640184.812866 / 36525 + 0.093104 * (2 * T / 36525 + 1 / 36525 ^ 2)
        - 6.2e-6 * (3 * T ^ 2 / 36525 + 3 * T / 36525 ^ 2 + 1 / 36525 ^ 3), ?_, ?_,
    ⌊gmstSec T * (2 * Real.pi) / 86400 / (2 * Real.pi)⌋ - ⌊gmstSec (T + 1 / 36525) * (2 * Real.pi) / 86400 / (2 * Real.pi)⌋ + 1, ?_⟩
  · have : T ^ 2 ≤ 100 := by nlinarith
    norm_num; linarith
  · have : 0 ≤ T ^ 2 := sq_nonneg T
    norm_num; linarith
  · simp only [greenwichMeanSiderealTime, py_pymod, py_tau]
    rw [hT0, hT']
    have e86 : (86400.0 : ℝ) = 86400 := by norm_num
    rw [e86]
    push_cast
    have hd' : (gmstSec (T + 1 / 36525) : ℝ) * (2 * Real.pi) / 86400 = gmstSec T * (2 * Real.pi) / 86400 +
        2 * Real.pi * (1 + (8640184.812866 / 36525 + 0.093104 * (2 * T / 36525 + 1 / 36525 ^ 2)
        - 6.2e-6 * (3 * T ^ 2 / 36525 + 3 * T / 36525 ^ 2 + 1 / 36525 ^ 3)) / 86400) := by
      have : (gmstSec (T + 1 / 36525) : ℝ) = gmstSec T + (86400 +
        (8640184.812866 / 36525 + 0.093104 * (2 * T / 36525 + 1 / 36525 ^ 2)
        - 6.2e-6 * (3 * T ^ 2 / 36525 + 3 * T / 36525 ^ 2 + 1 / 36525 ^ 3))) := by linarith [hd]
      rw [this]; ring
    linarith [hd']

/-- **C49.** The Earth rotation angle lies in [0, 2π) and advances by 1.00273781191135448 turns per day. -/
theorem era_spec (jd δ : ℝ) :
    0 ≤ (earthRotationAngle jd : ℝ) ∧ (earthRotationAngle jd : ℝ) < 2 * Real.pi ∧
    ∃ k : ℤ, (earthRotationAngle (jd + δ) : ℝ) = earthRotationAngle jd + 2 * Real.pi * (1.00273781191135448 * δ)
      + 2 * Real.pi * k := by
  simp only [earthRotationAngle, py_pymod, py_tau]
  refine ⟨pymod_nonneg _ two_pi_pos', pymod_lt _ two_pi_pos', ?_⟩
  refine ⟨⌊2 * Real.pi * (0.7790572732640 + 1.00273781191135448 * (jd - 2451545.0)) / (2 * Real.pi)⌋
    - ⌊2 * Real.pi * (0.7790572732640 + 1.00273781191135448 * (jd + δ - 2451545.0)) / (2 * Real.pi)⌋, ?_⟩
  push_cast
  generalize (0.7790572732640 : ℝ) = a
  generalize (1.00273781191135448 : ℝ) = b
  generalize (2451545.0 : ℝ) = c
  ring

/-- nutation amplitudes: at most 18.96 arcsec in longitude, 9.96 arcsec in obliquity -/
theorem nutation_bounds (ttt : ℝ) :
    |(nutationShort ttt).1| ≤ 18.96 * (Real.pi / 648000) ∧ |(nutationShort ttt).2| ≤ 9.96 * (Real.pi / 648000) := by
  simp only [nutationShort, ARCSEC2RAD, py_sin, py_cos, py_pi]
  have e : (648000.0 : ℝ) = 648000 := by norm_num
  rw [e]
  have hp : 0 < Real.pi / 648000 := by positivity
  have hs : ∀ x, -1 ≤ Real.sin x ∧ Real.sin x ≤ 1 := fun x => ⟨Real.neg_one_le_sin x, Real.sin_le_one x⟩
  have hc : ∀ x, -1 ≤ Real.cos x ∧ Real.cos x ≤ 1 := fun x => ⟨Real.neg_one_le_cos x, Real.cos_le_one x⟩
  have gs : ∀ a b c d : ℝ, |(-17.20 * Real.sin a - 1.32 * Real.sin b - 0.23 * Real.sin c + 0.21 * Real.sin d)| ≤ 18.96 := by
    intro a b c d
    have h1 := hs a; have h2 := hs b; have h3 := hs c; have h4 := hs d
    rw [abs_le]; constructor <;> norm_num <;> linarith [h1.1, h1.2, h2.1, h2.2, h3.1, h3.2, h4.1, h4.2]
  have gc : ∀ a b c d : ℝ, |(9.20 * Real.cos a + 0.57 * Real.cos b + 0.10 * Real.cos c - 0.09 * Real.cos d)| ≤ 9.96 := by
    intro a b c d
    have h1 := hc a; have h2 := hc b; have h3 := hc c; have h4 := hc d
    rw [abs_le]; constructor <;> norm_num <;> linarith [h1.1, h1.2, h2.1, h2.2, h3.1, h3.2, h4.1, h4.2]
  constructor
  · rw [abs_mul, abs_of_pos hp]
    exact mul_le_mul_of_nonneg_right (gs _ _ _ _) hp.le
  · rw [abs_mul, abs_of_pos hp]
    exact mul_le_mul_of_nonneg_right (gc _ _ _ _) hp.le

/-- **C49.** Apparent sidereal time lies in [0, 2π) and differs from mean sidereal time, as an angle,
by at most 18.96 arcseconds (1.264 s of time). -/
theorem gast_close (jd_ut1 jd_tt : ℝ) :
    0 ≤ (greenwichApparentSiderealTime jd_ut1 jd_tt : ℝ) ∧
    (greenwichApparentSiderealTime jd_ut1 jd_tt : ℝ) < 2 * Real.pi ∧
    ∃ k : ℤ, |(greenwichApparentSiderealTime jd_ut1 jd_tt : ℝ) - greenwichMeanSiderealTime jd_ut1 + 2 * Real.pi * k|
      ≤ 18.96 * (Real.pi / 648000) := by
  simp only [greenwichApparentSiderealTime, py_pymod, py_tau]
  refine ⟨pymod_nonneg _ two_pi_pos', pymod_lt _ two_pi_pos', ?_⟩
  obtain ⟨g, hg⟩ : ∃ g : ℝ, g = greenwichMeanSiderealTime jd_ut1 := ⟨_, rfl⟩
  obtain ⟨ttt, ht⟩ : ∃ t : ℝ, t = julianCenturies jd_tt := ⟨_, rfl⟩
  rw [← hg, ← ht]
  refine ⟨⌊(g + equationOfEquinoxes ttt) / (2 * Real.pi)⌋, ?_⟩
  have : g + equationOfEquinoxes ttt - 2 * Real.pi * ↑⌊(g + equationOfEquinoxes ttt) / (2 * Real.pi)⌋ - g
      + 2 * Real.pi * ↑⌊(g + equationOfEquinoxes ttt) / (2 * Real.pi)⌋ = equationOfEquinoxes ttt := by ring
  rw [this]
  simp only [equationOfEquinoxes, py_cos]
  rw [abs_mul]
  have h1 := (nutation_bounds ttt).1
  have h2 := Real.abs_cos_le_one (meanObliquity ttt + (nutationShort ttt).2)
  nlinarith [abs_nonneg ((nutationShort ttt).1), abs_nonneg (Real.cos (meanObliquity ttt + (nutationShort ttt).2))]

/-- non-vacuity: the time 2024-03-01T05:30+05:30 with UT1-UTC = 0.1 s -/
theorem exampleIst_ok : TimeOk exampleIst 0.1 := by
  have htd : timedeltaSeconds (0.1 : ℝ) = 100000 := timedeltaSeconds_exact _ _ (by norm_num)
  have hr := taiMinusUtc_range (Spec.instant exampleIst)
  refine ⟨exampleIst_valid, ?_, ?_, ?_⟩
  · rw [exampleIst_instant]; unfold Spec.Representable; norm_num
  · rw [htd, exampleIst_instant]; unfold Spec.Representable; norm_num
  · rw [exampleIst_instant] at hr ⊢; unfold Spec.Representable; constructor <;> omega

example (fromiso) (lon : ℝ) : ∃ v, datetime2siderealVallado fromiso (.dt exampleIst) lon (0.1 : ℝ) = .ok v :=
  ⟨_, datetime2siderealVallado_ok exampleIst_ok fromiso lon⟩

end Pymap3d
