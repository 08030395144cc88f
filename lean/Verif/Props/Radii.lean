import Verif.Props.GeodeticEcef
import Verif.Model.Rsphere
import Verif.Lemmas.Trig
/-!
C15, C16 (ellipsoid objects), C19 (radii of curvature), C21 (auxiliary spheres, elementary part).
-/
set_option linter.unusedSectionVars false
noncomputable section
namespace Pymap3d
open Py
open Spec hiding norm dist

/-! ## C15 -/

/-- **C15.** derived parameters of a constructed ellipsoid -/
theorem ellipsoid_derived (a b : ℝ) (hb : 0 < b) (hab : b ≤ a) (nm md : String) :
    ∃ e : Ellipsoid ℝ, Ellipsoid.init a b nm md = .ok e ∧
      e.semimajor_axis = a ∧ e.semiminor_axis = b ∧ e.name = nm ∧ e.model = md ∧
      e.flattening = (a - b) / a ∧ 0 ≤ e.flattening ∧ e.flattening < 1 ∧
      e.thirdflattening = (a - b) / (a + b) ∧ e.thirdflattening = e.flattening / (2 - e.flattening) ∧
      0 ≤ e.eccentricity ∧ e.eccentricity < 1 ∧ e.eccentricity ^ 2 = 1 - b ^ 2 / a ^ 2 ∧
      b = a * (1 - e.flattening) ∧ b = a * Real.sqrt (1 - e.eccentricity ^ 2) := by
  have ha : 0 < a := lt_of_lt_of_le hb hab
  have hr := ofArgs_regular hb hab nm md
  have hf0 : 0 ≤ (a - b) / a := div_nonneg (by linarith) ha.le
  have hf1 : (a - b) / a < 1 := by rw [div_lt_one ha]; linarith
  refine ⟨Ellipsoid.ofArgs a b nm md, ?_, rfl, rfl, rfl, rfl, rfl, hf0, hf1, rfl, ?_, hr.ecc_nonneg, hr.ecc_lt_one,
    hr.ecc_sq, ?_, ?_⟩
  · simp only [Ellipsoid.init, lit_0]
    exact if_pos hf0
  · show (a - b) / (a + b) = (a - b) / a / (2 - (a - b) / a)
    have : 2 - (a - b) / a = (a + b) / a := by field_simp; ring
    rw [this]; field_simp
  · show b = a * (1 - (a - b) / a)
    field_simp; ring
  · rw [hr.one_sub_ecc_sq, Real.sqrt_sq (by exact div_nonneg hb.le ha.le)]
    show b = a * (b / a)
    field_simp

/-- **C15.** with a positive semi-major axis and no explicit flattening, construction fails exactly for `b > a`,
with an `AssertionError` -/
theorem ellipsoid_init_fails_iff (a b : ℝ) (ha : 0 < a) (nm md : String) (tf ec : Option ℝ) :
    (∃ msg, Ellipsoid.init a b nm md none tf ec = .error (.assertionError msg)) ↔ a < b := by
  have key : (0 : ℝ) ≤ (a - b) / a ↔ b ≤ a := by
    rw [le_div_iff₀ ha]; constructor <;> intro h <;> linarith
  simp only [Ellipsoid.init, lit_0]
  constructor
  · rintro ⟨msg, h⟩
    by_contra hh
    rw [if_pos (show (0:ℝ) ≤ (Ellipsoid.ofArgs a b nm md none tf ec).flattening from key.mpr (not_lt.mp hh))] at h
    cases h
  · intro h
    exact ⟨_, if_neg (fun hh => absurd (key.mp hh) (not_le.mpr h))⟩

/-- **C15.** explicit overrides are stored unchanged, and only the flattening is validated -/
theorem ellipsoid_overrides (a b f n e : ℝ) (nm md : String) :
    Ellipsoid.init a b nm md (some f) (some n) (some e) =
      if 0 ≤ f then .ok ⟨md, nm, a, b, f, n, e⟩ else .error (.assertionError "flattening must be >= 0") := by
  simp only [Ellipsoid.init, lit_0]; rfl

/-! ## C16 -/

/-- every row of the table satisfies `a >= b > 0` -/
theorem models_valid : ∀ r ∈ (models : List (String × String × ℝ × ℝ)), 0 < r.2.2.2 ∧ r.2.2.2 ≤ r.2.2.1 := by
  intro r hr
  simp only [models, List.mem_cons, List.not_mem_nil, or_false] at hr
  rcases hr with h | h | h | h | h | h | h | h | h | h | h | h | h | h | h | h | h | h | h | h | h | h | h | h | h | h |
    h | h | h | h | h | h | h | h | h | h | h | h <;> subst h <;> norm_num

/-- **C16.** `from_name` succeeds exactly for the keys of the table, `KeyError` otherwise -/
theorem fromName_iff (name : String) :
    ((∃ e, (Ellipsoid.fromName name : Except PyErr (Ellipsoid ℝ)) = .ok e) ↔
      name ∈ (models : List (String × String × ℝ × ℝ)).map Prod.fst) ∧
    (name ∉ (models : List (String × String × ℝ × ℝ)).map Prod.fst →
      (Ellipsoid.fromName name : Except PyErr (Ellipsoid ℝ)) = .error (.keyError name)) := by
  have hl : ∀ (l : List (String × String × ℝ × ℝ)), l.lookup name = none ↔ name ∉ l.map Prod.fst := by
    intro l
    induction l with
    | nil => simp
    | cons x xs ih =>
      rw [List.lookup]
      by_cases h : name = x.1
      · simp [h]
      · have hb : (name == x.1) = false := by simpa using h
        simp only [hb, List.map_cons, List.mem_cons, not_or, ih]
        constructor
        · intro h2; exact ⟨h, h2⟩
        · intro h2; exact h2.2
  have hl' : ∀ (l : List (String × String × ℝ × ℝ)) v, l.lookup name = some v → (name, v) ∈ l := by
    intro l v
    induction l with
    | nil => simp [List.lookup]
    | cons x xs ih =>
      rw [List.lookup]
      by_cases h : name = x.1
      · have hb : (name == x.1) = true := by simpa using h
        simp only [hb]
        intro hv
        cases hv
        rw [h]; exact List.mem_cons_self
      · have hb : (name == x.1) = false := by simpa using h
        simp only [hb]
        intro hv; exact List.mem_cons_of_mem _ (ih hv)
  constructor
  · constructor
    · rintro ⟨e, he⟩
      by_contra hn
      simp only [Ellipsoid.fromName, (hl _).mpr hn] at he
      cases he
    · intro hm
      cases hlk : (models : List (String × String × ℝ × ℝ)).lookup name with
      | none => exact absurd hm ((hl _).mp hlk)
      | some v =>
        obtain ⟨h0, h1⟩ := models_valid _ (hl' _ _ hlk)
        obtain ⟨e, he, -⟩ := ellipsoid_derived _ _ h0 h1 v.1 name
        exact ⟨e, by simp only [Ellipsoid.fromName, hlk]; exact he⟩
  · intro hn
    simp only [Ellipsoid.fromName, (hl _).mpr hn]

/-- **C16.** the object returned for a table row carries the tabulated name and axes and is regular, so every theorem
stated for `RegularO` applies to it -/
theorem fromName_entry (name : String) (e : Ellipsoid ℝ) (h : Ellipsoid.fromName name = .ok e) :
    e.Regular ∧ e.model = name ∧ (name, e.name, e.semimajor_axis, e.semiminor_axis) ∈
      (models : List (String × String × ℝ × ℝ)) := by
  have hl' : ∀ (l : List (String × String × ℝ × ℝ)) v, l.lookup name = some v → (name, v) ∈ l := by
    intro l v
    induction l with
    | nil => simp [List.lookup]
    | cons x xs ih =>
      rw [List.lookup]
      by_cases h : name = x.1
      · have hb : (name == x.1) = true := by simpa using h
        simp only [hb]
        intro hv
        cases hv
        rw [h]; exact List.mem_cons_self
      · have hb : (name == x.1) = false := by simpa using h
        simp only [hb]
        intro hv; exact List.mem_cons_of_mem _ (ih hv)
  cases hlk : (models : List (String × String × ℝ × ℝ)).lookup name with
  | none => simp only [Ellipsoid.fromName, hlk] at h; cases h
  | some v =>
    have hm := hl' _ _ hlk
    obtain ⟨h0, h1⟩ := models_valid _ hm
    have hf0 : (0 : ℝ) ≤ (v.2.1 - v.2.2) / v.2.1 := div_nonneg (by linarith) (by linarith)
    simp only [Ellipsoid.fromName, hlk, Ellipsoid.init, lit_0] at h
    rw [if_pos (show (0 : ℝ) ≤ (Ellipsoid.ofArgs v.2.1 v.2.2 v.1 name).flattening from hf0)] at h
    cases h
    exact ⟨ofArgs_regular h0 h1 _ _, rfl, hm⟩

theorem fromName_wgs84 : (Ellipsoid.fromName "wgs84" : Except PyErr (Ellipsoid ℝ)) = .ok wgs84 := by
  simp only [Ellipsoid.fromName, models, List.lookup]
  simp only [Ellipsoid.init, lit_0]
  exact if_pos (by simp only [Ellipsoid.ofArgs]; norm_num)

/-- **C16.** the misspelt alias names the same planet -/
theorem fromName_jupyter : ∃ e e' : Ellipsoid ℝ, Ellipsoid.fromName "jupyter" = .ok e ∧
    Ellipsoid.fromName "jupiter" = .ok e' ∧ e.semimajor_axis = e'.semimajor_axis ∧
    e.semiminor_axis = e'.semiminor_axis ∧ e.flattening = e'.flattening ∧ e.eccentricity = e'.eccentricity ∧
    e.thirdflattening = e'.thirdflattening := by
  obtain ⟨e, he, h⟩ := ellipsoid_derived (71492000.0 : ℝ) 66770054.3475922 (by norm_num) (by norm_num) "Jupiter" "jupyter"
  refine ⟨Ellipsoid.ofArgs 71492000.0 66770054.3475922 "Jupiter" "jupyter",
    Ellipsoid.ofArgs 71492000.0 66770054.3475922 "Jupiter" "jupiter", ?_, ?_, rfl, rfl, rfl, rfl, rfl⟩
  · simp only [Ellipsoid.fromName, models, List.lookup]
    simp only [Ellipsoid.init, lit_0]
    exact if_pos (by simp only [Ellipsoid.ofArgs]; norm_num)
  · simp only [Ellipsoid.fromName, models, List.lookup]
    simp only [Ellipsoid.init, lit_0]
    exact if_pos (by simp only [Ellipsoid.ofArgs]; norm_num)

/-! ## C19 -/

theorem w_pos {e : Ellipsoid ℝ} (h : e.Regular) (φ : ℝ) : 0 < 1 - (e.eccentricity * Real.sin φ) ^ 2 := by
  have h1 := h.ecc_sq_lt_one
  have h2 : Real.sin φ ^ 2 ≤ 1 := Real.sin_sq_le_one φ
  have h3 : (e.eccentricity * Real.sin φ) ^ 2 = e.eccentricity ^ 2 * Real.sin φ ^ 2 := mul_pow _ _ _
  nlinarith [sq_nonneg e.eccentricity]

theorem hypot_eq_w {e : Ellipsoid ℝ} (h : e.Regular) (φ : ℝ) :
    Real.sqrt ((e.semimajor_axis * Real.cos φ) ^ 2 + (e.semiminor_axis * Real.sin φ) ^ 2) =
      e.semimajor_axis * Real.sqrt (1 - (e.eccentricity * Real.sin φ) ^ 2) := by
  apply sqrt_eq_of_eq_sq (mul_nonneg h.a_pos.le (Real.sqrt_nonneg _))
  rw [mul_pow e.semimajor_axis (Real.sqrt _), Real.sq_sqrt (w_pos h φ).le]
  have h1 := h.ecc_sq
  have h2 := Real.sin_sq_add_cos_sq φ
  have ha := h.a_pos.ne'
  have h3 : e.semimajor_axis ^ 2 * e.eccentricity ^ 2 = e.semimajor_axis ^ 2 - e.semiminor_axis ^ 2 := by
    rw [h1]; field_simp
  have h4 : Real.cos φ ^ 2 = 1 - Real.sin φ ^ 2 := by linarith
  rw [mul_pow, mul_pow, h4]
  linear_combination (Real.sin φ) ^ 2 * h3

theorem transverse_real (lat : ℝ) (ell : Option (Ellipsoid ℝ)) (deg : Bool) : transverse lat ell deg =
    (resolveEllipsoid ell).semimajor_axis /
      Real.sqrt (1 - ((resolveEllipsoid ell).eccentricity * Real.sin (toRad deg lat)) ^ 2) := by
  simp only [transverse, py_sqrt, py_sin, lit_1, inAngle_toRad]

theorem meridian_real (lat : ℝ) (ell : Option (Ellipsoid ℝ)) (deg : Bool) : meridian lat ell deg =
    (resolveEllipsoid ell).semimajor_axis * (1 - (resolveEllipsoid ell).eccentricity ^ 2) /
      Real.sqrt ((1 - ((resolveEllipsoid ell).eccentricity * Real.sin (toRad deg lat)) ^ 2) ^ 3) := by
  simp only [meridian, py_sqrt, py_sin, lit_1, inAngle_toRad]

theorem parallel_real (lat : ℝ) (ell : Option (Ellipsoid ℝ)) (deg : Bool) :
    parallel lat ell deg = Real.cos (toRad deg lat) * transverse lat ell deg := by
  simp only [parallel, py_cos, inAngle_toRad, transverse_real, toRad_false]

theorem transverse_pv {e : Ellipsoid ℝ} (h : e.Regular) (φ : ℝ) :
    e.semimajor_axis ^ 2 / Real.sqrt ((e.semimajor_axis * Real.cos φ) ^ 2 + (e.semiminor_axis * Real.sin φ) ^ 2) =
      e.semimajor_axis / Real.sqrt (1 - (e.eccentricity * Real.sin φ) ^ 2) := by
  rw [hypot_eq_w h]
  have := h.a_pos.ne'
  have := (Real.sqrt_pos.mpr (w_pos h φ)).ne'
  field_simp

/-- **C19.** `transverse`: from the surface point, going down the normal a distance `transverse(lat)` reaches the polar
axis. -/
theorem transverse_reaches_axis (lat lon : ℝ) (ell : Option (Ellipsoid ℝ)) (deg : Bool) (h : RegularO ell) :
    0 < transverse lat ell deg ∧
    (let q := Spec.sub (geodetic2ecef lat lon 0 ell deg)
        (smul (transverse lat ell deg) (direction (toRad deg lat) (toRad deg lon)))
     q.1 = 0 ∧ q.2.1 = 0) := by
  refine ⟨?_, ?_, ?_⟩
  · rw [transverse_real]; exact div_pos h.a_pos (Real.sqrt_pos.mpr (w_pos h _))
  · simp only [Spec.sub, smul, direction, geodetic2ecef_real, transverse_real, transverse_pv h]; ring
  · simp only [Spec.sub, smul, direction, geodetic2ecef_real, transverse_real, transverse_pv h]; ring

/-- **C19.** `parallel`: distance of the surface point from the polar axis (latitudes in [-90, 90]) -/
theorem parallel_axis_distance (lat lon : ℝ) (ell : Option (Ellipsoid ℝ)) (deg : Bool) (h : RegularO ell)
    (h1 : -(fullTurn deg / 4) ≤ lat) (h2 : lat ≤ fullTurn deg / 4) :
    parallel lat ell deg = Real.sqrt ((geodetic2ecef lat lon 0 ell deg).1 ^ 2 + (geodetic2ecef lat lon 0 ell deg).2.1 ^ 2) ∧
      0 ≤ parallel lat ell deg := by
  have hr1 : -(Real.pi / 2) ≤ toRad deg lat := by
    have := (toRad_strictMono deg).monotone h1
    rwa [← outAngle_half_pi, ← outAngle_neg, toRad_outAngle] at this
  have hr2 : toRad deg lat ≤ Real.pi / 2 := by
    have := (toRad_strictMono deg).monotone h2
    rwa [← outAngle_half_pi, toRad_outAngle] at this
  have hc := Real.cos_nonneg_of_neg_pi_div_two_le_of_le hr1 hr2
  have hN := (transverse_reaches_axis lat lon ell deg h).1
  have hp : 0 ≤ parallel lat ell deg := by rw [parallel_real]; positivity
  refine ⟨?_, hp⟩
  symm
  apply sqrt_eq_of_eq_sq hp
  rw [parallel_real]
  simp only [geodetic2ecef_real, transverse_real, transverse_pv h]
  linear_combination (Real.cos (toRad deg lat)) ^ 2 * ((resolveEllipsoid ell).semimajor_axis /
    Real.sqrt (1 - ((resolveEllipsoid ell).eccentricity * Real.sin (toRad deg lat)) ^ 2)) ^ 2 *
    Real.sin_sq_add_cos_sq (toRad deg lon)

theorem sqrt_cube {W : ℝ} (hW : 0 < W) : Real.sqrt (W ^ 3) = W * Real.sqrt W := by
  apply sqrt_eq_of_eq_sq (mul_nonneg hW.le (Real.sqrt_nonneg _))
  rw [mul_pow, Real.sq_sqrt hW.le]; ring

theorem hasDerivAt_invsqrtW {e : Ellipsoid ℝ} (h : e.Regular) (φ : ℝ) :
    HasDerivAt (fun φ : ℝ => e.semimajor_axis / Real.sqrt (1 - (e.eccentricity * Real.sin φ) ^ 2))
      (e.semimajor_axis * (e.eccentricity ^ 2 * Real.sin φ * Real.cos φ) /
        ((1 - (e.eccentricity * Real.sin φ) ^ 2) * Real.sqrt (1 - (e.eccentricity * Real.sin φ) ^ 2))) φ := by
  have hW := w_pos h φ
  have hs := Real.sqrt_pos.mpr hW
  have hsq := Real.sq_sqrt hW.le
  have h1 : HasDerivAt (fun φ : ℝ => 1 - (e.eccentricity * Real.sin φ) ^ 2)
      (-(2 * (e.eccentricity * Real.sin φ) * (e.eccentricity * Real.cos φ))) φ := by
    have h0 : HasDerivAt (fun φ : ℝ => e.eccentricity * Real.sin φ) (e.eccentricity * Real.cos φ) φ :=
      (Real.hasDerivAt_sin φ).const_mul _
    exact hasDerivAt_of_eq ((h0.fun_pow 2).const_sub 1) (fun _ => rfl) (by norm_num)
  have h2 := (h1.sqrt hW.ne')
  have h3 := (hasDerivAt_const φ e.semimajor_axis).fun_div h2 hs.ne'
  refine hasDerivAt_of_eq h3 (fun _ => rfl) ?_
  rw [hsq]
  set W := 1 - (e.eccentricity * Real.sin φ) ^ 2
  field_simp
  ring

/-- **C19.** The derivative of the surface point with respect to (radian) latitude is `meridian(lat)` times the unit
vector pointing north: `meridian` is the speed of the meridian. -/
theorem meridian_speed (lat lon : ℝ) (ell : Option (Ellipsoid ℝ)) (h : RegularO ell) :
    HasDerivAt (fun φ => (geodetic2ecef φ lon 0 ell false).1) (meridian lat ell false * (north lat lon).1) lat ∧
    HasDerivAt (fun φ => (geodetic2ecef φ lon 0 ell false).2.1) (meridian lat ell false * (north lat lon).2.1) lat ∧
    HasDerivAt (fun φ => (geodetic2ecef φ lon 0 ell false).2.2) (meridian lat ell false * (north lat lon).2.2) lat := by
  obtain ⟨e, he⟩ : ∃ e, e = resolveEllipsoid ell := ⟨_, rfl⟩
  replace h : e.Regular := by rw [he]; exact h
  have hW := w_pos h lat
  have hs := Real.sqrt_pos.mpr hW
  have hsq := Real.sq_sqrt hW.le
  have hN := hasDerivAt_invsqrtW h lat
  have hsc := Real.sin_sq_add_cos_sq lat
  have k1 := (hN.fun_mul (Real.hasDerivAt_cos lat))
  have k2 := (hN.fun_mul (Real.hasDerivAt_sin lat))
  have e1 : ∀ s : ℝ, 0 < s → s ^ 2 = 1 - (e.eccentricity * Real.sin lat) ^ 2 →
      e.semimajor_axis * (e.eccentricity ^ 2 * Real.sin lat * Real.cos lat) /
        ((1 - (e.eccentricity * Real.sin lat) ^ 2) * s) * Real.cos lat + e.semimajor_axis / s * -Real.sin lat =
      e.semimajor_axis * (1 - e.eccentricity ^ 2) / ((1 - (e.eccentricity * Real.sin lat) ^ 2) * s) * -Real.sin lat := by
    intro s hs0 hs2
    rw [← hs2]
    field_simp
    rw [hs2]
    linear_combination (e.semimajor_axis * Real.sin lat * e.eccentricity ^ 2) * hsc
  have e2 : ∀ s : ℝ, 0 < s → s ^ 2 = 1 - (e.eccentricity * Real.sin lat) ^ 2 →
      e.semimajor_axis * (e.eccentricity ^ 2 * Real.sin lat * Real.cos lat) /
        ((1 - (e.eccentricity * Real.sin lat) ^ 2) * s) * Real.sin lat + e.semimajor_axis / s * Real.cos lat =
      e.semimajor_axis  / ((1 - (e.eccentricity * Real.sin lat) ^ 2) * s) * Real.cos lat := by
    intro s hs0 hs2
    rw [← hs2]
    field_simp
    rw [hs2]
    ring
  rw [e1 _ hs hsq] at k1
  rw [e2 _ hs hsq] at k2
  simp only [geodetic2ecef_real, ← he, toRad_false, meridian_real, north, add_zero]
  simp only [transverse_pv h, sqrt_cube hW]
  refine ⟨?_, ?_, ?_⟩
  · exact hasDerivAt_of_eq (k1.mul_const (Real.cos lon)) (fun _ => rfl) (by ring)
  · exact hasDerivAt_of_eq (k1.mul_const (Real.sin lon)) (fun _ => rfl) (by ring)
  · refine hasDerivAt_of_eq (k2.const_mul ((e.semiminor_axis / e.semimajor_axis) ^ 2)) (fun φ => by ring) ?_
    rw [h.one_sub_ecc_sq]; ring

/-- **C19.** The derivative of the surface point with respect to (radian) longitude is `parallel(lat)` times the unit
vector pointing east. -/
theorem parallel_speed (lat lon : ℝ) (ell : Option (Ellipsoid ℝ)) (h : RegularO ell) :
    HasDerivAt (fun l => (geodetic2ecef lat l 0 ell false).1) (parallel lat ell false * (east lon).1) lon ∧
    HasDerivAt (fun l => (geodetic2ecef lat l 0 ell false).2.1) (parallel lat ell false * (east lon).2.1) lon ∧
    HasDerivAt (fun l => (geodetic2ecef lat l 0 ell false).2.2) (parallel lat ell false * (east lon).2.2) lon := by
  simp only [geodetic2ecef_real, transverse_pv h, toRad_false, parallel_real, transverse_real, east, add_zero, mul_zero]
  refine ⟨?_, ?_, hasDerivAt_const _ _⟩
  · exact hasDerivAt_of_eq ((Real.hasDerivAt_cos lon).const_mul _) (fun _ => rfl) (by ring)
  · exact hasDerivAt_of_eq ((Real.hasDerivAt_sin lon).const_mul _) (fun _ => rfl) (by ring)

/-- **C19.** bounds: `b^2/a <= meridian <= transverse <= a^2/b`, `a <= transverse` -/
theorem curvature_bounds (lat : ℝ) (ell : Option (Ellipsoid ℝ)) (deg : Bool) (h : RegularO ell) :
    (resolveEllipsoid ell).semiminor_axis ^ 2 / (resolveEllipsoid ell).semimajor_axis ≤ meridian lat ell deg ∧
    meridian lat ell deg ≤ transverse lat ell deg ∧
    (resolveEllipsoid ell).semimajor_axis ≤ transverse lat ell deg ∧
    transverse lat ell deg ≤ (resolveEllipsoid ell).semimajor_axis ^ 2 / (resolveEllipsoid ell).semiminor_axis := by
  have hW := w_pos h (toRad deg lat)
  rw [meridian_real, transverse_real, sqrt_cube hW]
  have ha := h.a_pos
  have hb := h.b_pos
  have h1e : 1 - (resolveEllipsoid ell).eccentricity ^ 2 =
    ((resolveEllipsoid ell).semiminor_axis / (resolveEllipsoid ell).semimajor_axis) ^ 2 := h.one_sub_ecc_sq
  have hs1 : Real.sin (toRad deg lat) ^ 2 ≤ 1 := Real.sin_sq_le_one _
  have he2 := sq_nonneg (resolveEllipsoid ell).eccentricity
  have hWle : 1 - ((resolveEllipsoid ell).eccentricity * Real.sin (toRad deg lat)) ^ 2 ≤ 1 := by
    linarith [sq_nonneg ((resolveEllipsoid ell).eccentricity * Real.sin (toRad deg lat))]
  have hWge : ((resolveEllipsoid ell).semiminor_axis / (resolveEllipsoid ell).semimajor_axis) ^ 2 ≤
      1 - ((resolveEllipsoid ell).eccentricity * Real.sin (toRad deg lat)) ^ 2 := by
    rw [← h1e, mul_pow]; nlinarith
  set a := (resolveEllipsoid ell).semimajor_axis
  set b := (resolveEllipsoid ell).semiminor_axis
  set W := 1 - ((resolveEllipsoid ell).eccentricity * Real.sin (toRad deg lat)) ^ 2
  rw [h1e]
  have hsW := Real.sqrt_pos.mpr hW
  have hsW1 : Real.sqrt W ≤ 1 := Real.sqrt_le_one.mpr hWle
  have hsWb : b / a ≤ Real.sqrt W := Real.le_sqrt_of_sq_le hWge
  refine ⟨?_, ?_, ?_, ?_⟩
  · have : a * (b / a) ^ 2 = b ^ 2 / a := by field_simp
    rw [this, le_div_iff₀ (by positivity)]
    have h1 : W * Real.sqrt W ≤ 1 := by nlinarith
    have : 0 ≤ b ^ 2 / a := by positivity
    nlinarith
  · rw [div_le_div_iff₀ (by positivity) hsW]
    have : a * (b / a) ^ 2 ≤ a * W := mul_le_mul_of_nonneg_left hWge ha.le
    have := mul_le_mul_of_nonneg_right this hsW.le
    linarith
  · rw [le_div_iff₀ hsW]; nlinarith
  · rw [div_le_div_iff₀ hsW hb]
    have := mul_le_mul_of_nonneg_left hsWb (sq_nonneg a)
    have e : a ^ 2 * (b / a) = a * b := by field_simp
    linarith

/-- **C19.** for a genuinely flattened ellipsoid the two radii agree exactly at the poles -/
theorem meridian_eq_transverse_iff (lat : ℝ) (ell : Option (Ellipsoid ℝ)) (deg : Bool) (h : RegularO ell)
    (hf : (resolveEllipsoid ell).semiminor_axis < (resolveEllipsoid ell).semimajor_axis) :
    meridian lat ell deg = transverse lat ell deg ↔ Real.cos (toRad deg lat) = 0 := by
  have hW := w_pos h (toRad deg lat)
  rw [meridian_real, transverse_real, sqrt_cube hW]
  have ha := h.a_pos
  have hb := h.b_pos
  have hsW := Real.sqrt_pos.mpr hW
  have hsc := Real.sin_sq_add_cos_sq (toRad deg lat)
  have he : 0 < (resolveEllipsoid ell).eccentricity ^ 2 := by
    rw [h.ecc_sq, sub_pos, div_lt_one (by positivity)]
    exact pow_lt_pow_left₀ hf hb.le (by norm_num)
  rw [div_eq_div_iff (by positivity) hsW.ne']
  constructor
  · intro heq
    have h1 : 1 - (resolveEllipsoid ell).eccentricity ^ 2 =
        1 - ((resolveEllipsoid ell).eccentricity * Real.sin (toRad deg lat)) ^ 2 := by
      have := mul_right_cancel₀ hsW.ne' (heq.trans (mul_assoc _ _ _).symm)
      exact mul_left_cancel₀ ha.ne' this
    have h2 : (resolveEllipsoid ell).eccentricity ^ 2 * Real.cos (toRad deg lat) ^ 2 = 0 := by
      rw [mul_pow] at h1
      linear_combination (resolveEllipsoid ell).eccentricity ^ 2 * hsc - h1
    rcases mul_eq_zero.mp h2 with h3 | h3
    · exact absurd h3 he.ne'
    · exact pow_eq_zero_iff (by norm_num) |>.mp h3
  · intro hc
    have : Real.sin (toRad deg lat) ^ 2 = 1 := by rw [hc] at hsc; linarith
    rw [mul_pow, this]; ring

example : (wgs84 : Ellipsoid ℝ).semiminor_axis < (wgs84 : Ellipsoid ℝ).semimajor_axis := by
  norm_num [wgs84, Ellipsoid.ofArgs]

/-! ## C21 -/

/-- **C21.** unknown method strings raise `ValueError`, the two known ones succeed -/
theorem rsphere_method (lat : ℝ) (ell : Option (Ellipsoid ℝ)) (deg : Bool) (method : String) :
    ((∃ m, triaxial ell method = .error (.valueError m)) ↔ method ≠ "mean" ∧ method ≠ "norm") ∧
    ((∃ m, biaxial ell method = .error (.valueError m)) ↔ method ≠ "mean" ∧ method ≠ "norm") ∧
    ((∃ m, rcurveSphere lat ell deg method = .error (.valueError m)) ↔ method ≠ "mean" ∧ method ≠ "norm") := by
  simp only [triaxial, biaxial, rcurveSphere, methodErr]
  by_cases h1 : method = "mean"
  · simp [h1]
  · by_cases h2 : method = "norm"
    · simp [h2]
    · simp [h1, h2]

theorem amgm2 {x y : ℝ} (hx : 0 ≤ x) (hy : 0 ≤ y) : Real.sqrt (x * y) ≤ (x + y) / 2 := by
  apply Real.sqrt_le_iff.mpr ⟨by linarith, ?_⟩
  nlinarith [sq_nonneg (x - y)]

/-- **C21.** biaxial radii: `b <= norm <= mean <= a` -/
theorem biaxial_bounds (ell : Option (Ellipsoid ℝ)) (h : RegularO ell) :
    ∃ m n : ℝ, biaxial ell "mean" = .ok m ∧ biaxial ell "norm" = .ok n ∧
      m = ((resolveEllipsoid ell).semimajor_axis + (resolveEllipsoid ell).semiminor_axis) / 2 ∧
      n ^ 2 = (resolveEllipsoid ell).semimajor_axis * (resolveEllipsoid ell).semiminor_axis ∧
      (resolveEllipsoid ell).semiminor_axis ≤ n ∧ n ≤ m ∧ m ≤ (resolveEllipsoid ell).semimajor_axis := by
  have ha := h.a_pos
  have hb := h.b_pos
  have hab := h.b_le_a
  refine ⟨_, _, rfl, by simp only [biaxial]; rfl, by simp, ?_, ?_, ?_, ?_⟩
  · simp only [py_sqrt]; rw [Real.sq_sqrt (by positivity)]
  · simp only [py_sqrt]; apply Real.le_sqrt_of_sq_le; nlinarith
  · simp only [py_sqrt, lit_2]; exact amgm2 ha.le hb.le
  · simp only [lit_2]; linarith

/-- **C21.** triaxial radii: `b <= norm <= mean <= a`; the `norm` one is the radius of the sphere of equal volume -/
theorem triaxial_bounds (ell : Option (Ellipsoid ℝ)) (h : RegularO ell) :
    ∃ m n : ℝ, triaxial ell "mean" = .ok m ∧ triaxial ell "norm" = .ok n ∧
      m = (2 * (resolveEllipsoid ell).semimajor_axis + (resolveEllipsoid ell).semiminor_axis) / 3 ∧
      n ^ 3 = (resolveEllipsoid ell).semimajor_axis ^ 2 * (resolveEllipsoid ell).semiminor_axis ∧
      (resolveEllipsoid ell).semiminor_axis ≤ n ∧ n ≤ m ∧ m ≤ (resolveEllipsoid ell).semimajor_axis := by
  have ha := h.a_pos
  have hb := h.b_pos
  have hab := h.b_le_a
  set a := (resolveEllipsoid ell).semimajor_axis
  set b := (resolveEllipsoid ell).semiminor_axis
  have hn0 : (0 : ℝ) ≤ (a ^ 2 * b) ^ (1.0 / 3.0 : ℝ) := Real.rpow_nonneg (by positivity) _
  have hn3 : ((a ^ 2 * b) ^ (1.0 / 3.0 : ℝ)) ^ 3 = a ^ 2 * b := by
    rw [← Real.rpow_natCast, ← Real.rpow_mul (by positivity)]; norm_num
  have cube_le : ∀ {x y : ℝ}, 0 ≤ x → 0 ≤ y → x ^ 3 ≤ y ^ 3 → x ≤ y := by
    intro x y hx hy hxy
    exact le_of_pow_le_pow_left₀ (by norm_num) hy hxy
  refine ⟨_, _, rfl, by simp only [triaxial]; rfl, by simp [a, b], hn3, ?_, ?_, ?_⟩
  · apply cube_le hb.le hn0
    rw [hn3]
    nlinarith [mul_pos ha hb, pow_le_pow_left₀ hb.le hab 2]
  · apply cube_le hn0 (by norm_num; positivity)
    rw [hn3]
    simp only [lit_2, lit_3]
    show a ^ 2 * b ≤ ((2 * a + b) / 3) ^ 3
    have : ((2 * a + b) / 3) ^ 3 - a ^ 2 * b = (a - b) ^ 2 * (8 * a + b) / 27 := by ring
    have : 0 ≤ (a - b) ^ 2 * (8 * a + b) / 27 := by positivity
    linarith
  · simp only [lit_2, lit_3]; linarith

/-- **C21.** curvature sphere radii: between the two radii of curvature, `norm <= mean` -/
theorem curve_bounds (lat : ℝ) (ell : Option (Ellipsoid ℝ)) (deg : Bool) (h : RegularO ell) :
    ∃ m n : ℝ, rcurveSphere lat ell deg "mean" = .ok m ∧ rcurveSphere lat ell deg "norm" = .ok n ∧
      m = (meridian lat ell deg + transverse lat ell deg) / 2 ∧ n ^ 2 = meridian lat ell deg * transverse lat ell deg ∧
      meridian lat ell deg ≤ n ∧ n ≤ m ∧ m ≤ transverse lat ell deg := by
  obtain ⟨h1, h2, h3, -⟩ := curvature_bounds lat ell deg h
  have hm : meridian (toRad deg lat) ell false = meridian lat ell deg := by simp only [meridian_real, toRad_false]
  have ht : transverse (toRad deg lat) ell false = transverse lat ell deg := by simp only [transverse_real, toRad_false]
  have hM : 0 < meridian lat ell deg := lt_of_lt_of_le (div_pos (pow_pos h.b_pos 2) h.a_pos) h1
  have hT : 0 < transverse lat ell deg := lt_of_lt_of_le h.a_pos h3
  refine ⟨(meridian lat ell deg + transverse lat ell deg) / 2, Real.sqrt (meridian lat ell deg * transverse lat ell deg),
    ?_, ?_, rfl, Real.sq_sqrt (by positivity), ?_, amgm2 hM.le hT.le, by linarith⟩
  · simp only [rcurveSphere, inAngle_toRad, hm, ht, lit_2]; rfl
  · simp only [rcurveSphere, inAngle_toRad, hm, ht, lit_2]; rfl
  · apply Real.le_sqrt_of_sq_le; nlinarith

/-- **C21.** rectifying radius lies between the semi-axes -/
theorem rectifying_bounds (ell : Option (Ellipsoid ℝ)) (h : RegularO ell) :
    (resolveEllipsoid ell).semiminor_axis ≤ rectifying ell ∧ rectifying ell ≤ (resolveEllipsoid ell).semimajor_axis := by
  have ha := h.a_pos
  have hb := h.b_pos
  have hab := h.b_le_a
  simp only [rectifying, py_power, lit_2, lit_3]
  set a := (resolveEllipsoid ell).semimajor_axis
  set b := (resolveEllipsoid ell).semiminor_axis
  have hpow : b ^ (3 / 2 : ℝ) ≤ a ^ (3 / 2 : ℝ) := Real.rpow_le_rpow hb.le hab (by norm_num)
  have hb0 : 0 ≤ b ^ (3 / 2 : ℝ) := Real.rpow_nonneg hb.le _
  have back : ∀ t : ℝ, 0 < t → (t ^ (3 / 2 : ℝ)) ^ (2 / 3 : ℝ) = t := by
    intro t ht; rw [← Real.rpow_mul ht.le]; norm_num
  constructor
  · calc b = (b ^ (3 / 2 : ℝ)) ^ (2 / 3 : ℝ) := (back b hb).symm
      _ ≤ _ := Real.rpow_le_rpow hb0 (by linarith) (by norm_num)
  · calc _ ≤ (a ^ (3 / 2 : ℝ)) ^ (2 / 3 : ℝ) := Real.rpow_le_rpow (by linarith) (by linarith) (by norm_num)
      _ = a := back a ha

/-- **C21.** `eqavol` is the equal-volume radius `(a^2 b)^(1/3)` up to third order in the flattening: it is an over-estimate
by at most `a f^3 / 5` -/
theorem eqavol_volume (ell : Option (Ellipsoid ℝ)) (h : RegularO ell) (R : ℝ) (hR : 0 < R)
    (hvol : R ^ 3 = (resolveEllipsoid ell).semimajor_axis ^ 2 * (resolveEllipsoid ell).semiminor_axis)
    (hf : (resolveEllipsoid ell).flattening ≤ 1 / 2) :
    R ≤ eqavol ell ∧ eqavol ell - R ≤ (resolveEllipsoid ell).semimajor_axis * (resolveEllipsoid ell).flattening ^ 3 / 5 := by
  have ha := h.a_pos
  have hb := h.b_pos
  have hab := h.b_le_a
  have hf0 : 0 ≤ (resolveEllipsoid ell).flattening := by rw [h.flat]; exact div_nonneg (by linarith) ha.le
  have hbf : (resolveEllipsoid ell).semiminor_axis = (resolveEllipsoid ell).semimajor_axis * (1 - (resolveEllipsoid ell).flattening) := by
    rw [h.flat]; field_simp; ring
  simp only [eqavol, lit_1, lit_3, lit_9]
  rw [hbf] at hvol
  generalize (resolveEllipsoid ell).semimajor_axis = a at *
  generalize (resolveEllipsoid ell).flattening = f at *
  have cube_le : ∀ {x y : ℝ}, 0 ≤ y → x ^ 3 ≤ y ^ 3 → x ≤ y := by
    intro x y hy hxy
    by_contra hc
    push Not at hc
    have : y ^ 3 < x ^ 3 := pow_lt_pow_left₀ hc hy (by norm_num)
    linarith
  have hq : 0 < 1 - f / 3 - f ^ 2 / 9 := by nlinarith
  have ha3 : 0 < a ^ 3 := by positivity
  constructor
  · apply cube_le (by positivity)
    rw [hvol, mul_pow]
    have : (1 - f / 3 - f ^ 2 / 9) ^ 3 - (1 - f) = f ^ 3 * (5 / 27 - f ^ 2 / 81 - f ^ 3 / 729) := by ring
    have h2 : 0 ≤ f ^ 3 * (5 / 27 - f ^ 2 / 81 - f ^ 3 / 729) := by
      apply mul_nonneg (by positivity)
      have : f ^ 2 ≤ 1 / 4 := by nlinarith
      have : f ^ 3 ≤ 1 / 8 := by nlinarith
      linarith
    nlinarith
  · have : a * (1 - f / 3 - f ^ 2 / 9) - a * f ^ 3 / 5 ≤ R := by
      have e : a * (1 - f / 3 - f ^ 2 / 9) - a * f ^ 3 / 5 = a * (1 - f / 3 - f ^ 2 / 9 - f ^ 3 / 5) := by ring
      rw [e]
      apply cube_le hR.le
      rw [hvol, mul_pow]
      have h3 : (1 - f / 3 - f ^ 2 / 9 - f ^ 3 / 5) ^ 3 ≤ 1 - f := by
        have f2 : f ^ 2 ≤ 1 / 4 := by nlinarith
        have f3 : f ^ 3 ≤ 1 / 8 := by nlinarith [mul_nonneg hf0 hf0]
        have key : (1 - f) - (1 - f / 3 - f ^ 2 / 9 - f ^ 3 / 5) ^ 3 =
          f ^ 3 * (3 / 5 * (1 - f / 3 - f ^ 2 / 9) ^ 2 - 3 / 25 * f ^ 3 * (1 - f / 3 - f ^ 2 / 9) + f ^ 6 / 125
            - (5 / 27 - f ^ 2 / 81 - f ^ 3 / 729)) := by ring
        have hge : 0 ≤ f ^ 3 * (3 / 5 * (1 - f / 3 - f ^ 2 / 9) ^ 2 - 3 / 25 * f ^ 3 * (1 - f / 3 - f ^ 2 / 9) + f ^ 6 / 125
            - (5 / 27 - f ^ 2 / 81 - f ^ 3 / 729)) := by
          apply mul_nonneg (by positivity)
          have q0 : 4 / 5 ≤ 1 - f / 3 - f ^ 2 / 9 := by nlinarith
          have q1 : 1 - f / 3 - f ^ 2 / 9 ≤ 1 := by nlinarith
          have q2 : 16 / 25 ≤ (1 - f / 3 - f ^ 2 / 9) ^ 2 := by nlinarith
          have q3 : f ^ 3 * (1 - f / 3 - f ^ 2 / 9) ≤ 1 / 8 := by nlinarith [pow_nonneg hf0 3]
          nlinarith [pow_nonneg hf0 6, pow_nonneg hf0 2, pow_nonneg hf0 3]
        linarith
      nlinarith
    linarith

/-- **C21.** for a sphere every auxiliary radius is the radius -/
theorem sphere_radii (R : ℝ) (hR : 0 < R) (nm md method : String) (lat : ℝ) (deg : Bool)
    (hm : method = "mean" ∨ method = "norm") :
    let ell := some (Ellipsoid.ofArgs R R nm md);
    eqavol ell = R ∧ authalic ell = R ∧ rectifying ell = R ∧ triaxial ell method = .ok R ∧ biaxial ell method = .ok R ∧
      rcurveSphere lat ell deg method = .ok R := by
  intro ell
  have hr : RegularO ell := ofArgs_regular hR le_rfl nm md
  have hf : (resolveEllipsoid ell).flattening = 0 := by rw [hr.flat]; simp [ell, resolveEllipsoid, Ellipsoid.ofArgs]
  have hec : (resolveEllipsoid ell).eccentricity = 0 := by
    have := hr.ecc_sq
    have h1 : R ^ 2 ≠ 0 := by positivity
    simp only [ell, resolveEllipsoid, Ellipsoid.ofArgs] at this ⊢
    simp
  have haR : (resolveEllipsoid ell).semimajor_axis = R := rfl
  have hbR : (resolveEllipsoid ell).semiminor_axis = R := rfl
  refine ⟨?_, ?_, ?_, ?_, ?_, ?_⟩
  · simp [eqavol, hf, haR]
  · simp [authalic, hec, haR]
  · have := rectifying_bounds ell hr
    rw [haR, hbR] at this; linarith [this.1, this.2]
  · obtain ⟨m, n, h1, h2, -, -, h3, h4, h5⟩ := triaxial_bounds ell hr
    rw [haR] at h5; rw [hbR] at h3
    rcases hm with rfl | rfl
    · rw [h1]; congr 1; linarith
    · rw [h2]; congr 1; linarith
  · obtain ⟨m, n, h1, h2, -, -, h3, h4, h5⟩ := biaxial_bounds ell hr
    rw [haR] at h5; rw [hbR] at h3
    rcases hm with rfl | rfl
    · rw [h1]; congr 1; linarith
    · rw [h2]; congr 1; linarith
  · obtain ⟨m, n, h1, h2, -, -, h3, h4, h5⟩ := curve_bounds lat ell deg hr
    have e1 : meridian lat ell deg = R := by simp [meridian_real, hec, haR]
    have e2 : transverse lat ell deg = R := by simp [transverse_real, hec, haR]
    rw [e1] at h3; rw [e2] at h5
    rcases hm with rfl | rfl
    · rw [h1]; congr 1; linarith
    · rw [h2]; congr 1; linarith

end Pymap3d
end
