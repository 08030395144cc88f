import Verif.Props.Vdist
/-!
C41: `vreckon`.
-/
set_option linter.unusedSectionVars false
namespace Pymap3d
open Py

section anyF
variable {F : Type} [Add F] [Sub F] [Mul F] [Div F] [Neg F] [Pow F Nat] [OfScientific F] [LT F] [LE F]
  [DecidableLT F] [DecidableLE F] [PyMath F]

/-- `(sigmaP, (sigma, trig))` after `n` executions of the loop body -/
def vrAt (k : VrConst F) : Nat → F × VrState F
  | 0 => (2.0 * pi, ⟨k.s0, none⟩)
  | n + 1 => ((vrAt k n).2.sigma, vrBody k (vrAt k n).2.sigma)

/-- the loop condition of one element -/
def vrMore (k : VrConst F) (n : Nat) : Bool := decide (1e-12 < abs ((vrAt k n).2.sigma - (vrAt k n).1))

/-- the loop stops at the first round in which every element has converged -/
theorem vrLoop_spec (ks : List (VrConst F)) (N : Nat) (hN : (ks.any fun k => vrMore k N) = false) (m n : Nat) (hn : n + m = N) :
    ∃ M, n ≤ M ∧ M ≤ N ∧ (ks.any fun k => vrMore k M) = false ∧ (∀ i, n ≤ i → i < M → (ks.any fun k => vrMore k i) = true) ∧
      vrLoop (ks.map fun k => (k, vrAt k n)) = some (ks.map fun k => (k, (vrAt k M).2)) := by
  induction m generalizing n with
  | zero =>
    have : n = N := by omega
    subst this
    refine ⟨n, le_rfl, le_rfl, hN, fun i h1 h2 => absurd h1 (by omega), ?_⟩
    rw [vrLoop]
    simp only [List.any_map, Function.comp_def, List.map_map]
    have : (ks.any fun k => decide (1e-12 < abs ((vrAt k n).2.sigma - (vrAt k n).1))) = false := hN
    simp only [this]
    rfl
  | succ m ih =>
    by_cases hc : (ks.any fun k => vrMore k n) = true
    · obtain ⟨M, h1, h2, h3, h4, h5⟩ := ih (n + 1) (by omega)
      refine ⟨M, by omega, h2, h3, ?_, ?_⟩
      · intro i hi hiM
        rcases Nat.eq_or_lt_of_le hi with h | h
        · rw [← h]; exact hc
        · exact h4 i (by omega) hiM
      · rw [vrLoop]
        simp only [List.any_map, Function.comp_def, List.map_map]
        have : (ks.any fun k => decide (1e-12 < abs ((vrAt k n).2.sigma - (vrAt k n).1))) = true := hc
        simp only [this, if_true]
        exact h5
    · have hc' : (ks.any fun k => vrMore k n) = false := by simpa using hc
      refine ⟨n, le_rfl, by omega, hc', fun i h1 h2 => absurd h1 (by omega), ?_⟩
      rw [vrLoop]
      simp only [List.any_map, Function.comp_def, List.map_map]
      have : (ks.any fun k => decide (1e-12 < abs ((vrAt k n).2.sigma - (vrAt k n).1))) = false := hc'
      simp only [this]
      rfl

end anyF

noncomputable section
open Spec hiding norm dist

/-- the correction as a sum of sines -/
theorem vDelta_sines (B σ1 σ : ℝ) : vDelta B (Real.sin σ) (Real.cos σ) (Real.cos (2 * σ1 + σ)) =
    B / 2 * (Real.sin (2 * (σ + σ1)) - Real.sin (2 * σ1)) + B ^ 2 / 16 * (Real.sin (4 * (σ + σ1)) - Real.sin (4 * σ1))
      + B ^ 3 / 48 * (Real.sin (6 * (σ + σ1)) - Real.sin (6 * σ1)) := by
  rw [vDelta_real]
  have h1 : Real.sin (2 * (σ + σ1)) - Real.sin (2 * σ1) = 2 * (Real.sin σ * Real.cos (2 * σ1 + σ)) := by
    rw [show 2 * (σ + σ1) = (2 * σ1 + σ) + σ by ring, show 2 * σ1 = (2 * σ1 + σ) - σ by ring, Real.sin_add, Real.sin_sub]; ring_nf
  have h2 : Real.sin (4 * (σ + σ1)) - Real.sin (4 * σ1) = 2 * (Real.sin (2 * σ) * Real.cos (2 * (2 * σ1 + σ))) := by
    rw [show 4 * (σ + σ1) = 2 * (2 * σ1 + σ) + 2 * σ by ring, show 4 * σ1 = 2 * (2 * σ1 + σ) - 2 * σ by ring, Real.sin_add, Real.sin_sub]; ring_nf
  have h3 : Real.sin (6 * (σ + σ1)) - Real.sin (6 * σ1) = 2 * (Real.sin (3 * σ) * Real.cos (3 * (2 * σ1 + σ))) := by
    rw [show 6 * (σ + σ1) = 3 * (2 * σ1 + σ) + 3 * σ by ring, show 6 * σ1 = 3 * (2 * σ1 + σ) - 3 * σ by ring, Real.sin_add, Real.sin_sub]; ring_nf
  rw [h1, h2, h3, Real.sin_two_mul, Real.cos_two_mul, Real.sin_three_mul, Real.cos_three_mul]
  ring

theorem abs_sin_sub_le (x y : ℝ) : |Real.sin x - Real.sin y| ≤ |x - y| := by
  have := Real.abs_sin_sub_sin_le x y
  exact this

/-- `sigma ↦ deltaSigma(sigma)` is a contraction with factor 1/3 -/
theorem vDelta_lipschitz {B : ℝ} (hB0 : 0 ≤ B) (hB1 : B ≤ 1 / 4) (σ1 σ σ' : ℝ) :
    |vDelta B (Real.sin σ) (Real.cos σ) (Real.cos (2 * σ1 + σ)) - vDelta B (Real.sin σ') (Real.cos σ') (Real.cos (2 * σ1 + σ'))|
      ≤ 1 / 3 * |σ - σ'| := by
  rw [vDelta_sines, vDelta_sines]
  have e : B / 2 * (Real.sin (2 * (σ + σ1)) - Real.sin (2 * σ1)) + B ^ 2 / 16 * (Real.sin (4 * (σ + σ1)) - Real.sin (4 * σ1))
      + B ^ 3 / 48 * (Real.sin (6 * (σ + σ1)) - Real.sin (6 * σ1)) -
      (B / 2 * (Real.sin (2 * (σ' + σ1)) - Real.sin (2 * σ1)) + B ^ 2 / 16 * (Real.sin (4 * (σ' + σ1)) - Real.sin (4 * σ1))
      + B ^ 3 / 48 * (Real.sin (6 * (σ' + σ1)) - Real.sin (6 * σ1))) =
      B / 2 * (Real.sin (2 * (σ + σ1)) - Real.sin (2 * (σ' + σ1))) + B ^ 2 / 16 * (Real.sin (4 * (σ + σ1)) - Real.sin (4 * (σ' + σ1)))
      + B ^ 3 / 48 * (Real.sin (6 * (σ + σ1)) - Real.sin (6 * (σ' + σ1))) := by ring
  rw [e]
  have k : ∀ c : ℝ, 0 < c → |Real.sin (c * (σ + σ1)) - Real.sin (c * (σ' + σ1))| ≤ c * |σ - σ'| := by
    intro c hc
    have := abs_sin_sub_le (c * (σ + σ1)) (c * (σ' + σ1))
    rwa [show c * (σ + σ1) - c * (σ' + σ1) = c * (σ - σ') by ring, abs_mul, abs_of_pos hc] at this
  have k1 := k 2 (by norm_num)
  have k2 := k 4 (by norm_num)
  have k3 := k 6 (by norm_num)
  have hD := abs_nonneg (σ - σ')
  generalize |σ - σ'| = D at *
  have t1 := abs_add_three (B / 2 * (Real.sin (2 * (σ + σ1)) - Real.sin (2 * (σ' + σ1)))) (B ^ 2 / 16 * (Real.sin (4 * (σ + σ1)) - Real.sin (4 * (σ' + σ1))))
      (B ^ 3 / 48 * (Real.sin (6 * (σ + σ1)) - Real.sin (6 * (σ' + σ1))))
  rw [abs_mul, abs_mul, abs_mul, abs_of_nonneg (by positivity : 0 ≤ B / 2), abs_of_nonneg (by positivity : 0 ≤ B ^ 2 / 16),
    abs_of_nonneg (by positivity : 0 ≤ B ^ 3 / 48)] at t1
  have m1 := mul_le_mul_of_nonneg_left k1 (by positivity : 0 ≤ B / 2)
  have m2 := mul_le_mul_of_nonneg_left k2 (by positivity : 0 ≤ B ^ 2 / 16)
  have m3 := mul_le_mul_of_nonneg_left k3 (by positivity : 0 ≤ B ^ 3 / 48)
  have p2 : B ^ 2 ≤ 1 / 16 := by nlinarith
  have p3 : B ^ 3 ≤ 1 / 64 := by
    have := pow_le_pow_left₀ hB0 hB1 3; norm_num at this ⊢; linarith
  have q1 : B / 2 * (2 * D) ≤ (1 / 4) * D := by nlinarith
  have q2 : B ^ 2 / 16 * (4 * D) ≤ (1 / 64) * D := by nlinarith
  have q3 : B ^ 3 / 48 * (6 * D) ≤ (1 / 512) * D := by nlinarith
  nlinarith

theorem vDelta_zero (B σ1 : ℝ) : vDelta B (Real.sin 0) (Real.cos 0) (Real.cos (2 * σ1 + 0)) = 0 := by
  rw [vDelta_real, Real.sin_zero]; ring

theorem vDelta_abs_le {B : ℝ} (hB0 : 0 ≤ B) (hB1 : B ≤ 1 / 4) (σ1 σ : ℝ) :
    |vDelta B (Real.sin σ) (Real.cos σ) (Real.cos (2 * σ1 + σ))| ≤ 1 / 3 := by
  rw [vDelta_real]
  have hs := Real.abs_sin_le_one σ
  have hc := Real.abs_cos_le_one σ
  have hc2 := Real.abs_cos_le_one (2 * σ1 + σ)
  by_cases h0 : 0 ≤ Real.sin σ
  · rw [← vDelta_real]
    have := vDelta_bound hB0 hB1 h0 (le_of_abs_le hs) hc hc2
    have := le_of_abs_le hs
    linarith
  · have h0' : 0 ≤ Real.sin (-σ) := by rw [Real.sin_neg]; linarith [not_le.mp h0]
    have := vDelta_bound hB0 hB1 h0' (by rw [Real.sin_neg]; linarith [neg_le_of_abs_le hs]) hc hc2
    rw [vDelta_real, Real.sin_neg, ← abs_neg] at this
    have e1 : -(B * -Real.sin σ * (Real.cos (2 * σ1 + σ) + B / 4 * (Real.cos σ * (-1 + 2 * Real.cos (2 * σ1 + σ) ^ 2) -
        B / 6 * Real.cos (2 * σ1 + σ) * (-3 + 4 * (-Real.sin σ) ^ 2) * (-3 + 4 * Real.cos (2 * σ1 + σ) ^ 2)))) =
        B * Real.sin σ * (Real.cos (2 * σ1 + σ) + B / 4 * (Real.cos σ * (-1 + 2 * Real.cos (2 * σ1 + σ) ^ 2) -
        B / 6 * Real.cos (2 * σ1 + σ) * (-3 + 4 * Real.sin σ ^ 2) * (-3 + 4 * Real.cos (2 * σ1 + σ) ^ 2))) := by ring
    rw [e1] at this
    have := neg_le_of_abs_le hs
    linarith

theorem vrBody_sigma (k : VrConst ℝ) (σ : ℝ) : (vrBody k σ).sigma =
    k.s0 + vDelta k.B (Real.sin σ) (Real.cos σ) (Real.cos (2 * k.sigma1 + σ)) := by
  simp only [vrBody, py_sin, py_cos, lit_2]

/-- successive iterates approach each other geometrically -/
theorem vrAt_step {k : VrConst ℝ} (hB0 : 0 ≤ k.B) (hB1 : k.B ≤ 1 / 4) (n : ℕ) :
    |(vrAt k (n + 2)).2.sigma - (vrAt k (n + 2)).1| ≤ 1 / 3 * |(vrAt k (n + 1)).2.sigma - (vrAt k (n + 1)).1| := by
  show |(vrBody k (vrBody k (vrAt k n).2.sigma).sigma).sigma - (vrBody k (vrAt k n).2.sigma).sigma| ≤
    1 / 3 * |(vrBody k (vrAt k n).2.sigma).sigma - (vrAt k n).2.sigma|
  have := vDelta_lipschitz hB0 hB1 k.sigma1 (vrBody k (vrAt k n).2.sigma).sigma (vrAt k n).2.sigma
  have e : ∀ x y : ℝ, (vrBody k x).sigma - (vrBody k y).sigma = vDelta k.B (Real.sin x) (Real.cos x) (Real.cos (2 * k.sigma1 + x)) -
      vDelta k.B (Real.sin y) (Real.cos y) (Real.cos (2 * k.sigma1 + y)) := by
    intro x y; rw [vrBody_sigma, vrBody_sigma]; ring
  rw [e]; exact this

theorem vrAt_gap {k : VrConst ℝ} (hB0 : 0 ≤ k.B) (hB1 : k.B ≤ 1 / 4) (n : ℕ) :
    |(vrAt k (n + 1)).2.sigma - (vrAt k (n + 1)).1| ≤ (1 / 3) ^ (n + 1) := by
  induction n with
  | zero =>
    show |(vrBody k k.s0).sigma - k.s0| ≤ _
    rw [vrBody_sigma]
    have := vDelta_abs_le hB0 hB1 k.sigma1 k.s0
    simpa using this
  | succ n ih =>
    refine le_trans (vrAt_step hB0 hB1 n) ?_
    rw [pow_succ]; linarith

/-- after 26 rounds every element has converged -/
theorem vrMore_26 {k : VrConst ℝ} (hB0 : 0 ≤ k.B) (hB1 : k.B ≤ 1 / 4) : vrMore k 26 = false := by
  have := vrAt_gap hB0 hB1 25
  simp only [vrMore, decide_eq_false_iff_not, not_lt, py_abs]
  refine le_trans this ?_
  norm_num

/-- the constants `vreckon` computes for one element -/
abbrev vrK (ell : Option (Ellipsoid ℝ)) (deg : Bool) (p : ℝ × ℝ × ℝ × ℝ) : VrConst ℝ :=
  vrConst (resolveEllipsoid ell).semimajor_axis (resolveEllipsoid ell).semiminor_axis (resolveEllipsoid ell).flattening
    (polarAdjust (toRad deg p.1)) p.2.2.1 (toRad deg p.2.2.2)

/-- the constants in closed form -/
theorem vrConst_real (a b f φ rng az : ℝ) :
    let U := vReduced f φ
    let u := (1 - (Real.cos U * Real.sin az) ^ 2) * (a ^ 2 - b ^ 2) / b ^ 2
    vrConst a b f φ rng az = ⟨f, Real.sin az, Real.cos az, Real.cos U, Real.sin U, at2 ((1 - f) * Real.tan φ) (Real.cos az),
      Real.cos U * Real.sin az, 1 - (Real.cos U * Real.sin az) ^ 2, vB u, rng / (b * vA u)⟩ := by
  have hc : 1 / Real.sqrt (1 + ((1 - f) * Real.tan φ) ^ 2) = Real.cos (vReduced f φ) := by
    rw [vReduced_real, Real.cos_arctan]
  have hs : (1 - f) * Real.tan φ * Real.cos (vReduced f φ) = Real.sin (vReduced f φ) := by
    rw [vReduced_real]
    have h0 := (Real.cos_arctan_pos ((1 - f) * Real.tan φ)).ne'
    have := Real.tan_arctan ((1 - f) * Real.tan φ)
    rw [Real.tan_eq_sin_div_cos, div_eq_iff h0] at this
    linarith
  simp only [vrConst, py_sin, py_cos, py_tan, py_sqrt, py_atan2, lit_1, hc, hs]
  simp only [pow_two]

theorem vrU_mem {a b c : ℝ} (hb : 0 < b) (hab : b ≤ a) (hfl : a ^ 2 ≤ 2 * b ^ 2) (hc : |c| ≤ 1) :
    0 ≤ (1 - c ^ 2) * (a ^ 2 - b ^ 2) / b ^ 2 ∧ (1 - c ^ 2) * (a ^ 2 - b ^ 2) / b ^ 2 ≤ 1 := by
  have hc2 : c ^ 2 ≤ 1 := by rw [← sq_abs]; have := abs_nonneg c; nlinarith
  have hd : 0 ≤ a ^ 2 - b ^ 2 := by nlinarith
  constructor
  · apply div_nonneg (mul_nonneg (by linarith) hd) (sq_nonneg _)
  · rw [div_le_one (by positivity)]; nlinarith [sq_nonneg c]

theorem abs_cos_mul_sin_le (x y : ℝ) : |Real.cos x * Real.sin y| ≤ 1 := by
  rw [abs_mul]; exact mul_le_one₀ (Real.abs_cos_le_one x) (abs_nonneg _) (Real.abs_sin_le_one y)

theorem vrK_B {ell : Option (Ellipsoid ℝ)} (h : RegularO ell) (hfl : NotTooFlat ell) (deg : Bool) (p : ℝ × ℝ × ℝ × ℝ) :
    0 ≤ (vrK ell deg p).B ∧ (vrK ell deg p).B ≤ 1 / 4 := by
  simp only [vrK]
  rw [vrConst_real]
  simp only
  obtain ⟨h0, h1⟩ := vrU_mem h.b_pos h.b_le_a hfl (abs_cos_mul_sin_le (vReduced (resolveEllipsoid ell).flattening (polarAdjust (toRad deg p.1))) (toRad deg p.2.2.2))
  obtain ⟨-, -, h2, h3⟩ := vAB_mem h0 h1
  exact ⟨h2, by linarith⟩

/-- what `vreckon` returns for valid input: the loop always stops, after at most 26 rounds -/
theorem vreckonArr_result (pts : List (ℝ × ℝ × ℝ × ℝ)) (ell : Option (Ellipsoid ℝ)) (deg : Bool) (h : RegularO ell) (hfl : NotTooFlat ell)
    (hr : ∀ p ∈ pts, 0 ≤ p.2.2.1) (hl : ∀ p ∈ pts, |toRad deg p.1| ≤ Real.pi / 2) :
    ∃ M ≤ 26, (∀ p ∈ pts, vrMore (vrK ell deg p) M = false) ∧
      (∀ i < M, ∃ p ∈ pts, vrMore (vrK ell deg p) i = true) ∧
      vreckonArr pts ell deg = some (.ok (pts.map fun p =>
        (vrFinish (vrK ell deg p) (toRad deg p.2.1) (vrAt (vrK ell deg p) M).2).map fun r => (outAngle deg r.1, outAngle deg r.2))) := by
  have hN : ((pts.map (vrK ell deg)).any fun k => vrMore k 26) = false := by
    rw [List.any_eq_false]
    intro k hk
    obtain ⟨p, hp, rfl⟩ := List.mem_map.mp hk
    rw [vrMore_26 (vrK_B h hfl deg p).1 (vrK_B h hfl deg p).2]; simp
  obtain ⟨M, -, h2, h3, h4, h5⟩ := vrLoop_spec (pts.map (vrK ell deg)) 26 hN 26 0 (by omega)
  refine ⟨M, h2, ?_, ?_, ?_⟩
  · intro p hp
    rw [List.any_eq_false] at h3
    simpa using h3 _ (List.mem_map_of_mem hp)
  · intro i hi
    have := h4 i (by omega) hi
    rw [List.any_eq_true] at this
    obtain ⟨k, hk, hk'⟩ := this
    obtain ⟨p, hp, rfl⟩ := List.mem_map.mp hk
    exact ⟨p, hp, hk'⟩
  · unfold vreckonArr
    rw [if_neg]
    · simp only [inAngle_toRad, List.any_map, Function.comp_def, py_abs, py_pi, lit_2]
      rw [if_neg]
      · simp only [List.map_map, Function.comp_def] at h5 ⊢
        have e : (fun p : ℝ × ℝ × ℝ × ℝ => (vrConst (resolveEllipsoid ell).semimajor_axis (resolveEllipsoid ell).semiminor_axis
            (resolveEllipsoid ell).flattening (polarAdjust (toRad deg p.1)) p.2.2.1 (toRad deg p.2.2.2), 2 * Real.pi,
            (⟨(vrConst (resolveEllipsoid ell).semimajor_axis (resolveEllipsoid ell).semiminor_axis
            (resolveEllipsoid ell).flattening (polarAdjust (toRad deg p.1)) p.2.2.1 (toRad deg p.2.2.2)).s0, none⟩ : VrState ℝ))) =
            fun p => (vrK ell deg p, vrAt (vrK ell deg p) 0) := by
          funext p; simp only [vrAt, lit_2, py_pi]
        rw [e, h5, Option.map_some, List.zip_map', List.map_map]
        rfl
      · simp only [List.any_eq_true, decide_eq_true_eq, not_exists, not_and, not_lt]
        exact hl
    · simp only [List.any_eq_true, decide_eq_true_eq, not_exists, not_and, not_lt, lit_0]
      exact hr

/-- **C41.** `vreckon` terminates on every input, scalar or array of any length, on every ellipsoid with `a² ≤ 2b²`
(its `while` loop has no iteration limit). -/
theorem vreckon_terminates (pts : List (ℝ × ℝ × ℝ × ℝ)) (ell : Option (Ellipsoid ℝ)) (deg : Bool) (h : RegularO ell) (hfl : NotTooFlat ell) :
    (∃ r, vreckonArr pts ell deg = some r) ∧
    (∀ lat1 lon1 rng azim, ∃ r, vreckon lat1 lon1 rng azim ell deg = some r) := by
  have key : ∀ pts : List (ℝ × ℝ × ℝ × ℝ), ∃ r, vreckonArr pts ell deg = some r := by
    intro pts
    by_cases hr : ∀ p ∈ pts, 0 ≤ p.2.2.1
    · by_cases hl : ∀ p ∈ pts, |toRad deg p.1| ≤ Real.pi / 2
      · obtain ⟨M, -, -, -, e⟩ := vreckonArr_result pts ell deg h hfl hr hl
        exact ⟨_, e⟩
      · push Not at hl
        obtain ⟨p, hp, hp'⟩ := hl
        unfold vreckonArr
        split_ifs with h1
        · exact ⟨_, rfl⟩
        · simp only [inAngle_toRad, List.any_map, Function.comp_def, py_abs, py_pi, lit_2]
          rw [if_pos]
          · exact ⟨_, rfl⟩
          · rw [List.any_eq_true]; exact ⟨p, hp, by simpa using hp'⟩
    · push Not at hr
      obtain ⟨p, hp, hp'⟩ := hr
      unfold vreckonArr
      rw [if_pos]
      · exact ⟨_, rfl⟩
      · rw [List.any_eq_true]; exact ⟨p, hp, by simpa using hp'⟩
  refine ⟨key pts, fun lat1 lon1 rng azim => ?_⟩
  obtain ⟨r, e⟩ := key [(lat1, lon1, rng, azim)]
  unfold vreckon
  rw [e]; exact ⟨_, rfl⟩

/-- the scalar call, for valid input -/
theorem vreckon_result (lat1 lon1 rng azim : ℝ) (ell : Option (Ellipsoid ℝ)) (deg : Bool) (h : RegularO ell) (hfl : NotTooFlat ell)
    (hr : 0 ≤ rng) (hl : |toRad deg lat1| ≤ Real.pi / 2) :
    ∃ M ≤ 26, vrMore (vrK ell deg (lat1, lon1, rng, azim)) M = false ∧
      (∀ i < M, vrMore (vrK ell deg (lat1, lon1, rng, azim)) i = true) ∧
      vreckon lat1 lon1 rng azim ell deg = some (.ok (
        (vrFinish (vrK ell deg (lat1, lon1, rng, azim)) (toRad deg lon1) (vrAt (vrK ell deg (lat1, lon1, rng, azim)) M).2).map
          fun r => (outAngle deg r.1, outAngle deg r.2))) := by
  obtain ⟨M, h1, h2, h3, h4⟩ := vreckonArr_result [(lat1, lon1, rng, azim)] ell deg h hfl (by simpa using hr) (by simpa using hl)
  refine ⟨M, h1, h2 _ (by simp), fun i hi => by simpa using h3 i hi, ?_⟩
  unfold vreckon
  rw [h4]; simp

/-- **C41.** `vreckon` raises `ValueError` exactly for a negative range (checked first) or a latitude outside
`[-90, 90]` degrees; every other input returns. -/
theorem vreckon_error_iff (lat1 lon1 rng azim : ℝ) (ell : Option (Ellipsoid ℝ)) (deg : Bool) (h : RegularO ell) (hfl : NotTooFlat ell) :
    (vreckon lat1 lon1 rng azim ell deg = some (.error (.valueError "Ground distance must be positive")) ↔ rng < 0) ∧
    (vreckon lat1 lon1 rng azim ell deg = some (.error (.valueError "Input lat. must be between -90 and 90 deg., inclusive.")) ↔
      0 ≤ rng ∧ fullTurn deg / 4 < |lat1|) ∧
    ((∃ r, vreckon lat1 lon1 rng azim ell deg = some (.ok r)) ↔ 0 ≤ rng ∧ |lat1| ≤ fullTurn deg / 4) := by
  by_cases h1 : rng < 0
  · have e : vreckon lat1 lon1 rng azim ell deg = some (.error (.valueError "Ground distance must be positive")) := by
      unfold vreckon vreckonArr
      rw [if_pos (by simpa using h1)]; rfl
    rw [e]
    refine ⟨by simp [h1], by simp; intro h2; linarith, by simp; intro h2; linarith⟩
  · by_cases h2 : |lat1| ≤ fullTurn deg / 4
    · obtain ⟨M, -, -, -, e⟩ := vreckon_result lat1 lon1 rng azim ell deg h hfl (not_lt.mp h1) ((abs_toRad_le_iff deg lat1).mpr h2)
      rw [e]
      refine ⟨by simp; exact not_lt.mp h1, by simp; intro; exact h2, by simp [h2, not_lt.mp h1]⟩
    · have e : vreckon lat1 lon1 rng azim ell deg = some (.error (.valueError "Input lat. must be between -90 and 90 deg., inclusive.")) := by
        unfold vreckon vreckonArr
        rw [if_neg (by simpa using h1)]
        simp only [inAngle_toRad, List.any_map, Function.comp_def, py_abs, py_pi, lit_2]
        rw [if_pos]
        · rfl
        · simp only [List.any_cons, List.any_nil, Bool.or_false, decide_eq_true_eq]
          rw [← not_le, abs_toRad_le_iff]; exact h2
      rw [e]
      refine ⟨by simp; exact not_lt.mp h1, by simp; exact ⟨not_lt.mp h1, not_le.mp h2⟩, by simp; intro _; exact not_le.mp h2⟩

end
end Pymap3d
