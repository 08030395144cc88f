import Verif.Py.FloatArith
import Mathlib.Analysis.SpecialFunctions.Trigonometric.Bounds
import Mathlib.Analysis.Real.Pi.Bounds

set_option linter.unusedSectionVars false

/-! Forward error calculus for `FloatArith`: relative errors `Near` and errors relative to a scale `Err`, both counted in roundings. -/

namespace PyFloat
noncomputable section

variable {u : ℝ}

/-- growth factor of `k` roundings -/
def g (u : ℝ) (k : ℕ) : ℝ := ((1 - u) ^ k)⁻¹

/-- `y` approximates `x`, `|x| ≤ S`, with an error of `k` roundings of `S` -/
def Err (u : ℝ) (k : ℕ) (S x y : ℝ) : Prop := |x| ≤ S ∧ |y - x| ≤ (g u k - 1) * S

/-- the range of `u` -/
def Small (u : ℝ) : Prop := 0 ≤ u ∧ u ≤ 1 / 1000000

theorem FloatArith.small (M : FloatArith) : Small M.u := ⟨M.u_nonneg, M.u_le⟩

theorem Small.lt (h : Small u) : u < 1 := by have := h.2; linarith
theorem Small.base (h : Small u) : 0 < 1 - u := by have := h.2; linarith
theorem Small.pow_pos (h : Small u) (k : ℕ) : 0 < (1 - u) ^ k := _root_.pow_pos h.base k
theorem Small.pow_le_one (h : Small u) (k : ℕ) : (1 - u) ^ k ≤ 1 := pow_le_one₀ h.base.le (by have := h.1; linarith)

theorem g_pos (h : Small u) (k : ℕ) : 0 < g u k := inv_pos.mpr (h.pow_pos k)
theorem one_le_g (h : Small u) (k : ℕ) : 1 ≤ g u k := (one_le_inv₀ (h.pow_pos k)).mpr (h.pow_le_one k)
theorem g_add (j k : ℕ) : g u (j + k) = g u j * g u k := by unfold g; rw [pow_add, mul_inv]
theorem g_zero : g u 0 = 1 := by simp [g]
theorem g_mono (h : Small u) {j k : ℕ} (hjk : j ≤ k) : g u j ≤ g u k := by
  obtain ⟨m, rfl⟩ := Nat.exists_eq_add_of_le hjk
  rw [g_add]
  nlinarith [g_pos h j, one_le_g h m]

theorem g_pow (j k : ℕ) : g u (j * k) = g u k ^ j := by
  unfold g; rw [mul_comm, pow_mul, inv_pow]

/-- `c` errors of `k` roundings are at most one error of `n` roundings when `c k ≤ n` -/
theorem g_scale (h : Small u) {j k n : ℕ} (hn : j * k ≤ n) {c : ℝ} (hc : c ≤ j) : c * (g u k - 1) ≤ g u n - 1 := by
  have h1 := one_le_g h k
  have h2 : (j:ℝ) * (g u k - 1) ≤ g u (j * k) - 1 := by
    rw [g_pow]
    have := one_add_mul_le_pow (a := g u k - 1) (by linarith) j
    rw [add_sub_cancel] at this
    linarith
  have h3 := g_mono h hn
  nlinarith

/-- the size of `k` roundings -/
theorem g_le (h : Small u) {k : ℕ} (hk : k ≤ 1000) : g u k - 1 ≤ 1.002 * k * u := by
  have hk' : (k:ℝ) ≤ 1000 := by exact_mod_cast hk
  have hk0 : (0:ℝ) ≤ k := Nat.cast_nonneg k
  have hb : 1 - k * u ≤ (1 - u) ^ k := by
    have := one_add_mul_le_pow (a := -u) (by have := h.2; linarith) k
    rw [← sub_eq_add_neg] at this
    linarith
  have hku : k * u ≤ 1 / 1000 := by
    calc (k:ℝ) * u ≤ 1000 * (1 / 1000000) := mul_le_mul hk' h.2 h.1 (by norm_num)
      _ = _ := by norm_num
  have hku0 : 0 ≤ k * u := mul_nonneg hk0 h.1
  have hp : 0 < 1 - k * u := by linarith
  have h1 : g u k ≤ (1 - k * u)⁻¹ := inv_anti₀ hp hb
  have h2 : (1 - k * u)⁻¹ ≤ 1 + 1.002 * (k * u) := by
    rw [inv_eq_one_div, div_le_iff₀ hp]
    nlinarith
  linarith

theorem g_le_frac (h : Small u) {k : ℕ} (hk : k ≤ 1000) : g u k - 1 ≤ 1.002 * k / 1000000 := by
  have h1 := g_le h hk
  have hk0 : (0:ℝ) ≤ k := Nat.cast_nonneg k
  have : 1.002 * k * u ≤ 1.002 * k * (1 / 1000000) := mul_le_mul_of_nonneg_left h.2 (by positivity)
  linarith

/-! ### relative errors -/

theorem near_iff (_h : Small u) {k : ℕ} {x y : ℝ} :
    Near u k x y ↔ ∃ θ : ℝ, y = x * θ ∧ (g u k)⁻¹ ≤ θ ∧ θ ≤ g u k := by
  unfold Near g; rw [inv_inv]

theorem theta_abs (h : Small u) {k : ℕ} {θ : ℝ} (a : (g u k)⁻¹ ≤ θ) (b : θ ≤ g u k) : |θ - 1| ≤ g u k - 1 := by
  have hp := g_pos h k
  have h1 := one_le_g h k
  have : 1 - (g u k)⁻¹ ≤ g u k - 1 := by
    have e : g u k * (g u k)⁻¹ = 1 := mul_inv_cancel₀ hp.ne'
    generalize (g u k)⁻¹ = w at e ⊢
    nlinarith [sq_nonneg (g u k - 1)]
  rw [abs_le]; constructor <;> linarith

theorem Near.abs_sub (h : Small u) {k : ℕ} {x y : ℝ} (n : Near u k x y) : |y - x| ≤ (g u k - 1) * |x| := by
  obtain ⟨θ, e, a, b⟩ := (near_iff h).1 n
  rw [e, show x * θ - x = (θ - 1) * x by ring, abs_mul]
  exact mul_le_mul_of_nonneg_right (theta_abs h a b) (abs_nonneg x)

theorem Near.abs_le (h : Small u) {k : ℕ} {x y : ℝ} (n : Near u k x y) : |y| ≤ g u k * |x| := by
  have h1 := n.abs_sub h
  have h2 := abs_sub_abs_le_abs_sub y x
  linarith

theorem Near.pos (h : Small u) {k : ℕ} {x y : ℝ} (n : Near u k x y) (hx : 0 < x) : 0 < y := by
  obtain ⟨θ, e, a, _⟩ := n
  rw [e]; exact mul_pos hx (lt_of_lt_of_le (h.pow_pos k) a)

theorem Near.nonneg (h : Small u) {k : ℕ} {x y : ℝ} (n : Near u k x y) (hx : 0 ≤ x) : 0 ≤ y := by
  obtain ⟨θ, e, a, _⟩ := n
  rw [e]; exact mul_nonneg hx ((h.pow_pos k).le.trans a)

theorem Near.le' (h : Small u) {k : ℕ} {x y : ℝ} (n : Near u k x y) (hx : 0 ≤ x) : y ≤ g u k * x := by
  obtain ⟨θ, e, _, b⟩ := (near_iff h).1 n
  rw [e, mul_comm]; exact mul_le_mul_of_nonneg_right b hx

theorem Near.symm (h : Small u) {k : ℕ} {x y : ℝ} (n : Near u k x y) : Near u k y x := by
  obtain ⟨θ, e, a, b⟩ := n
  have hθ := lt_of_lt_of_le (h.pow_pos k) a
  refine ⟨θ⁻¹, by rw [e]; field_simp, ?_, inv_anti₀ (h.pow_pos k) a⟩
  rw [le_inv_comm₀ (h.pow_pos k) hθ]; exact b

theorem Near.trans (h : Small u) {j k : ℕ} {x y z : ℝ} (n : Near u j x y) (m : Near u k y z) : Near u (j + k) x z := by
  obtain ⟨θ, e, a, b⟩ := (near_iff h).1 n
  obtain ⟨τ, e', a', b'⟩ := (near_iff h).1 m
  refine (near_iff h).2 ⟨θ * τ, by rw [e', e]; ring, ?_, ?_⟩
  · rw [g_add, mul_inv]
    exact mul_le_mul a a' (inv_pos.mpr (g_pos h k)).le ((inv_pos.mpr (g_pos h j)).le.trans a)
  · rw [g_add]
    exact mul_le_mul b b' ((inv_pos.mpr (g_pos h k)).le.trans a') (g_pos h j).le

theorem Near.mul (h : Small u) {j k : ℕ} {x y x' y' : ℝ} (n : Near u j x x') (m : Near u k y y') :
    Near u (j + k) (x * y) (x' * y') := by
  obtain ⟨θ, e, a, b⟩ := (near_iff h).1 n
  obtain ⟨τ, e', a', b'⟩ := (near_iff h).1 m
  refine (near_iff h).2 ⟨θ * τ, by rw [e', e]; ring, ?_, ?_⟩
  · rw [g_add, mul_inv]
    exact mul_le_mul a a' (inv_pos.mpr (g_pos h k)).le ((inv_pos.mpr (g_pos h j)).le.trans a)
  · rw [g_add]
    exact mul_le_mul b b' ((inv_pos.mpr (g_pos h k)).le.trans a') (g_pos h j).le

theorem Near.inv (h : Small u) {k : ℕ} {x x' : ℝ} (n : Near u k x x') : Near u k x⁻¹ x'⁻¹ := by
  obtain ⟨θ, e, a, b⟩ := n
  have hθ := lt_of_lt_of_le (h.pow_pos k) a
  refine ⟨θ⁻¹, by rw [e, mul_inv], ?_, inv_anti₀ (h.pow_pos k) a⟩
  rw [le_inv_comm₀ (h.pow_pos k) hθ]; exact b

theorem Near.div (h : Small u) {j k : ℕ} {x y x' y' : ℝ} (n : Near u j x x') (m : Near u k y y') :
    Near u (j + k) (x / y) (x' / y') := by
  rw [div_eq_mul_inv, div_eq_mul_inv]; exact n.mul h (m.inv h)

theorem Near.pow (h : Small u) {k : ℕ} {x x' : ℝ} (n : Near u k x x') (j : ℕ) : Near u (j * k) (x ^ j) (x' ^ j) := by
  induction j with
  | zero => simpa using Near.refl h.1 h.lt 0 (1:ℝ)
  | succ j ih =>
    rw [pow_succ, pow_succ, Nat.succ_mul]; exact ih.mul h n

theorem Near.neg {k : ℕ} {x x' : ℝ} (n : Near u k x x') : Near u k (-x) (-x') := by
  obtain ⟨θ, e, a, b⟩ := n
  exact ⟨θ, by rw [e]; ring, a, b⟩

/-- sums of non-negative numbers -/
theorem Near.add (h : Small u) {k : ℕ} {x y x' y' : ℝ} (hx : 0 ≤ x) (hy : 0 ≤ y) (n : Near u k x x') (m : Near u k y y') :
    Near u k (x + y) (x' + y') := by
  obtain ⟨θ, e, a, b⟩ := (near_iff h).1 n
  obtain ⟨τ, e', a', b'⟩ := (near_iff h).1 m
  by_cases hs : x + y = 0
  · have hx0 : x = 0 := by linarith
    have hy0 : y = 0 := by linarith
    subst hx0; subst hy0
    simp only [zero_mul] at e e'
    subst e; subst e'
    simpa using Near.refl h.1 h.lt k (0:ℝ)
  · have hp : 0 < x + y := lt_of_le_of_ne (by linarith) (Ne.symm hs)
    refine (near_iff h).2 ⟨(x' + y') / (x + y), by field_simp, ?_, ?_⟩
    · rw [le_div_iff₀ hp, e, e']
      nlinarith [mul_le_mul_of_nonneg_left a hx, mul_le_mul_of_nonneg_left a' hy]
    · rw [div_le_iff₀ hp, e, e']
      nlinarith [mul_le_mul_of_nonneg_left b hx, mul_le_mul_of_nonneg_left b' hy]

/-- square roots halve the relative error -/
theorem Near.sqrt (h : Small u) {k : ℕ} {x x' : ℝ} (n : Near u (2 * k) x x') : Near u k (Real.sqrt x) (Real.sqrt x') := by
  obtain ⟨θ, e, a, b⟩ := n
  have hp := h.pow_pos k
  have hθ := lt_of_lt_of_le (h.pow_pos (2 * k)) a
  have e2 : (1 - u) ^ (2 * k) = ((1 - u) ^ k) ^ 2 := by rw [← pow_mul, mul_comm]
  rw [e2] at a b
  refine ⟨Real.sqrt θ, by rw [e, Real.sqrt_mul' _ hθ.le], ?_, ?_⟩
  · exact Real.le_sqrt_of_sq_le a
  · rw [← inv_pow] at b
    exact Real.sqrt_le_iff.mpr ⟨(inv_pos.mpr hp).le, b⟩

theorem Near.abs (h : Small u) {k : ℕ} {x x' : ℝ} (n : Near u k x x') : Near u k |x| |x'| := by
  obtain ⟨θ, e, a, b⟩ := n
  exact ⟨θ, by rw [e, abs_mul, abs_of_pos (lt_of_lt_of_le (h.pow_pos k) a)], a, b⟩

theorem Near.ne_zero (h : Small u) {k : ℕ} {x x' : ℝ} (n : Near u k x x') (hx : x ≠ 0) : x' ≠ 0 := by
  obtain ⟨θ, e, a, _⟩ := n
  rw [e]; exact mul_ne_zero hx (lt_of_lt_of_le (h.pow_pos k) a).ne'

/-- `arctan` does not amplify relative errors -/
theorem arctan_scale {t θ : ℝ} (ht : 0 ≤ t) (hθ : 1 ≤ θ) : Real.arctan (t * θ) ≤ Real.arctan t * θ := by
  -- derivative comparison in `θ`
  have key : ∀ s : ℝ, 1 ≤ s → 0 ≤ Real.arctan t * s - Real.arctan (t * s) := by
    intro s hs
    have hm : MonotoneOn (fun s => Real.arctan t * s - Real.arctan (t * s)) (Set.Ici 1) := by
      refine monotoneOn_of_deriv_nonneg (convex_Ici 1) (by fun_prop) ?_ ?_
      · intro x _
        exact (((hasDerivAt_id x).const_mul (Real.arctan t)).fun_sub
          (((hasDerivAt_id x).const_mul t).arctan)).differentiableAt.differentiableWithinAt
      · intro x hx
        rw [interior_Ici] at hx
        have hx1 : 1 < x := hx
        have hd : HasDerivAt (fun s => Real.arctan t * s - Real.arctan (t * s))
            (Real.arctan t * 1 - 1 / (1 + (t * x) ^ 2) * (t * 1)) x :=
          ((hasDerivAt_id x).const_mul (Real.arctan t)).fun_sub (((hasDerivAt_id x).const_mul t).arctan)
        rw [hd.deriv]
        have h1 : t / (1 + t ^ 2) ≤ Real.arctan t := by
          -- sin θ cos θ ≤ θ
          have hs := Real.sin_le (x := 2 * Real.arctan t) (by have := Real.arctan_nonneg.mpr ht; linarith)
          rw [Real.sin_two_mul] at hs
          have : Real.sin (Real.arctan t) * Real.cos (Real.arctan t) = t / (1 + t ^ 2) := by
            rw [Real.sin_arctan, Real.cos_arctan, div_mul_div_comm, mul_one, Real.mul_self_sqrt (by positivity)]
          linarith
        have h2 : t / (1 + (t * x) ^ 2) ≤ t / (1 + t ^ 2) := by
          have hx2 : 1 ≤ x ^ 2 := by nlinarith
          have : t ^ 2 ≤ (t * x) ^ 2 := by rw [mul_pow]; nlinarith [sq_nonneg t]
          gcongr
        have e : 1 / (1 + (t * x) ^ 2) * (t * 1) = t / (1 + (t * x) ^ 2) := by ring
        rw [e]
        linarith
    have h0 := hm (Set.mem_Ici.mpr le_rfl) (Set.mem_Ici.mpr hs) hs
    simp only [mul_one, sub_self] at h0
    exact h0
  linarith [key θ hθ]

theorem Near.arctan (h : Small u) {k : ℕ} {x x' : ℝ} (n : Near u k x x') : Near u k (Real.arctan x) (Real.arctan x') := by
  -- for non-negative arguments
  have pos : ∀ x x' : ℝ, 0 ≤ x → Near u k x x' → Near u k (Real.arctan x) (Real.arctan x') := by
    intro x x' hx n
    rcases hx.eq_or_lt with hx0 | hx0
    · obtain ⟨θ, e, _⟩ := n
      rw [← hx0, zero_mul] at e
      rw [← hx0, e]; exact Near.refl h.1 h.lt k _
    · have n' := n.symm h
      obtain ⟨θ, e, a, b⟩ := n
      have hθ := lt_of_lt_of_le (h.pow_pos k) a
      have ha : 0 < Real.arctan x := Real.arctan_pos.mpr hx0
      refine ⟨Real.arctan x' / Real.arctan x, by field_simp, ?_, ?_⟩
      · rw [le_div_iff₀ ha]
        rcases le_total 1 θ with h1 | h1
        · have : Real.arctan x ≤ Real.arctan x' := by
            apply Real.arctan_strictMono.monotone; rw [e]; nlinarith
          nlinarith [h.pow_le_one k]
        · have h2 := arctan_scale (t := x') (θ := θ⁻¹) (by rw [e]; positivity) ((one_le_inv₀ hθ).mpr h1)
          rw [e, mul_assoc, mul_inv_cancel₀ hθ.ne', mul_one, ← e] at h2
          have : θ * Real.arctan x ≤ Real.arctan x' := by
            have := mul_le_mul_of_nonneg_left h2 hθ.le
            rw [mul_comm (Real.arctan x'), ← mul_assoc, mul_inv_cancel₀ hθ.ne', one_mul] at this
            exact this
          nlinarith
      · rw [div_le_iff₀ ha]
        rcases le_total 1 θ with h1 | h1
        · have h2 := arctan_scale hx h1
          rw [← e] at h2
          nlinarith
        · have : Real.arctan x' ≤ Real.arctan x := by
            apply Real.arctan_strictMono.monotone; rw [e]; nlinarith
          have := (one_le_inv₀ (h.pow_pos k)).mpr (h.pow_le_one k)
          nlinarith
  rcases le_total 0 x with hx | hx
  · exact pos x x' hx n
  · have := pos (-x) (-x') (by linarith) n.neg
    rw [Real.arctan_neg, Real.arctan_neg] at this
    simpa using this.neg

/-! ### errors relative to a scale -/

theorem Err.scale_nonneg {k : ℕ} {S x y : ℝ} (e : Err u k S x y) : 0 ≤ S := (abs_nonneg x).trans e.1

theorem Err.abs_le {k : ℕ} {S x y : ℝ} (e : Err u k S x y) : |y| ≤ g u k * S := by
  have := abs_sub_abs_le_abs_sub y x
  have h1 := e.1
  have h2 := e.2
  linarith

theorem Err.mono (h : Small u) {k k' : ℕ} {S S' x y : ℝ} (hk : k ≤ k') (hS : S ≤ S') (e : Err u k S x y) : Err u k' S' x y := by
  refine ⟨e.1.trans hS, e.2.trans ?_⟩
  have h1 := one_le_g h k
  have h2 := g_mono h hk
  have h3 := e.scale_nonneg
  exact mul_le_mul (by linarith) hS h3 (by linarith)

theorem Err.of_near (h : Small u) {k : ℕ} {S x y : ℝ} (hS : |x| ≤ S) (n : Near u k x y) : Err u k S x y :=
  ⟨hS, (n.abs_sub h).trans (mul_le_mul_of_nonneg_left hS (by linarith [one_le_g h k]))⟩

theorem Err.refl (h : Small u) {S x : ℝ} (hS : |x| ≤ S) (k : ℕ) : Err u k S x x := by
  refine ⟨hS, ?_⟩
  rw [sub_self, abs_zero]
  exact mul_nonneg (by linarith [one_le_g h k]) ((abs_nonneg x).trans hS)

/-- a further rounding -/
theorem Err.near (h : Small u) {k m : ℕ} {S x y z : ℝ} (e : Err u k S x y) (n : Near u m y z) : Err u (k + m) S x z := by
  refine ⟨e.1, ?_⟩
  have h1 := n.abs_sub h
  have h2 := e.abs_le
  have h3 := e.2
  have h4 := abs_sub_le z y x
  have h5 := one_le_g h m
  rw [g_add]
  have : (g u m - 1) * |y| ≤ (g u m - 1) * (g u k * S) := mul_le_mul_of_nonneg_left h2 (by linarith)
  nlinarith

theorem Err.mul {j k : ℕ} (h : Small u) {S T x y x' y' : ℝ} (e : Err u j S x x') (f : Err u k T y y') :
    Err u (j + k) (S * T) (x * y) (x' * y') := by
  refine ⟨by rw [abs_mul]; exact mul_le_mul e.1 f.1 (abs_nonneg y) e.scale_nonneg, ?_⟩
  rw [show x' * y' - x * y = (x' - x) * y' + x * (y' - y) by ring]
  refine (abs_add_le _ _).trans ?_
  rw [abs_mul, abs_mul, g_add]
  have h1 : |x' - x| * |y'| ≤ (g u j - 1) * S * (g u k * T) :=
    mul_le_mul e.2 f.abs_le (abs_nonneg _) (mul_nonneg (by linarith [one_le_g h j]) e.scale_nonneg)
  have h2 : |x| * |y' - y| ≤ S * ((g u k - 1) * T) := mul_le_mul e.1 f.2 (abs_nonneg _) e.scale_nonneg
  nlinarith

theorem Err.add {k : ℕ} {S T x y x' y' : ℝ} (e : Err u k S x x') (f : Err u k T y y') :
    Err u k (S + T) (x + y) (x' + y') := by
  refine ⟨(abs_add_le _ _).trans (add_le_add e.1 f.1), ?_⟩
  rw [show x' + y' - (x + y) = (x' - x) + (y' - y) by ring]
  refine (abs_add_le _ _).trans ?_
  have h1 := e.2
  have h2 := f.2
  linarith

theorem Err.neg {k : ℕ} {S x x' : ℝ} (e : Err u k S x x') : Err u k S (-x) (-x') := by
  refine ⟨by rw [abs_neg]; exact e.1, ?_⟩
  rw [show -x' - -x = -(x' - x) by ring, abs_neg]; exact e.2

theorem Err.sub {k : ℕ} {S T x y x' y' : ℝ} (e : Err u k S x x') (f : Err u k T y y') :
    Err u k (S + T) (x - y) (x' - y') := by
  rw [sub_eq_add_neg, sub_eq_add_neg]; exact e.add f.neg

/-- an absolute error as an error of some roundings -/
theorem Err.of_abs (h : Small u) {j k n : ℕ} {c S x y : ℝ} (hS : |x| ≤ S) (hn : j * k ≤ n) (hc : c ≤ j)
    (he : |y - x| ≤ c * (g u k - 1) * S) : Err u n S x y := by
  refine ⟨hS, he.trans (mul_le_mul_of_nonneg_right (g_scale h hn hc) ((abs_nonneg x).trans hS))⟩

/-- the bound in numbers -/
theorem Err.bound (h : Small u) {k : ℕ} {S x y : ℝ} (hk : k ≤ 1000) (e : Err u k S x y) : |y - x| ≤ 1.002 * k * u * S :=
  e.2.trans (mul_le_mul_of_nonneg_right (g_le h hk) e.scale_nonneg)

theorem Err.bound' (h : Small u) {k : ℕ} {K S x y : ℝ} (hk : k ≤ 1000) (hK : 1.002 * k ≤ K) (e : Err u k S x y) : |y - x| ≤ K * u * S :=
  (e.bound h hk).trans (mul_le_mul_of_nonneg_right (mul_le_mul_of_nonneg_right hK h.1) e.scale_nonneg)

end
end PyFloat
