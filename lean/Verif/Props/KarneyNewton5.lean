import Verif.Props.KarneyNewton4
/-!
C73, part 5: the iteration of `geodesic_inverse` converges.
-/
set_option linter.unusedSectionVars false
set_option linter.unusedSimpArgs false
noncomputable section
namespace Pymap3d
open Py Geodesic
open Spec hiding norm dist

/-- a problem in canonical form whose arc stays away from the antipode: near the longitude difference `lam` arcs are at most `κ` times their sine -/
structure Prob (ell : Option (Ellipsoid ℝ)) (s1 c1 s2 c2 lam κ : ℝ) : Prop where
  reg : RegularO ell
  flat : (resolveEllipsoid ell).flattening ≤ 1 / 150
  cfg : Cfg s1 c1 s2 c2
  lam0 : 0 < lam
  lam1 : lam < Real.pi
  fκ : (resolveEllipsoid ell).flattening * κ ≤ 0.0187
  κ_arc : ∀ ω, 0 < ω → ω < Real.pi → |ω - lam| ≤ 0.1 →
    at2 (cfgS s1 c1 s2 c2 ω) (cfgC s1 c1 s2 c2 ω) ≤ κ * cfgS s1 c1 s2 c2 ω

/-- `(p, k)` is the direction to the longitude difference `ω` -/
structure Dir (s1 c1 s2 c2 lam ω p k : ℝ) : Prop where
  pos : 0 < ω
  lt : ω < Real.pi
  near : |ω - lam| ≤ 0.1
  p_eq : p * cfgS s1 c1 s2 c2 ω = c2 * Real.sin ω
  k_eq : k * cfgS s1 c1 s2 c2 ω = cfgY s1 c1 s2 c2 ω

/-- the call of `_Lambda12` made by the iteration -/
def lamCall (ell : Option (Ellipsoid ℝ)) (s1 c1 s2 c2 lam p k : ℝ) : Lam12 ℝ :=
  (kG ell).lambda12 s1 c1 (Real.sqrt (1 + (kG ell).ep2 * s1 ^ 2)) s2 c2 (Real.sqrt (1 + (kG ell).ep2 * s2 ^ 2)) p k (Real.sin lam) (Real.cos lam) true

/-- the true turn -/
def cfgTurn (ell : Option (Ellipsoid ℝ)) (s1 c1 s2 c2 ω p k : ℝ) : ℝ :=
  gTurn (resolveEllipsoid ell).semimajor_axis (resolveEllipsoid ell).semiminor_axis (p * c1) (Real.sqrt (k ^ 2 + (p * s1) ^ 2)) (at2 s1 (k * c1))
    (at2 s1 (k * c1) + at2 (cfgS s1 c1 s2 c2 ω) (cfgC s1 c1 s2 c2 ω))

namespace Prob
variable {ell : Option (Ellipsoid ℝ)} {s1 c1 s2 c2 lam κ : ℝ} (h : Prob ell s1 c1 s2 c2 lam κ)
include h

theorem sinlam : 0 < Real.sin lam := Real.sin_pos_of_pos_of_lt_pi h.lam0 h.lam1
theorem one_sub : 1 - (resolveEllipsoid ell).semiminor_axis / (resolveEllipsoid ell).semimajor_axis = (resolveEllipsoid ell).flattening := by
  have := h.reg.a_pos
  rw [h.reg.flat]; field_simp

theorem κ_pos : 0 < κ := by
  have a := h.κ_arc lam h.lam0 h.lam1 (by rw [sub_self, abs_zero]; norm_num)
  have hS := h.cfg.S_pos h.lam0 h.lam1
  obtain ⟨a1, a2, a3, -⟩ := at2_unit (h.cfg.SC lam) (Cfg.S_nonneg lam)
  have : 0 < at2 (cfgS s1 c1 s2 c2 lam) (cfgC s1 c1 s2 c2 lam) := by
    rcases a1.eq_or_lt with e | e
    · rw [← e, Real.sin_zero] at a3; linarith
    · exact e
  exact pos_of_mul_pos_left (this.trans_le a) hS.le

theorem f_nonneg : 0 ≤ (resolveEllipsoid ell).flattening := by
  rw [h.reg.flat]; exact div_nonneg (by linarith [h.reg.b_le_a]) h.reg.a_pos.le

theorem n_eq : (resolveEllipsoid ell).thirdflattening * (2 - (resolveEllipsoid ell).flattening) = (resolveEllipsoid ell).flattening := by
  have := h.reg.a_pos; have := h.reg.b_pos
  rw [h.reg.third, h.reg.flat]; field_simp; ring

/-- the unit of the rounding of the series -/
theorem noise : 0 ≤ 60 * (resolveEllipsoid ell).thirdflattening ^ 7 * κ ∧ 60 * (resolveEllipsoid ell).thirdflattening ^ 7 * κ ≤ 7.9e-16 := by
  have hn := h.n_eq
  have hf0 := h.f_nonneg
  have hf := h.flat
  have hfκ := h.fκ
  have hκ := h.κ_pos
  generalize (resolveEllipsoid ell).flattening = f at *
  generalize (resolveEllipsoid ell).thirdflattening = n at *
  have hn0 : 0 ≤ n := by
    by_contra hc; push Not at hc
    nlinarith
  have hn1 : n ≤ 1 / 299 := by nlinarith
  have hn2 : n ≤ 0.5017 * f := by nlinarith
  have hnk : n * κ ≤ 0.5017 * 0.0187 := by
    have := mul_le_mul_of_nonneg_right hn2 hκ.le
    nlinarith
  refine ⟨by positivity, ?_⟩
  have h6 : n ^ 6 ≤ (1 / 299) ^ 6 := pow_le_pow_left₀ hn0 hn1 6
  have : n ^ 6 * (n * κ) ≤ (1 / 299) ^ 6 * (0.5017 * 0.0187) := mul_le_mul h6 hnk (by positivity) (by positivity)
  calc 60 * n ^ 7 * κ = 60 * (n ^ 6 * (n * κ)) := by ring
    _ ≤ 60 * ((1 / 299) ^ 6 * (0.5017 * 0.0187)) := by linarith
    _ ≤ _ := by norm_num

/-- what is known of `_Lambda12` for a direction -/
theorem lam_spec {ω p k : ℝ} (d : Dir s1 c1 s2 c2 lam ω p k) :
    LamAt (kG ell) s1 c1 (Real.sqrt (1 + (kG ell).ep2 * s1 ^ 2)) s2 c2 (Real.sqrt (1 + (kG ell).ep2 * s2 ^ 2)) ω lam (cfgS s1 c1 s2 c2 ω) (cfgC s1 c1 s2 c2 ω) p k
      (lamCall ell s1 c1 s2 c2 lam p k) := by
  have hd := abs_le.mp d.near
  have hpi := Real.pi_gt_three
  norm_num at hd
  exact lambda12_at (kG ell) h.cfg.u1 h.cfg.u2 h.cfg.c1p h.cfg.c2p h.cfg.s1n h.cfg.le (Real.sin_pos_of_pos_of_lt_pi d.pos d.lt) (by linarith) (by linarith)
    rfl (h.cfg.S_pos d.pos d.lt) (h.cfg.SC ω) d.p_eq d.k_eq

theorem v_turn {ω p k : ℝ} (d : Dir s1 c1 s2 c2 lam ω p k) :
    |(lamCall ell s1 c1 s2 c2 lam p k).v - (ω - lam - cfgTurn ell s1 c1 s2 c2 ω p k)| ≤ 60 * (resolveEllipsoid ell).thirdflattening ^ 7 * κ * Real.sin ω := by
  obtain ⟨σ1, e1, -, -, -, -, e2⟩ := (h.lam_spec d).σ1
  have hS := h.cfg.S_pos d.pos d.lt
  have hu := Cfg.dir_unit hS d.p_eq d.k_eq
  obtain ⟨n1, n2, -, -⟩ := h.cfg.node_eq hu
  obtain ⟨σ0, -, -, -⟩ := at2_unit (h.cfg.SC ω) (Cfg.S_nonneg ω)
  obtain ⟨t1, t2, -, -⟩ := h.cfg.turn_mem h.reg.b_pos h.reg.b_le_a d.pos d.lt d.p_eq d.k_eq (h.κ_arc ω d.pos d.lt d.near)
  have tc := twist_close h.reg (h.flat.trans (by norm_num)) n1 n2 (p * c1) (at2 s1 (k * c1)) (at2 (cfgS s1 c1 s2 c2 ω) (cfgC s1 c1 s2 c2 ω))
  rw [e2, e1, show ∀ w T K : ℝ, w - K - (w - T) = T - K from fun w T K => by ring]
  refine tc.trans ?_
  rw [abs_of_nonneg σ0, abs_of_pos t1]
  have hn : 0 ≤ 60 * (resolveEllipsoid ell).thirdflattening ^ 7 := nonneg_of_mul_nonneg_left h.noise.1 h.κ_pos
  have := mul_le_mul_of_nonneg_left t2 hn
  linarith

theorem turn_bd {ω p k : ℝ} (d : Dir s1 c1 s2 c2 lam ω p k) :
    0 ≤ cfgTurn ell s1 c1 s2 c2 ω p k ∧ cfgTurn ell s1 c1 s2 c2 ω p k ≤ 0.0187 * Real.sin ω := by
  obtain ⟨-, -, t3, t4⟩ := h.cfg.turn_mem h.reg.b_pos h.reg.b_le_a d.pos d.lt d.p_eq d.k_eq (h.κ_arc ω d.pos d.lt d.near)
  rw [h.one_sub] at t4
  refine ⟨t3, t4.trans ?_⟩
  exact mul_le_mul_of_nonneg_right h.fκ (Real.sin_pos_of_pos_of_lt_pi d.pos d.lt).le

/-- a small residual puts the direction near the right one -/
theorem near_of_small {ω p k : ℝ} (d : Dir s1 c1 s2 c2 lam ω p k) (hv : |(lamCall ell s1 c1 s2 c2 lam p k).v| ≤ 0.0195 * Real.sin lam) :
    |ω - lam| ≤ 0.04 * Real.sin lam ∧ |Real.sin ω - Real.sin lam| ≤ 0.04 * Real.sin lam := by
  have a := h.v_turn d
  obtain ⟨t1, t2⟩ := h.turn_bd d
  have hn := h.noise
  have hm := h.sinlam
  have hsω := Real.sin_pos_of_pos_of_lt_pi d.pos d.lt
  have hs : |Real.sin ω - Real.sin lam| ≤ |ω - lam| := Real.abs_sin_sub_sin_le _ _
  generalize (lamCall ell s1 c1 s2 c2 lam p k).v = v at *
  generalize cfgTurn ell s1 c1 s2 c2 ω p k = T at *
  generalize 60 * (resolveEllipsoid ell).thirdflattening ^ 7 * κ = N at *
  generalize Real.sin ω = y at *
  generalize Real.sin lam = m at *
  have hN : N * y ≤ 1e-9 * y := mul_le_mul_of_nonneg_right (hn.2.trans (by norm_num)) hsω.le
  have e : ω - lam = v + T - (v - (ω - lam - T)) := by ring
  have h1 : |ω - lam| ≤ |v| + T + N * y := by
    have h1 := abs_sub (v + T) (v - (ω - lam - T))
    have h2 := abs_add_le v T
    rw [abs_of_nonneg t1] at h2
    rw [← e] at h1
    linarith
  have h2 : y ≤ m + |ω - lam| := by linarith [(abs_le.mp hs).2]
  have key : |ω - lam| ≤ 0.04 * m := by
    clear * - h1 h2 hN hv t2 hm
    generalize |ω - lam| = z at *
    generalize |v| = w at *
    norm_num at *
    linarith
  exact ⟨key, hs.trans key⟩

theorem ep2_eq : (kG ell).ep2 * (kG ell).f1 ^ 2 = (resolveEllipsoid ell).flattening * (2 - (resolveEllipsoid ell).flattening) := by
  have ha := h.reg.a_pos; have hb := h.reg.b_pos
  rw [kG_ep2 h.reg, kG_f1_eq h.reg, h.reg.flat]; field_simp; ring

/-- the derivative used by the iteration -/
theorem derivative {ω p k : ℝ} (d : Dir s1 c1 s2 c2 lam ω p k) :
    ∃ δ, |δ| ≤ 0.053 ∧ (lamCall ell s1 c1 s2 c2 lam p k).dlam12 = (1 + δ) * (cfgS s1 c1 s2 c2 ω ^ 2 / (c2 * cfgX s1 c1 s2 c2 ω)) := by
  have L := h.lam_spec d
  obtain ⟨σ1, e1, x1, x2, x3, x4, -⟩ := L.σ1
  have hS := h.cfg.S_pos d.pos d.lt
  have hX := h.cfg.X_pos d.pos d.lt
  have hu := Cfg.dir_unit hS d.p_eq d.k_eq
  obtain ⟨n1, n2, n3, n4⟩ := h.cfg.node_eq hu
  rw [← e1] at n3 n4
  obtain ⟨σ0, -, q3, q4⟩ := at2_unit (h.cfg.SC ω) (Cfg.S_nonneg ω)
  have hκ := h.κ_arc ω d.pos d.lt d.near
  obtain ⟨ε0, εn, -⟩ := kG_numbers_of h.reg (h.flat.trans (by norm_num)) n1 n2
  have hz2 : Real.sqrt (k ^ 2 + (p * s1) ^ 2) * Real.sin (σ1 + at2 (cfgS s1 c1 s2 c2 ω) (cfgC s1 c1 s2 c2 ω)) = s2 := by
    rw [Real.sin_add, q3, q4]
    have e5 : cfgC s1 c1 s2 c2 ω = s1 * s2 + c1 * c2 * Real.cos ω := rfl
    have e6 : cfgY s1 c1 s2 c2 ω = c1 * s2 - s1 * c2 * Real.cos ω := rfl
    have hk := d.k_eq
    rw [e6] at hk
    rw [e5]
    linear_combination (s1 * s2 + c1 * c2 * Real.cos ω) * n3 + cfgS s1 c1 s2 c2 ω * n4 + c1 * hk + s2 * h.cfg.u1
  have key := reduced_length_close (f1 := (kG ell).f1) (ep2 := (kG ell).ep2) (c0 := Real.sqrt (k ^ 2 + (p * s1) ^ 2)) (σ1 := σ1)
    (σ := at2 (cfgS s1 c1 s2 c2 ω) (cfgC s1 c1 s2 c2 ω)) (dn1 := Real.sqrt (1 + (kG ell).ep2 * s1 ^ 2)) (dn2 := Real.sqrt (1 + (kG ell).ep2 * s2 ^ 2)) (κ := κ)
    (kG ell) ε0 (by
      have h2 : 0 ≤ 2 - (resolveEllipsoid ell).flattening := by have := h.flat; linarith
      exact (mul_le_mul_of_nonneg_right εn h2).trans (le_of_eq h.n_eq))
    h.f_nonneg h.flat (kG_f1 ell) h.ep2_eq (by rw [← one_pow 2]; exact pow_le_pow_left₀ n1 n2 2) (by rw [n3]) (by rw [hz2]) σ0 (by rw [q3]; exact hκ)
    (by rw [q3]; exact hS.le)
  rw [q3] at key
  have hc2 : (lamCall ell s1 c1 s2 c2 lam p k).calp2 * cfgS s1 c1 s2 c2 ω = cfgX s1 c1 s2 c2 ω := L.a2c
  have hc0 : (lamCall ell s1 c1 s2 c2 lam p k).calp2 ≠ 0 := by
    intro h0; rw [h0, zero_mul] at hc2; exact hX.ne hc2
  have hd := L.d hc0
  rw [x1, x2, x3, x4, L.sig12, L.eps] at hd
  have hfκ := h.fκ
  have hfl := h.flat
  have hf0 := h.f_nonneg
  have c2p := h.cfg.c2p
  generalize ((kG ell).lengthsReduced (kEps (kG ell) (Real.sqrt (k ^ 2 + (p * s1) ^ 2))) (at2 (cfgS s1 c1 s2 c2 ω) (cfgC s1 c1 s2 c2 ω)) (Real.sin σ1) (Real.cos σ1)
    (Real.sqrt (1 + (kG ell).ep2 * s1 ^ 2)) (Real.sin (σ1 + at2 (cfgS s1 c1 s2 c2 ω) (cfgC s1 c1 s2 c2 ω)))
    (Real.cos (σ1 + at2 (cfgS s1 c1 s2 c2 ω) (cfgC s1 c1 s2 c2 ω))) (Real.sqrt (1 + (kG ell).ep2 * s2 ^ 2))).1 = M at *
  generalize (lamCall ell s1 c1 s2 c2 lam p k).calp2 = ca at *
  generalize (lamCall ell s1 c1 s2 c2 lam p k).dlam12 = dl at *
  generalize (kG ell).f1 = f1 at *
  generalize cfgS s1 c1 s2 c2 ω = S at *
  generalize cfgX s1 c1 s2 c2 ω = X at *
  generalize (resolveEllipsoid ell).flattening = f at *
  refine ⟨(f1 * M - S) / S, ?_, ?_⟩
  · rw [abs_div, abs_of_pos hS, div_le_iff₀ hS]
    refine key.trans (mul_le_mul_of_nonneg_right ?_ hS.le)
    clear * - hfκ hfl
    norm_num at *; linarith
  · rw [hd, ← hc2]
    field_simp; ring

/-- one pass of the loop -/
theorem pass {ω p k : ℝ} (d : Dir s1 c1 s2 c2 lam ω p k) (hv : |(lamCall ell s1 c1 s2 c2 lam p k).v| ≤ 0.0195 * Real.sin lam)
    (hv0 : (lamCall ell s1 c1 s2 c2 lam p k).v ≠ 0) :
    let l := lamCall ell s1 c1 s2 c2 lam p k
    let τ := -l.v / l.dlam12
    let P := p * Real.cos τ + k * Real.sin τ
    let Q := k * Real.cos τ - p * Real.sin τ
    l.dlam12 ≠ 0 ∧ 0 < P ∧ P ^ 2 + Q ^ 2 = 1 ∧ ∃ ω', Dir s1 c1 s2 c2 lam ω' P Q ∧
      |(lamCall ell s1 c1 s2 c2 lam P Q).v| ≤ 0.148 * |l.v| + 1.7e-15 * Real.sin lam := by
  intro l τ P Q
  obtain ⟨hn1, hn2⟩ := h.near_of_small d hv
  obtain ⟨δ, hδ, hdl⟩ := h.derivative d
  have hS := h.cfg.S_pos d.pos d.lt
  have hX := h.cfg.X_pos d.pos d.lt
  have c2p := h.cfg.c2p
  have hm := h.sinlam
  have hδ' := abs_le.mp hδ
  have hδp : 0.947 ≤ 1 + δ := by norm_num at hδ' ⊢; linarith
  have hδp0 : 0 < 1 + δ := lt_of_lt_of_le (by norm_num) hδp
  have hdl0 : 0 < l.dlam12 := by
    show 0 < (lamCall ell s1 c1 s2 c2 lam p k).dlam12
    rw [hdl]; positivity
  have eτ : τ = (-l.v) * (c2 * cfgX s1 c1 s2 c2 ω / cfgS s1 c1 s2 c2 ω ^ 2) / (1 + δ) := by
    show -l.v / (lamCall ell s1 c1 s2 c2 lam p k).dlam12 = _
    rw [hdl]; field_simp
  have hsm : |-l.v| ≤ 1 / 48 * Real.sin ω := by
    rw [abs_neg]
    have h3 := (abs_le.mp hn2).1
    refine hv.trans ?_
    clear * - h3 hm
    norm_num at *; linarith
  obtain ⟨ω', w0, w1, w2, w3, w4⟩ := h.cfg.newton_step d.pos d.lt hsm hδ eτ (neg_ne_zero.mpr hv0) d.p_eq d.k_eq
  have hdw : |ω' - ω| ≤ 1.12 * |-l.v| := by
    have h1 := abs_add_le (ω' - ω - -l.v) (-l.v)
    rw [sub_add_cancel] at h1
    refine h1.trans ?_
    generalize |-l.v| = x at *
    norm_num at *; linarith
  have hS' := h.cfg.S_pos w0 w1
  have hD : Dir s1 c1 s2 c2 lam ω' P Q := by
    refine ⟨w0, w1, ?_, w3, w4⟩
    have h1 := abs_add_le (ω' - ω) (ω - lam)
    rw [sub_add_sub_cancel] at h1
    rw [abs_neg] at hdw
    have hl1 := Real.sin_le_one lam
    have hv' : |l.v| ≤ 0.0195 * Real.sin lam := hv
    clear * - h1 hdw hn1 hv' hl1
    generalize |l.v| = x at *
    generalize |ω - lam| = y at *
    generalize |ω' - ω| = z at *
    norm_num at *; linarith
  refine ⟨hdl0.ne', ?_, Cfg.dir_unit hS' w3 w4, ω', hD, ?_⟩
  · have : 0 < P * cfgS s1 c1 s2 c2 ω' := by rw [hD.p_eq]; exact mul_pos c2p (Real.sin_pos_of_pos_of_lt_pi w0 w1)
    exact pos_of_mul_pos_left this hS'.le
  · have hτS : |τ| * cfgS s1 c1 s2 c2 ω ≤ 1.056 * |-l.v| * c2 := by
      have hXS := (le_abs_self _).trans (h.cfg.X_le ω)
      rw [eτ, abs_div, abs_mul, abs_of_pos hδp0, abs_of_pos (show 0 < c2 * cfgX s1 c1 s2 c2 ω / cfgS s1 c1 s2 c2 ω ^ 2 by positivity)]
      generalize |-l.v| = x at *
      have hx : 0 ≤ x := (abs_nonneg _).trans w2 |> fun h => by
        have : 0 ≤ 0.12 * x := h
        exact nonneg_of_mul_nonneg_right this (by norm_num)
      generalize cfgX s1 c1 s2 c2 ω = X at *
      generalize cfgS s1 c1 s2 c2 ω = S at *
      rw [show x * (c2 * X / S ^ 2) / (1 + δ) * S = x * c2 * (X / S / (1 + δ)) by field_simp]
      have : X / S / (1 + δ) ≤ 1.056 := by
        rw [div_le_iff₀ hδp0]
        have : X / S ≤ 1 := (div_le_one hS).mpr hXS
        refine this.trans ?_
        norm_num at hδp ⊢; linarith
      calc x * c2 * (X / S / (1 + δ)) ≤ x * c2 * 1.056 := mul_le_mul_of_nonneg_left this (by positivity)
        _ = _ := by ring
    have ht := h.cfg.turn_step h.reg.b_pos h.reg.b_le_a (by rw [h.one_sub]; exact h.flat) (by rw [h.one_sub]; exact h.fκ) d.pos d.lt w0 w1 d.p_eq d.k_eq w3 w4 hτS hdw
      (h.κ_arc ω d.pos d.lt d.near)
    change |cfgTurn ell s1 c1 s2 c2 ω' P Q - cfgTurn ell s1 c1 s2 c2 ω p k| ≤ _ at ht
    have v1 := h.v_turn d
    have v2 := h.v_turn hD
    change |l.v - _| ≤ _ at v1
    obtain ⟨N0, N1⟩ := h.noise
    have hsω' : Real.sin ω' ≤ Real.sin ω + 1.12 * |-l.v| := by
      have := (abs_le.mp (Real.abs_sin_sub_sin_le ω' ω)).2
      linarith
    have hsω := (abs_le.mp hn2).2
    have hv' : |l.v| ≤ 0.0195 * Real.sin lam := hv
    rw [abs_neg] at hdw ht hsω' w2
    clear_value l P Q τ
    have hp1 := Real.sin_pos_of_pos_of_lt_pi d.pos d.lt
    have hp2 := Real.sin_pos_of_pos_of_lt_pi w0 w1
    generalize (lamCall ell s1 c1 s2 c2 lam P Q).v = v' at *
    generalize cfgTurn ell s1 c1 s2 c2 ω' P Q = T' at *
    generalize cfgTurn ell s1 c1 s2 c2 ω p k = T at *
    generalize 60 * (resolveEllipsoid ell).thirdflattening ^ 7 * κ = N at *
    generalize Real.sin ω = y at *
    generalize Real.sin ω' = y' at *
    generalize Real.sin lam = m at *
    generalize l.v = v at *
    have hNy : N * y ≤ 7.9e-16 * y := mul_le_mul_of_nonneg_right N1 hp1.le
    have hNy' : N * y' ≤ 7.9e-16 * y' := mul_le_mul_of_nonneg_right N1 hp2.le
    have e : v' = (ω' - ω - -v) - (T' - T) + (v' - (ω' - lam - T')) - (v - (ω - lam - T)) := by ring
    have b1 := abs_sub ((ω' - ω - -v) - (T' - T) + (v' - (ω' - lam - T'))) (v - (ω - lam - T))
    have b2 := abs_add_le ((ω' - ω - -v) - (T' - T)) (v' - (ω' - lam - T'))
    have b3 := abs_sub (ω' - ω - -v) (T' - T)
    rw [← e] at b1
    clear * - b1 b2 b3 v1 v2 w2 ht hNy hNy' hsω' hsω hv' hm
    generalize |v| = x at *
    generalize |v'| = x' at *
    generalize |ω' - ω - -v - (T' - T) + (v' - (ω' - lam - T'))| = z1 at *
    generalize |ω' - ω - -v - (T' - T)| = z2 at *
    generalize |ω' - ω - -v| = z3 at *
    generalize |T' - T| = z4 at *
    generalize |v' - (ω' - lam - T')| = z5 at *
    generalize |v - (ω - lam - T)| = z6 at *
    norm_num at *
    linarith

end Prob

set_option maxHeartbeats 1000000 in
/-- the loop ends with a residual of rounding size -/
theorem Prob.loop {ell : Option (Ellipsoid ℝ)} {s1 c1 s2 c2 lam κ : ℝ} (h : Prob ell s1 c1 s2 c2 lam κ) :
    ∀ (j : ℕ), j ≤ 19 → ∀ (st : NewtonSt ℝ) (last : Option (Lam12 ℝ)) (ω : ℝ), Dir s1 c1 s2 c2 lam ω st.salp1 st.calp1 →
      |(lamCall ell s1 c1 s2 c2 lam st.salp1 st.calp1).v| ≤ (0.0194 * 0.15 ^ (19 - j) + 2.04e-15) * Real.sin lam →
      (j = 0 → st.tripb = true) → (st.tripb = true → |(lamCall ell s1 c1 s2 c2 lam st.salp1 st.calp1).v| ≤ 2.5e-15) →
      ∃ ω' p k, Dir s1 c1 s2 c2 lam ω' p k ∧ |(lamCall ell s1 c1 s2 c2 lam p k).v| ≤ 2.5e-15 ∧
        (kG ell).newton s1 c1 (Real.sqrt (1 + (kG ell).ep2 * s1 ^ 2)) s2 c2 (Real.sqrt (1 + (kG ell).ep2 * s2 ^ 2)) (Real.sin lam) (Real.cos lam) (12 + j) st last =
          ((p, k), some (lamCall ell s1 c1 s2 c2 lam p k)) := by
  have hm := h.sinlam
  have hm1 := Real.sin_le_one lam
  intro j
  induction j with
  | zero =>
    intro hj st last ω d hv ht htv
    refine ⟨ω, st.salp1, st.calp1, d, htv (ht rfl), ?_⟩
    obtain ⟨n, hn⟩ : ∃ n, n = 11 := ⟨_, rfl⟩
    have h19 : 31 - (n + 1) < 20 := by omega
    rw [show 12 + 0 = n + 1 by omega]
    simp only [Geod.newton, decide_eq_true h19]
    rw [if_pos (Or.inl (ht rfl))]
    rfl
  | succ j ih =>
    intro hj st last ω d hv ht htv
    obtain ⟨n, hn⟩ : ∃ n, n = 12 + j := ⟨_, rfl⟩
    have hnum : 31 - (n + 1) = 18 - j := by omega
    rw [← hn] at ih
    have hlt : 18 - j < 20 := by omega
    have hcall : (kG ell).lambda12 s1 c1 (Real.sqrt (1 + (kG ell).ep2 * s1 ^ 2)) s2 c2 (Real.sqrt (1 + (kG ell).ep2 * s2 ^ 2)) st.salp1 st.calp1 (Real.sin lam) (Real.cos lam)
      (decide (18 - j < 20)) = lamCall ell s1 c1 s2 c2 lam st.salp1 st.calp1 := by rw [decide_eq_true hlt]; rfl
    have hsub : 19 - (j + 1) = 18 - j := by omega
    rw [hsub] at hv
    have hvs : |(lamCall ell s1 c1 s2 c2 lam st.salp1 st.calp1).v| ≤ 0.0195 * Real.sin lam := by
      refine hv.trans (mul_le_mul_of_nonneg_right ?_ hm.le)
      have : (0.15:ℝ) ^ (18 - j) ≤ 1 := pow_le_one₀ (by norm_num) (by norm_num)
      norm_num at *; linarith
    rw [show 12 + (j + 1) = n + 1 by omega]
    simp only [Geod.newton, hnum, hcall, if_pos hlt]
    obtain ⟨l, hl⟩ : ∃ l, l = lamCall ell s1 c1 s2 c2 lam st.salp1 st.calp1 := ⟨_, rfl⟩
    by_cases hstop : st.tripb = true ∨ ¬ (8.0 * kTol0 ≤ Py.abs (lamCall ell s1 c1 s2 c2 lam st.salp1 st.calp1).v)
    · rw [if_pos hstop]
      refine ⟨ω, st.salp1, st.calp1, d, ?_, rfl⟩
      rcases hstop with h1 | h1
      · exact htv h1
      · simp only [py_abs, kTol0] at h1
        push Not at h1
        refine h1.le.trans ?_
        norm_num
    · rw [if_neg hstop]
      push Not at hstop
      have hv0 : (lamCall ell s1 c1 s2 c2 lam st.salp1 st.calp1).v ≠ 0 := by
        intro h0
        have := hstop.2
        rw [h0] at this
        simp only [py_abs, kTol0, abs_zero] at this
        norm_num at this
      obtain ⟨q1, q2, q3, ω', q4, q5⟩ := h.pass d hvs hv0
      rw [← hl] at q1 q2 q3 q4 q5 hv hvs hv0 htv ⊢
      -- the bookkeeping of the bracket does not matter
      obtain ⟨st', hst'⟩ : ∃ st', st' = (if 0.0 < l.v ∧ (18 - j < 20 ∨ st.calp1b / st.salp1b < st.calp1 / st.salp1) then
          { st with salp1b := st.salp1, calp1b := st.calp1 }
        else if l.v < 0.0 ∧ (18 - j < 20 ∨ st.calp1 / st.salp1 < st.calp1a / st.salp1a) then
          { st with salp1a := st.salp1, calp1a := st.calp1 }
        else st) := ⟨_, rfl⟩
      have hs1 : st'.salp1 = st.salp1 := by rw [hst']; split_ifs <;> rfl
      have hs2 : st'.calp1 = st.calp1 := by rw [hst']; split_ifs <;> rfl
      simp only [← hst', hs1, hs2]
      simp only [py_sin, py_cos, lit_0, py_feq, decide_eq_true_eq]
      rw [if_pos ⟨⟨hlt, q1⟩, q2⟩, norm2_of_unit q3]
      have hj' : 19 - j = 18 - j + 1 := by omega
      apply ih (by omega) _ _ ω' q4
      · refine q5.trans ?_
        rw [hj', pow_succ]
        have hx : 0 ≤ (0.15:ℝ) ^ (18 - j) * Real.sin lam := by positivity
        generalize (0.15:ℝ) ^ (18 - j) = x at *
        generalize |l.v| = y at *
        have e : (0.0194 * x + 2.04e-15) * Real.sin lam = 0.0194 * (x * Real.sin lam) + 2.04e-15 * Real.sin lam := by ring
        have e' : (0.0194 * (x * 0.15) + 2.04e-15) * Real.sin lam = 0.0194 * 0.15 * (x * Real.sin lam) + 2.04e-15 * Real.sin lam := by ring
        rw [e] at hv; rw [e']
        generalize x * Real.sin lam = z at *
        clear * - hv hm hx
        norm_num at *
        linarith
      · intro hj0
        subst hj0
        apply decide_eq_true
        rw [py_abs, kTol0]
        refine hv.trans ((mul_le_of_le_one_right (by positivity) hm1).trans ?_)
        norm_num
      · intro ht'
        have ht' : |l.v| ≤ 16.0 * 2.220446049250313e-16 := by
          have := of_decide_eq_true ht'
          rwa [py_abs, kTol0] at this
        refine q5.trans ?_
        generalize |l.v| = y at *
        clear * - ht' hm1
        norm_num at *
        linarith

end Pymap3d
end
