import Verif.Props.KarneyNewton7
/-!
C73, part 8: the branches of the inverse problem in canonical form.
-/
set_option linter.unusedSectionVars false
set_option linter.unusedSimpArgs false
noncomputable section
namespace Pymap3d
open Py Geodesic
open Spec hiding norm dist

/-- `_Lengths` gives the length of the series -/
theorem lengthsOut_len (g : Geod ℝ) (ε σ σ1 dn1 dn2 : ℝ) :
    (g.lengthsOut ε σ (Real.sin σ1) (Real.cos σ1) dn1 (Real.sin (σ1 + σ)) (Real.cos (σ1 + σ)) dn2).1 = kF ε σ1 σ := by
  simp only [Geod.lengthsOut, sinCosSeries_sin, lit_1]
  rfl

theorem zip_sum (a b x x0 x1 x2 x3 x4 x5 x6 y0 y1 y2 y3 y4 y5 y6 : ℝ) :
    ∑ l ∈ Finset.range 6, (List.zipWith (fun x y => a * x - b * y) [x0, x1, x2, x3, x4, x5, x6] [y0, y1, y2, y3, y4, y5, y6]).getD (l + 1) 0 *
      Real.sin (2 * ((l : ℝ) + 1) * x) = a * (∑ l ∈ Finset.range 6, [x0, x1, x2, x3, x4, x5, x6].getD (l + 1) 0 * Real.sin (2 * ((l : ℝ) + 1) * x)) -
      b * ∑ l ∈ Finset.range 6, [y0, y1, y2, y3, y4, y5, y6].getD (l + 1) 0 * Real.sin (2 * ((l : ℝ) + 1) * x) := by
  simp only [Finset.sum_range_succ, Finset.sum_range_zero, List.zipWith_cons_cons, List.getD_cons_succ, List.getD_cons_zero]
  ring

/-- and the reduced length is the same with either mask -/
theorem lengthsOut_reduced (g : Geod ℝ) (ε σ σ1 dn1 dn2 : ℝ) :
    (g.lengthsOut ε σ (Real.sin σ1) (Real.cos σ1) dn1 (Real.sin (σ1 + σ)) (Real.cos (σ1 + σ)) dn2).2 =
      (g.lengthsReduced ε σ (Real.sin σ1) (Real.cos σ1) dn1 (Real.sin (σ1 + σ)) (Real.cos (σ1 + σ)) dn2).1 := by
  simp only [Geod.lengthsOut, Geod.lengthsReduced, sinCosSeries_sin]
  have hs : ∀ x : ℝ, ∑ l ∈ Finset.range 6, (List.zipWith (fun x y => (1.0 + A1m1f ε) * x - (1.0 + A2m1f ε) * y) (C1f ε) (C2f ε)).getD (l + 1) 0 *
      Real.sin (2 * ((l : ℝ) + 1) * x) = (1.0 + A1m1f ε) * (∑ l ∈ Finset.range 6, (C1f ε).getD (l + 1) 0 * Real.sin (2 * ((l : ℝ) + 1) * x)) -
      (1.0 + A2m1f ε) * ∑ l ∈ Finset.range 6, (C2f ε).getD (l + 1) 0 * Real.sin (2 * ((l : ℝ) + 1) * x) := by
    intro x
    rw [C1f_real, C2f_real, zip_sum]
  rw [hs, hs]
  generalize (1.0 + A1m1f ε) = a
  generalize (1.0 + A2m1f ε) = b
  ring

/-- the error of the solution found by the iteration -/
theorem Prob.error {ell : Option (Ellipsoid ℝ)} {s1 c1 s2 c2 lam κ ω p k : ℝ} (h : Prob ell s1 c1 s2 c2 lam κ) (d : Dir s1 c1 s2 c2 lam ω p k)
    (hv : |(lamCall ell s1 c1 s2 c2 lam p k).v| ≤ 2.5e-15) :
    let e := resolveEllipsoid ell
    let l := lamCall ell s1 c1 s2 c2 lam p k
    SphSol s1 c1 s2 c2 (Real.sin ω) (Real.cos ω) l.sig12 p k l.salp2 l.calp2 ∧ Real.sin l.sig12 ≠ 0 ∧
    |gLen e.semimajor_axis e.semiminor_axis (Real.sqrt (k ^ 2 + (p * s1) ^ 2)) (at2 s1 (k * c1)) (at2 s1 (k * c1) + l.sig12) -
        ((kG ell).lengthsOut l.eps l.sig12 l.ssig1 l.csig1 (Real.sqrt (1 + (kG ell).ep2 * s1 ^ 2)) l.ssig2 l.csig2 (Real.sqrt (1 + (kG ell).ep2 * s2 ^ 2))).1 * (kG ell).b| +
      e.semimajor_axis * |gTurn e.semimajor_axis e.semiminor_axis (p * c1) (Real.sqrt (k ^ 2 + (p * s1) ^ 2)) (at2 s1 (k * c1)) (at2 s1 (k * c1) + l.sig12) -
        (ω - lam)| ≤ e.semimajor_axis * (260 * e.thirdflattening ^ 7 + 2.5e-15) := by
  intro e l
  have hS := h.cfg.S_pos d.pos d.lt
  have hu := Cfg.dir_unit hS d.p_eq d.k_eq
  obtain ⟨n1, n2, -, -⟩ := h.cfg.node_eq hu
  obtain ⟨q1, q2, q3, q4⟩ := at2_unit (h.cfg.SC ω) (Cfg.S_nonneg ω)
  have sp := h.lam_spec d
  obtain ⟨σ1, e1, g1, g2, g3, g4, e2⟩ := sp.σ1
  have hl : l = lamCall ell s1 c1 s2 c2 lam p k := rfl
  rw [← hl] at sp g1 g2 g3 g4 e2 hv
  have hsig := sp.sig12
  have heps := sp.eps
  have a2s := sp.a2s
  have a2c := sp.a2c
  clear_value l
  refine ⟨⟨?_, ?_, ?_, ?_, ?_, ?_, ?_, hu, ?_⟩, ?_, ?_⟩
  · rw [hsig]; exact q1
  · rw [hsig]; exact q2
  · rw [hsig, q4]; rfl
  · rw [hsig, q3]; exact d.p_eq
  · rw [hsig, q3]; exact d.k_eq
  · rw [hsig, q3]; exact a2s
  · rw [hsig, q3]; exact a2c
  · apply mul_right_cancel₀ (pow_ne_zero 2 hS.ne')
    have e3 := h.cfg.S_sq' ω
    unfold cfgX at e3
    rw [one_mul]
    conv_rhs => rw [e3, ← a2s, ← a2c]
    ring
  · rw [hsig, q3]; exact hS.ne'
  · obtain ⟨N0, N1, N2, N3, -, -, -, -, -⟩ := kG_numbers_of h.reg (h.flat.trans (by norm_num)) n1 n2
    have ha : 0 < e.semimajor_axis := h.reg.a_pos
    have hb : 0 < e.semiminor_axis := h.reg.b_pos
    have hab : e.semiminor_axis ≤ e.semimajor_axis := h.reg.b_le_a
    have tc := twist_close h.reg (h.flat.trans (by norm_num)) n1 n2 (p * c1) (at2 s1 (k * c1)) l.sig12
    have kl := kF_len hb N0 (N1.trans N2) N3 (at2 s1 (k * c1)) l.sig12
    rw [← heps] at kl N0 N1
    rw [g1, g2, g3, g4, ← hsig, e1, lengthsOut_len, kG_b h.reg, mul_comm (kF _ _ _)]
    rw [e1, ← hsig] at e2
    have hp1 : |p * c1| ≤ 1 := by
      have : p ^ 2 ≤ 1 := by nlinarith [sq_nonneg k]
      have hc := h.cfg.c1_le
      have hp : |p| ≤ 1 := (sq_le_one_iff_abs_le_one p).mp this
      rw [abs_mul, abs_of_pos h.cfg.c1p]
      exact mul_le_one₀ hp h.cfg.c1p.le hc
    have hσ : |l.sig12| ≤ 3.15 := by
      rw [hsig, abs_of_nonneg q1]; have := Real.pi_lt_d2; norm_num at this ⊢; linarith
    have hn0 : 0 ≤ e.thirdflattening := N0.trans N1
    have hεn : l.eps ^ 7 ≤ e.thirdflattening ^ 7 := pow_le_pow_left₀ N0 N1 7
    have hn7 : 0 ≤ e.thirdflattening ^ 7 := pow_nonneg hn0 7
    have hε7 : 0 ≤ l.eps ^ 7 := pow_nonneg N0 7
    have t1 : e.semiminor_axis * (22 * l.eps ^ 7) * |l.sig12| ≤ e.semimajor_axis * (22 * e.thirdflattening ^ 7) * 3.15 :=
      mul_le_mul (mul_le_mul hab (by linarith) (by positivity) ha.le) hσ (abs_nonneg _) (by positivity)
    have t2 : 60 * e.thirdflattening ^ 7 * |l.sig12| * |p * c1| ≤ 60 * e.thirdflattening ^ 7 * 3.15 * 1 :=
      mul_le_mul (mul_le_mul_of_nonneg_left hσ (by positivity)) hp1 (abs_nonneg _) (by positivity)
    rw [← heps] at tc
    have t3 : |gTurn e.semimajor_axis e.semiminor_axis (p * c1) (Real.sqrt (k ^ 2 + (p * s1) ^ 2)) (at2 s1 (k * c1)) (at2 s1 (k * c1) + l.sig12) -
        (ω - lam)| ≤ 60 * e.thirdflattening ^ 7 * 3.15 * 1 + 2.5e-15 := by
      rw [← heps] at e2
      refine le_trans ?_ (add_le_add (tc.trans t2) hv)
      rw [e2]
      refine le_trans (le_of_eq ?_) (abs_sub _ _)
      congr 1; ring
    have t4 := mul_le_mul_of_nonneg_left t3 ha.le
    refine (add_le_add (kl.trans t1) t4).trans ?_
    rw [show ∀ a n : ℝ, a * (22 * n) * 3.15 + a * (60 * n * 3.15 * 1 + 2.5e-15) = a * (258.3 * n + 2.5e-15) from fun a n => by ring]
    apply mul_le_mul_of_nonneg_left _ ha.le
    norm_num; linarith

end Pymap3d
end
