import Verif.Props.Broadcast
/-!
**C85**, continued: acceptance of the calls, `enu2aer`, and the functions composed of these.
-/
set_option linter.unusedSectionVars false
set_option linter.unusedSimpArgs false
namespace Pymap3d
open Py Kind

variable {F : Type} [Add F] [Sub F] [Mul F] [Div F] [Neg F] [Pow F Nat] [OfScientific F] [LT F] [LE F]
  [DecidableLT F] [DecidableLE F] [PyMath F]

theorem floatND_iff (v : ND F) : (∀ e, floatOf v.kind = .error e → floatND v = .error e) ∧ (∀ k, floatOf v.kind = .ok k → ∃ w, floatND v = .ok w) := by
  unfold floatND
  constructor
  · intro e he; rw [he]
  · intro k hk; rw [hk]; exact ⟨_, rfl⟩

theorem betaNumpyND_iff (mem : MultiIndex → F) (x y z r u E huE hxy : ND F) (ell : Ellipsoid (ND F)) :
    (∀ e, betaNumpyKind z.kind r.kind u.kind huE.kind hxy.kind = .error e → betaNumpyND mem x y z r u E huE hxy ell = .error e) ∧
    (∀ k, betaNumpyKind z.kind r.kind u.kind huE.kind hxy.kind = .ok k → ∃ w, betaNumpyND mem x y z r u E huE hxy ell = .ok w) := by
  unfold betaNumpyND betaNumpyKind
  have hib : (ndBool or (ndTest npIsclose0 u) (ndTest npIsclose0 hxy)).kind = u.kind + hxy.kind := rfl
  simp only [hib, bind, Except.bind]
  generalize u.kind + hxy.kind = m
  cases maskGet huE.kind m with
  | error e => simp
  | ok _ =>
    cases maskGet u.kind m with
    | error e => simp
    | ok _ =>
      cases maskGet z.kind m with
      | error e => simp
      | ok _ =>
        cases maskGet hxy.kind m with
        | error e => simp
        | ok _ => simp [pure, Except.pure]

/-- whether the call with values is accepted depends only on the kinds -/
theorem ecef2geodeticND_accepts (mem : MultiIndex → F) (x y z : ND F) (ell : Option (Ellipsoid F)) (deg : Bool) :
    (∃ r, ecef2geodeticND mem x y z (ellND ell) deg = .ok r) ↔ ∃ r, ecef2geodeticKind x.kind y.kind z.kind (ellKind ell) deg = .ok r := by
  have kr : (sqrt (x ^ 2 + y ^ 2 + z ^ 2)).kind = sqrt (x.kind ^ 2 + y.kind ^ 2 + z.kind ^ 2) := rfl
  unfold ecef2geodeticND ecef2geodeticKind
  dsimp only
  rw [kr]
  generalize hr : sqrt (x ^ 2 + y ^ 2 + z ^ 2) = rr at *
  cases hck : checkKind (sqrt (x.kind ^ 2 + y.kind ^ 2 + z.kind ^ 2)) with
  | error e => simp [bind, Except.bind]
  | ok rk =>
    have hrk : rk = rr.kind := by
      rw [kr]
      unfold checkKind at hck
      split at hck
      · cases hck
      · exact (Except.ok.inj hck).symm
    subst hrk
    simp only [bind, Except.bind]
    obtain ⟨h1, h2⟩ := betaNumpyND_iff mem x y z rr
      (sqrt (0.5 * (rr ^ 2 - (sqrt ((resolveEllipsoid (ellND ell)).semimajor_axis ^ 2 - (resolveEllipsoid (ellND ell)).semiminor_axis ^ 2)) ^ 2) +
        0.5 * hypot (rr ^ 2 - (sqrt ((resolveEllipsoid (ellND ell)).semimajor_axis ^ 2 - (resolveEllipsoid (ellND ell)).semiminor_axis ^ 2)) ^ 2)
          (2.0 * (sqrt ((resolveEllipsoid (ellND ell)).semimajor_axis ^ 2 - (resolveEllipsoid (ellND ell)).semiminor_axis ^ 2)) * z)))
      (sqrt ((resolveEllipsoid (ellND ell)).semimajor_axis ^ 2 - (resolveEllipsoid (ellND ell)).semiminor_axis ^ 2))
      (hypot (sqrt (0.5 * (rr ^ 2 - (sqrt ((resolveEllipsoid (ellND ell)).semimajor_axis ^ 2 - (resolveEllipsoid (ellND ell)).semiminor_axis ^ 2)) ^ 2) +
        0.5 * hypot (rr ^ 2 - (sqrt ((resolveEllipsoid (ellND ell)).semimajor_axis ^ 2 - (resolveEllipsoid (ellND ell)).semiminor_axis ^ 2)) ^ 2)
          (2.0 * (sqrt ((resolveEllipsoid (ellND ell)).semimajor_axis ^ 2 - (resolveEllipsoid (ellND ell)).semiminor_axis ^ 2)) * z)))
        (sqrt ((resolveEllipsoid (ellND ell)).semimajor_axis ^ 2 - (resolveEllipsoid (ellND ell)).semiminor_axis ^ 2)))
      (hypot x y) (resolveEllipsoid (ellND ell))
    have e1 : (sqrt (0.5 * (rr ^ 2 - (sqrt ((resolveEllipsoid (ellND ell)).semimajor_axis ^ 2 - (resolveEllipsoid (ellND ell)).semiminor_axis ^ 2)) ^ 2) +
        0.5 * hypot (rr ^ 2 - (sqrt ((resolveEllipsoid (ellND ell)).semimajor_axis ^ 2 - (resolveEllipsoid (ellND ell)).semiminor_axis ^ 2)) ^ 2)
          (2.0 * (sqrt ((resolveEllipsoid (ellND ell)).semimajor_axis ^ 2 - (resolveEllipsoid (ellND ell)).semiminor_axis ^ 2)) * z))).kind =
        sqrt (0.5 * (rr.kind ^ 2 - (sqrt ((resolveEllipsoid (ellKind ell)).semimajor_axis ^ 2 - (resolveEllipsoid (ellKind ell)).semiminor_axis ^ 2)) ^ 2) +
        0.5 * hypot (rr.kind ^ 2 - (sqrt ((resolveEllipsoid (ellKind ell)).semimajor_axis ^ 2 - (resolveEllipsoid (ellKind ell)).semiminor_axis ^ 2)) ^ 2)
          (2.0 * (sqrt ((resolveEllipsoid (ellKind ell)).semimajor_axis ^ 2 - (resolveEllipsoid (ellKind ell)).semiminor_axis ^ 2)) * z.kind)) := by
      cases ell <;> rfl
    have e2 : ∀ u : ND F, (hypot u (sqrt ((resolveEllipsoid (ellND ell)).semimajor_axis ^ 2 - (resolveEllipsoid (ellND ell)).semiminor_axis ^ 2))).kind =
        hypot u.kind (sqrt ((resolveEllipsoid (ellKind ell)).semimajor_axis ^ 2 - (resolveEllipsoid (ellKind ell)).semiminor_axis ^ 2)) := by
      intro u; cases ell <;> rfl
    have e3 : (hypot x y).kind = hypot x.kind y.kind := rfl
    rw [e2, e1, e3] at h1 h2
    cases hb : betaNumpyKind z.kind rr.kind _ _ _ with
    | ok k =>
      obtain ⟨w, hw⟩ := h2 _ hb
      rw [hw]
      simp [pure, Except.pure]
    | error e =>
      rw [h1 _ hb]
      cases e with
      | typeError m =>
        simp only
        obtain ⟨x1, x2⟩ := floatND_iff x
        obtain ⟨y1, y2⟩ := floatND_iff y
        obtain ⟨z1, z2⟩ := floatND_iff z
        cases hx : floatOf x.kind with
        | error e => rw [x1 _ hx]; simp
        | ok kx =>
          obtain ⟨wx, hwx⟩ := x2 _ hx
          cases hy : floatOf y.kind with
          | error e => rw [hwx, y1 _ hy]; simp
          | ok ky =>
            obtain ⟨wy, hwy⟩ := y2 _ hy
            cases hz : floatOf z.kind with
            | error e => rw [hwx, hwy, z1 _ hz]; simp
            | ok kz =>
              obtain ⟨wz, hwz⟩ := z2 _ hz
              rw [hwx, hwy, hwz]
              simp [pure, Except.pure]
      | _ => simp

theorem ellKind_py (ell : Option (Ellipsoid F)) : pyEll (ellKind ell) := by
  intro e he
  cases ell with
  | none => cases he
  | some e0 => cases he; exact ⟨rfl, rfl⟩

/-- **C85.** acceptance of `ecef2geodetic` in terms of the shapes of the arguments: as C81 says -/
theorem bc_ecef2geodetic_accepts (mem : MultiIndex → F) (x y z : ND F) (ell : Option (Ellipsoid F)) (deg : Bool) :
    (∃ r, ecef2geodeticND mem x y z (ellND ell) deg = .ok r) ↔
      together [x.kind, y.kind, z.kind] ≠ .bad ∧ (if z.kind = .py then Single x.kind ∧ Single y.kind else
        together [z.kind] = together [x.kind, y.kind, z.kind] ∧ together [x.kind, y.kind] = together [x.kind, y.kind, z.kind]) := by
  rw [ecef2geodeticND_accepts, ecef2geodetic_mixed _ _ _ _ (ellKind_py ell)]

/-- the in-place trimming, read at an index -/
theorem get_trim (v : ND F) (i : MultiIndex) :
    (ndAssign v (ndTest (fun t => decide (Py.abs t < 1e-3)) v) 0.0).get i = zeroTrim (v.get i) := by
  rw [get_ndAssign _ _ _ _ (by simp only [kd_test, join_idem]) (by simp only [kd_lit, join_py])]
  simp [zeroTrim]

/-- **C85.** `enu2aer` with numbers and arrays of different shapes -/
theorem bc_enu2aer (e n u : ND F) (deg : Bool) (r : ND F × ND F × ND F) (h : enu2aerND e n u deg = .ok r) (i : MultiIndex) :
    r.1.get i = (enu2aer (e.get i) (n.get i) (u.get i) deg).1 ∧ r.2.1.get i = (enu2aer (e.get i) (n.get i) (u.get i) deg).2.1 ∧
    r.2.2.get i = (enu2aer (e.get i) (n.get i) (u.get i) deg).2.2 := by
  have fin : ∀ (e' n' u' : ND F), e'.get i = e.get i → n'.get i = n.get i → u'.get i = u.get i →
      (outAngle deg (pymod (atan2 (ndAssign e' (ndTest (fun t => decide (Py.abs t < 1e-3)) e') 0.0)
        (ndAssign n' (ndTest (fun t => decide (Py.abs t < 1e-3)) n') 0.0)) tau),
       outAngle deg (atan2 (ndAssign u' (ndTest (fun t => decide (Py.abs t < 1e-3)) u') 0.0)
        (hypot (ndAssign e' (ndTest (fun t => decide (Py.abs t < 1e-3)) e') 0.0) (ndAssign n' (ndTest (fun t => decide (Py.abs t < 1e-3)) n') 0.0))),
       hypot (hypot (ndAssign e' (ndTest (fun t => decide (Py.abs t < 1e-3)) e') 0.0) (ndAssign n' (ndTest (fun t => decide (Py.abs t < 1e-3)) n') 0.0))
        (ndAssign u' (ndTest (fun t => decide (Py.abs t < 1e-3)) u') 0.0)) = r →
      r.1.get i = (enu2aer (e.get i) (n.get i) (u.get i) deg).1 ∧ r.2.1.get i = (enu2aer (e.get i) (n.get i) (u.get i) deg).2.1 ∧
      r.2.2.get i = (enu2aer (e.get i) (n.get i) (u.get i) deg).2.2 := by
    intro e' n' u' he hn hu hr
    rw [← hr]
    refine ⟨?_, ?_, ?_⟩ <;> simp [enu2aer, get_trim, he, hn, hu]
  unfold enu2aerND at h
  simp only [bind, Except.bind] at h
  split at h
  · -- numbers
    cases he : floatND e with
    | error err => simp [he] at h
    | ok fe =>
      cases hn : floatND n with
      | error err => simp [he, hn] at h
      | ok fn =>
        cases hu : floatND u with
        | error err => simp [he, hn, hu] at h
        | ok fu =>
          simp only [he, hn, hu, pure, Except.pure] at h
          split at h
          · cases h
          · obtain ⟨se, ee⟩ := floatND_ok he
            obtain ⟨sn, en⟩ := floatND_ok hn
            obtain ⟨su, eu⟩ := floatND_ok hu
            exact fin fe fn fu (by rw [ee]; exact get_single se i) (by rw [en]; exact get_single sn i) (by rw [eu]; exact get_single su i) (Except.ok.inj h)
  · cases h
  · simp only [pure, Except.pure] at h
    split at h
    · cases h
    · exact fin e n u rfl rfl rfl (Except.ok.inj h)

/-- whether `enu2aer` accepts the arguments depends only on their kinds, as in C81 -/
theorem bc_enu2aer_accepts (e n u : ND F) (deg : Bool) :
    (∃ r, enu2aerND e n u deg = .ok r) ↔ ∃ r, enu2aerKind e.kind n.kind u.kind deg = .ok r := by
  unfold enu2aerND enu2aerKind
  dsimp only
  generalize (do maskSetSelf e.kind; maskSetSelf n.kind; maskSetSelf u.kind : Except PyErr Unit) = t
  have kt : ∀ v : ND F, (ndAssign v (ndTest (fun t => decide (Py.abs t < 1e-3)) v) 0.0).kind = v.kind := fun v => rfl
  obtain ⟨x1, x2⟩ := floatND_iff e
  obtain ⟨y1, y2⟩ := floatND_iff n
  obtain ⟨z1, z2⟩ := floatND_iff u
  have fin : ∀ (a b c : ND F) (ka kb kc : Kind), a.kind = ka → b.kind = kb → c.kind = kc → (hypot (hypot a b) c).kind = hypot (hypot ka kb) kc := by
    intro a b c ka kb kc ha hb hc
    rw [← ha, ← hb, ← hc]; rfl
  cases t with
  | ok v =>
    cases v
    simp only [bind, Except.bind, pure, Except.pure]
    rw [fin _ _ _ _ _ _ (kt e) (kt n) (kt u)]
    cases checkKind (hypot (hypot e.kind n.kind) u.kind) <;> simp
  | error err =>
    cases err with
    | typeError m =>
      simp only [bind, Except.bind]
      cases hx : floatOf e.kind with
      | error er => rw [x1 _ hx]; simp
      | ok kx =>
        obtain ⟨wx, hwx⟩ := x2 _ hx
        cases hy : floatOf n.kind with
        | error er => rw [hwx, y1 _ hy]; simp
        | ok ky =>
          obtain ⟨wy, hwy⟩ := y2 _ hy
          cases hz : floatOf u.kind with
          | error er => rw [hwx, hwy, z1 _ hz]; simp
          | ok kz =>
            obtain ⟨wz, hwz⟩ := z2 _ hz
            rw [hwx, hwy, hwz]
            have fk : ∀ k k' : Kind, floatOf k = .ok k' → k' = .py := by
              intro k k' h
              cases k with
              | arr s => by_cases hs : s.prod = 1 <;> simp [floatOf, hs] at h; exact h.symm
              | _ => simp [floatOf] at h <;> exact h.symm
            have fw : ∀ v w : ND F, floatND v = .ok w → w.kind = .py := by
              intro v w h; rw [(floatND_ok h).2]; rfl
            simp only [pure, Except.pure]
            rw [fin _ _ _ kx ky kz (by rw [kt, fw _ _ hwx, fk _ _ hx]) (by rw [kt, fw _ _ hwy, fk _ _ hy]) (by rw [kt, fw _ _ hwz, fk _ _ hz])]
            cases checkKind (hypot (hypot kx ky) kz) <;> simp
    | _ => simp [bind, Except.bind]

end Pymap3d
