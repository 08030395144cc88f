import Verif.Props.FloatEcef
import Verif.Props.LocalFrames
import Verif.Props.Aer

set_option linter.unusedSectionVars false
/-!
**C77** Rounding errors of the local-frame conversions, in every floating-point arithmetic of `Py/FloatArith.lean`.
-/
namespace Pymap3d
open Py PyFloat
open Spec hiding norm dist

noncomputable section

variable {M : FloatArith}

/-- three coordinates, each within `k` roundings of the scale `S` -/
def Err3 (M : FloatArith) (k : ℕ) (S : ℝ) (P : V3) (p : Fl M × Fl M × Fl M) : Prop :=
  Err M.u k S P.1 p.1.val ∧ Err M.u k S P.2.1 p.2.1.val ∧ Err M.u k S P.2.2 p.2.2.val

/-- exact coordinates are bounded by the length of the vector -/
theorem abs_le_norm (P : V3) : |P.1| ≤ Spec.norm P ∧ |P.2.1| ≤ Spec.norm P ∧ |P.2.2| ≤ Spec.norm P := by
  unfold Spec.norm dot
  refine ⟨?_, ?_, ?_⟩ <;> apply Real.abs_le_sqrt <;> nlinarith [mul_self_nonneg P.1, mul_self_nonneg P.2.1, mul_self_nonneg P.2.2]

theorem Err3.rescale {k : ℕ} {S T : ℝ} {P : V3} {p : Fl M × Fl M × Fl M} {j n : ℕ} (e : Err3 M k S P p) (hj : j * k ≤ n) (hS : S ≤ j * T)
    (h1 : |P.1| ≤ T) (h2 : |P.2.1| ≤ T) (h3 : |P.2.2| ≤ T) : Err3 M n T P p := by
  have h := M.small
  have hT : 0 ≤ T := (abs_nonneg _).trans h1
  have key : (g M.u k - 1) * S ≤ (g M.u n - 1) * T := by
    have a1 := g_scale h hj (le_refl (j:ℝ))
    have a2 : (g M.u k - 1) * S ≤ (g M.u k - 1) * (j * T) := mul_le_mul_of_nonneg_left hS (by linarith [one_le_g h k])
    nlinarith
  exact ⟨⟨h1, e.1.2.trans key⟩, ⟨h2, e.2.1.2.trans key⟩, ⟨h3, e.2.2.2.trans key⟩⟩

theorem _root_.PyFloat.Err.mulR {u : ℝ} (h : Small u) {j k : ℕ} {S T x y x' y' z : ℝ} (e : Err u j S x x') (f : Err u k T y y')
    (n : Near u 1 (x' * y') z) : Err u (j + k + 1) (S * T) (x * y) z := (e.mul h f).near h n

theorem _root_.PyFloat.Err.addR {u : ℝ} (h : Small u) {j k m : ℕ} (hj : j ≤ m) (hk : k ≤ m) {S T x y x' y' z : ℝ} (e : Err u j S x x')
    (f : Err u k T y y') (n : Near u 1 (x' + y') z) : Err u (m + 1) (S + T) (x + y) z :=
  ((e.mono h hj le_rfl).add (f.mono h hk le_rfl)).near h n

theorem _root_.PyFloat.Err.subR {u : ℝ} (h : Small u) {j k m : ℕ} (hj : j ≤ m) (hk : k ≤ m) {S T x y x' y' z : ℝ} (e : Err u j S x x')
    (f : Err u k T y y') (n : Near u 1 (x' - y') z) : Err u (m + 1) (S + T) (x - y) z :=
  ((e.mono h hj le_rfl).sub (f.mono h hk le_rfl)).near h n

theorem trig_lat {x : ℝ} {deg : Bool} (hlat : |toRad deg x| ≤ Real.pi / 2) :
    Err M.u 24 1 (Real.cos (toRad deg x)) (M.cos (inAngle deg (Fl.of M x)).val) ∧
    Err M.u 24 1 (Real.sin (toRad deg x)) (M.sin (inAngle deg (Fl.of M x)).val) :=
  trig_err (M := M) (j := 2) (inAngle_near deg x) (by have := Real.pi_lt_d2; push_cast; linarith)

theorem trig_lon {x : ℝ} {deg : Bool} (hlon : |toRad deg x| ≤ 2 * Real.pi) :
    Err M.u 64 1 (Real.cos (toRad deg x)) (M.cos (inAngle deg (Fl.of M x)).val) ∧
    Err M.u 64 1 (Real.sin (toRad deg x)) (M.sin (inAngle deg (Fl.of M x)).val) :=
  trig_err (M := M) (j := 7) (inAngle_near deg x) (by have := Real.pi_lt_d2; push_cast; linarith)

/-- `uvw2enu`: an error of `k` roundings of the scale `S` becomes one of `k + 92` roundings of `3 S` -/
theorem uvw2enu_err {k : ℕ} {S : ℝ} {P : V3} {p : Fl M × Fl M × Fl M} (e : Err3 M k S P p) {lat0 lon0 : ℝ} {deg : Bool}
    (hlat : |toRad deg lat0| ≤ Real.pi / 2) (hlon : |toRad deg lon0| ≤ 2 * Real.pi) :
    Err3 M (k + 92) (3 * S) (uvw2enu P.1 P.2.1 P.2.2 lat0 lon0 deg) (uvw2enu p.1 p.2.1 p.2.2 (Fl.of M lat0) (Fl.of M lon0) deg) := by
  have h := M.small
  obtain ⟨e1, e2, e3⟩ := e
  have hS := e1.scale_nonneg
  obtain ⟨c, s⟩ := trig_lat (M := M) hlat
  obtain ⟨C, Sn⟩ := trig_lon (M := M) hlon
  have t := (C.mulR h e1 (M.rnd_near _)).addR h le_rfl le_rfl (Sn.mulR h e2 (M.rnd_near _)) (M.rnd_near _)
  have E := (Sn.neg.mulR h e1 (M.rnd_near _)).addR h le_rfl le_rfl (C.mulR h e2 (M.rnd_near _)) (M.rnd_near _)
  have U := (c.mulR h t (M.rnd_near _)).addR h le_rfl (by omega) (s.mulR h e3 (M.rnd_near _)) (M.rnd_near _)
  have N := (s.neg.mulR h t (M.rnd_near _)).addR h le_rfl (by omega) (c.mulR h e3 (M.rnd_near _)) (M.rnd_near _)
  refine ⟨E.mono h (by omega) (by linarith), N.mono h (by omega) (by linarith), U.mono h (by omega) (by linarith)⟩

/-- `enu2uvw`: an error of `k` roundings of the scale `S` becomes one of `k + 92` roundings of `3 S` -/
theorem enu2uvw_err {k : ℕ} {S : ℝ} {P : V3} {p : Fl M × Fl M × Fl M} (e : Err3 M k S P p) {lat0 lon0 : ℝ} {deg : Bool}
    (hlat : |toRad deg lat0| ≤ Real.pi / 2) (hlon : |toRad deg lon0| ≤ 2 * Real.pi) :
    Err3 M (k + 92) (3 * S) (enu2uvw P.1 P.2.1 P.2.2 lat0 lon0 deg) (enu2uvw p.1 p.2.1 p.2.2 (Fl.of M lat0) (Fl.of M lon0) deg) := by
  have h := M.small
  obtain ⟨e1, e2, e3⟩ := e
  have hS := e1.scale_nonneg
  obtain ⟨c, s⟩ := trig_lat (M := M) hlat
  obtain ⟨C, Sn⟩ := trig_lon (M := M) hlon
  have t := (c.mulR h e3 (M.rnd_near _)).subR h le_rfl le_rfl (s.mulR h e2 (M.rnd_near _)) (M.rnd_near _)
  have W := (s.mulR h e3 (M.rnd_near _)).addR h le_rfl le_rfl (c.mulR h e2 (M.rnd_near _)) (M.rnd_near _)
  have U := (C.mulR h t (M.rnd_near _)).subR h le_rfl (by omega) (Sn.mulR h e1 (M.rnd_near _)) (M.rnd_near _)
  have V := (Sn.mulR h t (M.rnd_near _)).addR h le_rfl (by omega) (C.mulR h e1 (M.rnd_near _)) (M.rnd_near _)
  refine ⟨U.mono h (by omega) (by linarith), V.mono h (by omega) (by linarith), W.mono h (by omega) (by linarith)⟩


theorem Err3.exact (P : V3) (k : ℕ) : Err3 M k (Spec.norm P) P (Fl.of M P.1, Fl.of M P.2.1, Fl.of M P.2.2) := by
  obtain ⟨h1, h2, h3⟩ := abs_le_norm P
  exact ⟨Err.refl M.small h1 k, Err.refl M.small h2 k, Err.refl M.small h3 k⟩

/-- the largest coordinate error is at most `d` -/
def Within (d : ℝ) (p : Fl M × Fl M × Fl M) (P : V3) : Prop :=
  |p.1.val - P.1| ≤ d ∧ |p.2.1.val - P.2.1| ≤ d ∧ |p.2.2.val - P.2.2| ≤ d

theorem Err3.within {k : ℕ} {S K : ℝ} {P : V3} {p : Fl M × Fl M × Fl M} (e : Err3 M k S P p) (hk : k ≤ 1000) (hK : 1.002 * k ≤ K) :
    Within (K * M.u * S) p P :=
  ⟨e.1.bound' M.small hk hK, e.2.1.bound' M.small hk hK, e.2.2.bound' M.small hk hK⟩

/-- **C77.** The rotations between ECEF and ENU vectors in floating point: every component is within `280 u` of the exact one, relative to
the length of the vector. -/
theorem uvw2enu_float (v : V3) (lat0 lon0 : ℝ) (deg : Bool)
    (hlat : |toRad deg lat0| ≤ Real.pi / 2) (hlon : |toRad deg lon0| ≤ 2 * Real.pi) :
    Within (280 * M.u * Spec.norm v) (uvw2enu (Fl.of M v.1) (Fl.of M v.2.1) (Fl.of M v.2.2) (Fl.of M lat0) (Fl.of M lon0) deg)
      (uvw2enu v.1 v.2.1 v.2.2 lat0 lon0 deg) ∧
    Within (280 * M.u * Spec.norm v) (enu2uvw (Fl.of M v.1) (Fl.of M v.2.1) (Fl.of M v.2.2) (Fl.of M lat0) (Fl.of M lon0) deg)
      (enu2uvw v.1 v.2.1 v.2.2 lat0 lon0 deg) := by
  have e : (280:ℝ) * M.u * Spec.norm v = 280 / 3 * M.u * (3 * Spec.norm v) := by ring
  rw [e]
  exact ⟨(uvw2enu_err (Err3.exact v 0) hlat hlon).within (by norm_num) (by norm_num),
    (enu2uvw_err (Err3.exact v 0) hlat hlon).within (by norm_num) (by norm_num)⟩

/-- **C77.** Rotating to ENU and back in floating point returns the vector within `1120 u` of its length. -/
theorem enu_uvw_round_trip_float (v : V3) (lat0 lon0 : ℝ) (deg : Bool)
    (hlat : |toRad deg lat0| ≤ Real.pi / 2) (hlon : |toRad deg lon0| ≤ 2 * Real.pi) :
    let p := uvw2enu (Fl.of M v.1) (Fl.of M v.2.1) (Fl.of M v.2.2) (Fl.of M lat0) (Fl.of M lon0) deg
    let q := enu2uvw (Fl.of M v.1) (Fl.of M v.2.1) (Fl.of M v.2.2) (Fl.of M lat0) (Fl.of M lon0) deg
    Within (1120 * M.u * Spec.norm v) (enu2uvw p.1 p.2.1 p.2.2 (Fl.of M lat0) (Fl.of M lon0) deg) v ∧
    Within (1120 * M.u * Spec.norm v) (uvw2enu q.1 q.2.1 q.2.2 (Fl.of M lat0) (Fl.of M lon0) deg) v := by
  intro p q
  have e : (1120:ℝ) * M.u * Spec.norm v = 1120 / 3 * M.u * (3 * Spec.norm v) := by ring
  rw [e]
  have e1 := uvw2enu_err (M := M) (Err3.exact v 0) hlat hlon
  have e2 := enu2uvw_err (M := M) (Err3.exact v 0) hlat hlon
  have n1 := abs_le_norm (uvw2enu v.1 v.2.1 v.2.2 lat0 lon0 deg)
  have n2 := abs_le_norm (enu2uvw v.1 v.2.1 v.2.2 lat0 lon0 deg)
  rw [uvw2enu_norm] at n1
  rw [enu2uvw_norm] at n2
  have r1 := e1.rescale (j := 3) (n := 276) (by norm_num) (by norm_num) n1.1 n1.2.1 n1.2.2
  have r2 := e2.rescale (j := 3) (n := 276) (by norm_num) (by norm_num) n2.1 n2.2.1 n2.2.2
  have f1 := enu2uvw_err r1 hlat hlon
  have f2 := uvw2enu_err r2 hlat hlon
  have b1 := enu2uvw_uvw2enu v.1 v.2.1 v.2.2 lat0 lon0 deg
  have b2 := uvw2enu_enu2uvw v.1 v.2.1 v.2.2 lat0 lon0 deg
  simp only at b1 b2
  rw [b1] at f1
  rw [b2] at f2
  exact ⟨f1.within (by norm_num) (by norm_num), f2.within (by norm_num) (by norm_num)⟩

/-- an angle argument in range, an altitude: the observer of the local frame -/
structure Observer (e : Option (Ellipsoid ℝ)) (deg : Bool) (lat0 lon0 : ℝ) : Prop where
  regular : RegularO e
  flat : (resolveEllipsoid e).semimajor_axis ^ 2 ≤ 2 * (resolveEllipsoid e).semiminor_axis ^ 2
  lat : |toRad deg lat0| ≤ Real.pi / 2
  lon : |toRad deg lon0| ≤ 2 * Real.pi

/-- the size of the coordinates of a point at altitude `alt` -/
def reach (e : Option (Ellipsoid ℝ)) (alt : ℝ) : ℝ :=
  (resolveEllipsoid e).semimajor_axis ^ 2 / (resolveEllipsoid e).semiminor_axis + |alt|

theorem Observer.err {ell : Option (Ellipsoid (Fl M))} {e : Option (Ellipsoid ℝ)} {deg : Bool} {lat0 lon0 : ℝ} (o : Observer e deg lat0 lon0)
    (he : SameAxes M ell e) (alt0 : ℝ) :
    Err3 M 163 (reach e alt0) (geodetic2ecef lat0 lon0 alt0 e deg) (geodetic2ecef (Fl.of M lat0) (Fl.of M lon0) (Fl.of M alt0) ell deg) := by
  obtain ⟨h1, h2, h3⟩ := geodetic2ecef_err ell e he o.regular o.flat lat0 lon0 alt0 deg o.lat o.lon
  exact ⟨h1, h2, h3.mono M.small (by norm_num) le_rfl⟩

/-- `ecef2enu` for approximate ECEF coordinates -/
theorem ecef2enu_err {ell : Option (Ellipsoid (Fl M))} {e : Option (Ellipsoid ℝ)} {deg : Bool} {lat0 lon0 : ℝ} (o : Observer e deg lat0 lon0)
    (he : SameAxes M ell e) (alt0 : ℝ) {k : ℕ} (hk : 163 ≤ k) {S : ℝ} {P : V3} {p : Fl M × Fl M × Fl M} (hp : Err3 M k S P p) :
    Err3 M (k + 93) (3 * (S + reach e alt0)) (ecef2enu P.1 P.2.1 P.2.2 lat0 lon0 alt0 e deg)
      (ecef2enu p.1 p.2.1 p.2.2 (Fl.of M lat0) (Fl.of M lon0) (Fl.of M alt0) ell deg) := by
  have h := M.small
  obtain ⟨q1, q2, q3⟩ := o.err he alt0
  obtain ⟨p1, p2, p3⟩ := hp
  have d1 := p1.subR h le_rfl hk q1 (M.rnd_near _)
  have d2 := p2.subR h le_rfl hk q2 (M.rnd_near _)
  have d3 := p3.subR h le_rfl hk q3 (M.rnd_near _)
  have := uvw2enu_err (M := M) (k := k + 1) (S := S + reach e alt0)
    (P := (P.1 - (geodetic2ecef lat0 lon0 alt0 e deg).1, P.2.1 - (geodetic2ecef lat0 lon0 alt0 e deg).2.1,
      P.2.2 - (geodetic2ecef lat0 lon0 alt0 e deg).2.2))
    (p := (p.1 - (geodetic2ecef (Fl.of M lat0) (Fl.of M lon0) (Fl.of M alt0) ell deg).1,
      p.2.1 - (geodetic2ecef (Fl.of M lat0) (Fl.of M lon0) (Fl.of M alt0) ell deg).2.1,
      p.2.2 - (geodetic2ecef (Fl.of M lat0) (Fl.of M lon0) (Fl.of M alt0) ell deg).2.2)) ⟨d1, d2, d3⟩ o.lat o.lon
  rw [show k + 93 = k + 1 + 92 by omega]
  exact this

/-- **C77.** `ecef2enu` in floating point. -/
theorem ecef2enu_float {ell : Option (Ellipsoid (Fl M))} {e : Option (Ellipsoid ℝ)} (he : SameAxes M ell e) {deg : Bool} {lat0 lon0 : ℝ}
    (o : Observer e deg lat0 lon0) (alt0 : ℝ) (P : V3) :
    Within (780 * M.u * (Spec.norm P + reach e alt0))
      (ecef2enu (Fl.of M P.1) (Fl.of M P.2.1) (Fl.of M P.2.2) (Fl.of M lat0) (Fl.of M lon0) (Fl.of M alt0) ell deg)
      (ecef2enu P.1 P.2.1 P.2.2 lat0 lon0 alt0 e deg) := by
  have e : (780:ℝ) * M.u * (Spec.norm P + reach e alt0) = 780 / 3 * M.u * (3 * (Spec.norm P + reach e alt0)) := by ring
  rw [e]
  exact (ecef2enu_err o he alt0 (k := 163) le_rfl (Err3.exact P 163)).within (by norm_num) (by norm_num)

/-- **C77.** `geodetic2enu` in floating point. -/
theorem geodetic2enu_float {ell : Option (Ellipsoid (Fl M))} {e : Option (Ellipsoid ℝ)} (he : SameAxes M ell e) {deg : Bool}
    {lat lon lat0 lon0 : ℝ} (q : Observer e deg lat lon) (o : Observer e deg lat0 lon0) (alt alt0 : ℝ) :
    Within (780 * M.u * (reach e alt + reach e alt0))
      (geodetic2enu (Fl.of M lat) (Fl.of M lon) (Fl.of M alt) (Fl.of M lat0) (Fl.of M lon0) (Fl.of M alt0) ell deg)
      (geodetic2enu lat lon alt lat0 lon0 alt0 e deg) := by
  have e : (780:ℝ) * M.u * (reach e alt + reach e alt0) = 780 / 3 * M.u * (3 * (reach e alt + reach e alt0)) := by ring
  rw [e]
  exact (ecef2enu_err o he alt0 (k := 163) le_rfl (q.err he alt)).within (by norm_num) (by norm_num)

/-- `enu2ecef` counted in roundings -/
theorem enu2ecef_err {ell : Option (Ellipsoid (Fl M))} {e : Option (Ellipsoid ℝ)} {deg : Bool} {lat0 lon0 : ℝ} (o : Observer e deg lat0 lon0)
    (he : SameAxes M ell e) (alt0 : ℝ) {k : ℕ} {S : ℝ} {v : V3} {w : Fl M × Fl M × Fl M} (hw : Err3 M k S v w) {m : ℕ} (hm : 163 ≤ m)
    (hkm : k + 92 ≤ m) :
    Err3 M (m + 1) (reach e alt0 + 3 * S) (enu2ecef v.1 v.2.1 v.2.2 lat0 lon0 alt0 e deg)
      (enu2ecef w.1 w.2.1 w.2.2 (Fl.of M lat0) (Fl.of M lon0) (Fl.of M alt0) ell deg) := by
  have h := M.small
  obtain ⟨q1, q2, q3⟩ := o.err he alt0
  obtain ⟨p1, p2, p3⟩ := enu2uvw_err hw o.lat o.lon
  exact ⟨q1.addR h hm hkm p1 (M.rnd_near _), q2.addR h hm hkm p2 (M.rnd_near _), q3.addR h hm hkm p3 (M.rnd_near _)⟩

/-- **C77.** `enu2ecef` in floating point. -/
theorem enu2ecef_float {ell : Option (Ellipsoid (Fl M))} {e : Option (Ellipsoid ℝ)} (he : SameAxes M ell e) {deg : Bool} {lat0 lon0 : ℝ}
    (o : Observer e deg lat0 lon0) (alt0 : ℝ) (v : V3) :
    Within (165 * M.u * (reach e alt0 + 3 * Spec.norm v))
      (enu2ecef (Fl.of M v.1) (Fl.of M v.2.1) (Fl.of M v.2.2) (Fl.of M lat0) (Fl.of M lon0) (Fl.of M alt0) ell deg)
      (enu2ecef v.1 v.2.1 v.2.2 lat0 lon0 alt0 e deg) :=
  (enu2ecef_err o he alt0 (Err3.exact v 0) le_rfl (by norm_num)).within (by norm_num) (by norm_num)

/-- **C77.** ENU → ECEF → ENU in floating point returns the coordinates within `1560 u` of the size of the coordinates involved. -/
theorem enu_ecef_round_trip_float {ell : Option (Ellipsoid (Fl M))} {e : Option (Ellipsoid ℝ)} (he : SameAxes M ell e) {deg : Bool}
    {lat0 lon0 : ℝ} (o : Observer e deg lat0 lon0) (alt0 : ℝ) (v : V3) :
    let p := enu2ecef (Fl.of M v.1) (Fl.of M v.2.1) (Fl.of M v.2.2) (Fl.of M lat0) (Fl.of M lon0) (Fl.of M alt0) ell deg
    Within (1560 * M.u * (reach e alt0 + 1.5 * Spec.norm v))
      (ecef2enu p.1 p.2.1 p.2.2 (Fl.of M lat0) (Fl.of M lon0) (Fl.of M alt0) ell deg) v := by
  intro p
  have e1 := enu2ecef_err o he alt0 (Err3.exact v 0) le_rfl (by norm_num)
  have e2 := ecef2enu_err o he alt0 (by norm_num) e1
  have b := ecef2enu_enu2ecef lat0 lon0 alt0 e deg v.1 v.2.1 v.2.2
  simp only at b
  rw [b] at e2
  have e : (1560:ℝ) * M.u * (reach e alt0 + 1.5 * Spec.norm v) =
      260 * M.u * (3 * (reach e alt0 + 3 * Spec.norm v + reach e alt0)) := by ring
  rw [e]
  exact e2.within (by norm_num) (by norm_num)

/-- **C77.** `aer2enu` in floating point, for azimuths and elevations within ±360°. -/
theorem aer2enu_err (az el srange : ℝ) (deg : Bool) (haz : |toRad deg az| ≤ 2 * Real.pi) (hel : |toRad deg el| ≤ 2 * Real.pi) :
    Err3 M 130 |srange| (aer2enu az el srange deg) (aer2enu (Fl.of M az) (Fl.of M el) (Fl.of M srange) deg) := by
  have h := M.small
  obtain ⟨c, s⟩ := trig_lon (M := M) hel
  obtain ⟨C, Sn⟩ := trig_lon (M := M) haz
  have e0 : Err M.u 0 |srange| srange srange := Err.refl h le_rfl 0
  have r := e0.mulR h c (M.rnd_near _)
  have E := r.mulR h Sn (M.rnd_near _)
  have N := r.mulR h C (M.rnd_near _)
  have U := e0.mulR h s (M.rnd_near _)
  refine ⟨E.mono h (by omega) (by simp), N.mono h (by omega) (by simp), U.mono h (by omega) (by simp)⟩

/-- **C77.** `aer2enu` and `aer2ecef` in floating point. -/
theorem aer2ecef_float {ell : Option (Ellipsoid (Fl M))} {e : Option (Ellipsoid ℝ)} (he : SameAxes M ell e) {deg : Bool} {lat0 lon0 : ℝ}
    (o : Observer e deg lat0 lon0) (alt0 az el srange : ℝ) (haz : |toRad deg az| ≤ 2 * Real.pi) (hel : |toRad deg el| ≤ 2 * Real.pi) :
    Within (131 * M.u * |srange|) (aer2enu (Fl.of M az) (Fl.of M el) (Fl.of M srange) deg) (aer2enu az el srange deg) ∧
    Within (225 * M.u * (reach e alt0 + 3 * |srange|))
      (aer2ecef (Fl.of M az) (Fl.of M el) (Fl.of M srange) (Fl.of M lat0) (Fl.of M lon0) (Fl.of M alt0) ell deg)
      (aer2ecef az el srange lat0 lon0 alt0 e deg) := by
  have e1 := aer2enu_err (M := M) az el srange deg haz hel
  exact ⟨e1.within (by norm_num) (by norm_num),
    (enu2ecef_err o he alt0 e1 (m := 222) (by norm_num) (by norm_num)).within (by norm_num) (by norm_num)⟩

/-- a WGS84 observer -/
theorem observer_wgs84 {lat lon : ℝ} (hlat : |lat| ≤ 90) (hlon : |lon| ≤ 360) : Observer none true lat lon := by
  have hpi := Real.pi_pos
  have hr : ∀ x B : ℝ, |x| ≤ B → |toRad true x| ≤ B * (Real.pi / 180) := by
    intro x B hx
    simp only [toRad, if_true]
    rw [abs_mul, abs_of_pos (by positivity : 0 < Real.pi / 180)]
    gcongr
  exact ⟨regularO_none, by simp only [resolveEllipsoid, wgs84, Ellipsoid.ofArgs]; norm_num,
    (hr lat 90 hlat).trans (by linarith), (hr lon 360 hlon).trans (by linarith)⟩

/-- **C77, numbers.** On WGS84 in binary64 `geodetic2enu` is within 1.3 micrometres, for points and observers up to 1000 km from the surface. -/
theorem geodetic2enu_float_wgs84 (hM : M.u = (1 / 2) ^ 53) {lat lon lat0 lon0 alt alt0 : ℝ} (hlat : |lat| ≤ 90) (hlon : |lon| ≤ 360)
    (hlat0 : |lat0| ≤ 90) (hlon0 : |lon0| ≤ 360) (h : |alt| ≤ 1000000) (h0 : |alt0| ≤ 1000000) :
    Within 1.3e-6
      (geodetic2enu (Fl.of M lat) (Fl.of M lon) (Fl.of M alt) (Fl.of M lat0) (Fl.of M lon0) (Fl.of M alt0))
      (geodetic2enu lat lon alt lat0 lon0 alt0) := by
  have hf := geodetic2enu_float (M := M) sameAxes_none (observer_wgs84 hlat hlon) (observer_wgs84 hlat0 hlon0) alt alt0
  have hS : ∀ t : ℝ, |t| ≤ 1000000 → reach none t ≤ 7400000 := by
    intro t ht
    have : (resolveEllipsoid (none : Option (Ellipsoid ℝ))).semimajor_axis ^ 2 /
      (resolveEllipsoid (none : Option (Ellipsoid ℝ))).semiminor_axis ≤ 6400000 := by
      simp only [resolveEllipsoid, wgs84, Ellipsoid.ofArgs]; norm_num
    unfold reach; linarith
  have k : 780 * M.u * (reach none alt + reach none alt0) ≤ 1.3e-6 := by
    rw [hM]
    have := hS alt h
    have := hS alt0 h0
    nlinarith
  exact ⟨hf.1.trans k, hf.2.1.trans k, hf.2.2.trans k⟩

/-- the hypotheses are met by binary64 itself -/
example := geodetic2enu_float_wgs84 (M := binary64) rfl (lat := 42) (lon := -82) (lat0 := 41) (lon0 := -80) (alt := 200) (alt0 := 100)
  (by norm_num [abs_of_pos]) (by norm_num [abs_of_neg]) (by norm_num [abs_of_pos]) (by norm_num [abs_of_neg])
  (by norm_num [abs_of_pos]) (by norm_num [abs_of_pos])
example (v : V3) := enu_ecef_round_trip_float (M := binary64) sameAxes_none (observer_wgs84 (lat := 42) (lon := -82) (by norm_num [abs_of_pos])
  (by norm_num [abs_of_neg])) 100 v

end
end Pymap3d
