import Verif.Props.EcefAccuracy2
import Verif.Props.Aer
import Verif.Props.Body

set_option linter.unusedSectionVars false

namespace Pymap3d
open Py
open Spec hiding norm dist

noncomputable section

/-- **C64.** Converting a geodetic point to local coordinates of any kind (ENU, NED, NWU, SEZ, downrange-crossrange-above,
vehicle body axes in any supported frame) and back gives exactly what the geodetic -> ECEF -> geodetic round trip gives: the
observer, its altitude, the heading and the attitude drop out completely. -/
theorem local_geodetic_roundtrip (bk : Backend) (lat lon h lat0 lon0 h0 heading yaw pitch roll : ℝ)
    (ell : Option (Ellipsoid ℝ)) (deg : Bool) (frame frame' : String)
    (hf : frame = "ned" ∨ frame = "enu" ∨ frame = "sez" ∨ frame = "nwu")
    (hf' : frame' = "ned" ∨ frame' = "enu" ∨ frame' = "sez" ∨ frame' = "nwu") :
    let c := geodetic2ecef lat lon h ell deg
    let r := ecef2geodetic bk c.1 c.2.1 c.2.2 ell deg
    (let p := geodetic2enu lat lon h lat0 lon0 h0 ell deg; enu2geodetic bk p.1 p.2.1 p.2.2 lat0 lon0 h0 ell deg) = r ∧
    (let p := geodetic2ned lat lon h lat0 lon0 h0 ell deg; ned2geodetic bk p.1 p.2.1 p.2.2 lat0 lon0 h0 ell deg) = r ∧
    (let p := geodetic2nwu lat lon h lat0 lon0 h0 ell deg; nwu2geodetic bk p.1 p.2.1 p.2.2 lat0 lon0 h0 ell deg) = r ∧
    (let p := geodetic2sez lat lon h lat0 lon0 h0 ell deg; sez2geodetic bk p.1 p.2.1 p.2.2 lat0 lon0 h0 ell deg) = r ∧
    (let p := geodetic2dca lat lon h lat0 lon0 h0 heading ell deg
     dca2geodetic bk p.1 p.2.1 p.2.2 lat0 lon0 h0 heading ell deg) = r ∧
    (do let p ← geodetic2body lat lon h lat0 lon0 h0 yaw pitch roll ell frame "zyx" deg
        body2geodetic bk p.1 p.2.1 p.2.2 lat0 lon0 h0 yaw pitch roll ell frame' "zyx" deg) = Except.ok r := by
  intro c r
  have henu : (let p := geodetic2enu lat lon h lat0 lon0 h0 ell deg
      enu2geodetic bk p.1 p.2.1 p.2.2 lat0 lon0 h0 ell deg) = r := by
    simp only [geodetic2enu_eq, enu2geodetic, enu2ecef_ecef2enu]
    rfl
  refine ⟨henu, ?_, ?_, ?_, ?_, ?_⟩
  · simp only [geodetic2ned, ned2geodetic, neg_neg]; exact henu
  · simp only [geodetic2nwu, nwu2geodetic, neg_neg]; exact henu
  · simp only [geodetic2sez, sez2geodetic, neg_neg]; exact henu
  · have := dca2enu_enu2dca heading deg (geodetic2enu lat lon h lat0 lon0 h0 ell deg).1
      (geodetic2enu lat lon h lat0 lon0 h0 ell deg).2.1 (geodetic2enu lat lon h lat0 lon0 h0 ell deg).2.2
    simp only [geodetic2dca, dca2geodetic]
    simp only at this
    rw [this]
    exact henu
  · rw [geodetic2body_eq]
    simp only [body2geodetic_eq]
    have hb := body2ecef_ecef2body c.1 c.2.1 c.2.2 lat0 lon0 h0 yaw pitch roll ell deg frame frame' hf hf'
    have : ∀ (m : Except PyErr (ℝ × ℝ × ℝ)) (k : ℝ × ℝ × ℝ → Except PyErr (ℝ × ℝ × ℝ)),
        (do let p ← m; let q ← k p; return ecef2geodetic bk q.1 q.2.1 q.2.2 ell deg : Except PyErr (ℝ × ℝ × ℝ)) =
        (do let q ← (do let p ← m; k p); return ecef2geodetic bk q.1 q.2.1 q.2.2 ell deg) := by
      intro m k
      cases m <;> rfl
    refine (this _ _).trans ?_
    rw [hb]
    rfl

/-- **C64.** The same through azimuth, elevation and range, when no local component of the target is non-zero but shorter
than a millimetre; otherwise the point converted back is the target moved by less than 1.8 mm. -/
theorem aer_geodetic_roundtrip (bk : Backend) (lat lon h lat0 lon0 h0 : ℝ) (ell : Option (Ellipsoid ℝ)) (deg : Bool) :
    let c := geodetic2ecef lat lon h ell deg
    let e := geodetic2enu lat lon h lat0 lon0 h0 ell deg
    let p := geodetic2aer lat lon h lat0 lon0 h0 ell deg
    (∃ q : V3, Spec.dist q c < 0.0018 ∧
      aer2geodetic bk p.1 p.2.1 p.2.2 lat0 lon0 h0 ell deg = ecef2geodetic bk q.1 q.2.1 q.2.2 ell deg) ∧
    ((e.1 = 0 ∨ 1 / 1000 ≤ |e.1|) → (e.2.1 = 0 ∨ 1 / 1000 ≤ |e.2.1|) → (e.2.2 = 0 ∨ 1 / 1000 ≤ |e.2.2|) →
      aer2geodetic bk p.1 p.2.1 p.2.2 lat0 lon0 h0 ell deg = ecef2geodetic bk c.1 c.2.1 c.2.2 ell deg) := by
  intro c e p
  have hc : c = enu2ecef e.1 e.2.1 e.2.2 lat0 lon0 h0 ell deg := by
    have := enu2ecef_ecef2enu lat0 lon0 h0 ell deg c.1 c.2.1 c.2.2
    exact this.symm
  have hrt := aer2enu_enu2aer e.1 e.2.1 e.2.2 deg
  have haer : aer2geodetic bk p.1 p.2.1 p.2.2 lat0 lon0 h0 ell deg =
      (let q := enu2ecef (trimMM e.1) (trimMM e.2.1) (trimMM e.2.2) lat0 lon0 h0 ell deg
       ecef2geodetic bk q.1 q.2.1 q.2.2 ell deg) := by
    simp only [aer2geodetic, aer2ecef_eq]
    have hp : p = enu2aer e.1 e.2.1 e.2.2 deg := rfl
    simp only at hrt
    rw [hp, hrt]
  constructor
  · refine ⟨_, ?_, haer⟩
    rw [hc]
    have hd := enu2ecef_dist lat0 lon0 h0 ell deg (trimMM e.1, trimMM e.2.1, trimMM e.2.2) e
    simp only at hd
    rw [hd]
    have ht : ∀ x : ℝ, (trimMM x - x) ^ 2 ≤ (1 / 1000) ^ 2 := by
      intro x
      simp only [trimMM]
      split_ifs with hx
      · rw [zero_sub, neg_sq, ← sq_abs]
        exact pow_le_pow_left₀ (abs_nonneg _) hx.le 2
      · rw [sub_self]; norm_num
    have h1 := ht e.1
    have h2 := ht e.2.1
    have h3 := ht e.2.2
    simp only [Spec.dist, Spec.norm, Spec.sub, dot]
    rw [show (0.0018 : ℝ) = Real.sqrt (0.0018 ^ 2) from (Real.sqrt_sq (by norm_num)).symm]
    apply Real.sqrt_lt_sqrt
    · nlinarith
    · norm_num at *; nlinarith
  · intro k1 k2 k3
    rw [haer, trimMM_eq k1, trimMM_eq k2, trimMM_eq k3]
    simp only
    rw [← hc]

/-- **C64.** WGS84, targets from 12 km below to 100 km above the ellipsoid, whatever the observer: geodetic -> ENU (or NED,
NWU, SEZ, DCA) -> geodetic returns the longitude exactly, the latitude within `3.4e-13` rad and the altitude within 2.2
micrometres. -/
theorem local_geodetic_wgs84 (bk : Backend) (hbk : bk ≠ .npArray) (lat lon alt lat0 lon0 h0 heading : ℝ) (deg : Bool)
    (hlat : -(fullTurn deg / 4) < lat) (hlat' : lat < fullTurn deg / 4)
    (hlon : -(fullTurn deg / 2) < lon) (hlon' : lon ≤ fullTurn deg / 2) (halt : -12000 ≤ alt) (halt' : alt ≤ 100000) :
    let near : V3 → Prop := fun r => r.2.1 = lon ∧ |toRad deg r.1 - toRad deg lat| ≤ 3.4e-13 ∧ |r.2.2 - alt| ≤ 2.2e-6
    near (let p := geodetic2enu lat lon alt lat0 lon0 h0 none deg
          enu2geodetic bk p.1 p.2.1 p.2.2 lat0 lon0 h0 none deg) ∧
    near (let p := geodetic2ned lat lon alt lat0 lon0 h0 none deg
          ned2geodetic bk p.1 p.2.1 p.2.2 lat0 lon0 h0 none deg) ∧
    near (let p := geodetic2nwu lat lon alt lat0 lon0 h0 none deg
          nwu2geodetic bk p.1 p.2.1 p.2.2 lat0 lon0 h0 none deg) ∧
    near (let p := geodetic2sez lat lon alt lat0 lon0 h0 none deg
          sez2geodetic bk p.1 p.2.1 p.2.2 lat0 lon0 h0 none deg) ∧
    near (let p := geodetic2dca lat lon alt lat0 lon0 h0 heading none deg
          dca2geodetic bk p.1 p.2.1 p.2.2 lat0 lon0 h0 heading none deg) := by
  intro near
  obtain ⟨e1, e2, e3, e4, e5, -⟩ := local_geodetic_roundtrip bk lat lon alt lat0 lon0 h0 heading 0 0 0 none deg "ned" "ned"
    (Or.inl rfl) (Or.inl rfl)
  obtain ⟨k1, k2, -⟩ := ecef2geodetic_wgs84_accuracy bk lat lon alt deg hlat hlat' hlon hlon' halt (fun h => absurd h hbk)
  have hn : near (let c := geodetic2ecef lat lon alt none deg; ecef2geodetic bk c.1 c.2.1 c.2.2 none deg) :=
    ⟨k1, k2 halt'⟩
  exact ⟨(congrArg near e1).mpr hn, (congrArg near e2).mpr hn, (congrArg near e3).mpr hn, (congrArg near e4).mpr hn,
    (congrArg near e5).mpr hn⟩

/-- witness: a point 10 km up at 42 degrees north seen from an observer at the south pole -/
example : (let p := geodetic2enu (42 : ℝ) (-82) 10000 (-90) 0 2800 none true
    enu2geodetic .pure p.1 p.2.1 p.2.2 (-90) 0 2800 none true).2.1 = -82 :=
  (local_geodetic_wgs84 .pure (by decide) 42 (-82) 10000 (-90) 0 2800 0 true (by simp only [fullTurn]; norm_num)
    (by simp only [fullTurn]; norm_num) (by simp only [fullTurn]; norm_num) (by simp only [fullTurn]; norm_num)
    (by norm_num) (by norm_num)).1.1

/-- **C64.** Local -> geodetic -> local: whenever the target is on or outside the ellipsoid and off the polar axis, the
coordinates that come back differ from the original by at most the ECEF round-trip bound at the target's distance `d` from
the ellipsoid, whatever the observer, heading and kind of local frame. -/
theorem geodetic_local_roundtrip (bk : Backend) (u v w d lat0 lon0 h0 heading : ℝ) (ell : Option (Ellipsoid ℝ)) (deg : Bool)
    (hr : RegularO ell)
    (hflat : (resolveEllipsoid ell).semimajor_axis ^ 2 ≤ 2 * (resolveEllipsoid ell).semiminor_axis ^ 2)
    (hout : ¬ InsideEllipsoid (resolveEllipsoid ell).semimajor_axis (resolveEllipsoid ell).semiminor_axis
      (enu2ecef u v w lat0 lon0 h0 ell deg))
    (haxis : 0 < (enu2ecef u v w lat0 lon0 h0 ell deg).1 ^ 2 + (enu2ecef u v w lat0 lon0 h0 ell deg).2.1 ^ 2)
    (hd : IsDistToEllipsoid (resolveEllipsoid ell).semimajor_axis (resolveEllipsoid ell).semiminor_axis
      (enu2ecef u v w lat0 lon0 h0 ell deg) d)
    (hbk : bk ≠ .npArray) :
    let a := (resolveEllipsoid ell).semimajor_axis
    let b := (resolveEllipsoid ell).semiminor_axis
    let bound := ((a ^ 2 / b + d) * (a / b) + a) * latErr a b d
    Spec.dist (let r := enu2geodetic bk u v w lat0 lon0 h0 ell deg
      geodetic2enu r.1 r.2.1 r.2.2 lat0 lon0 h0 ell deg) (u, v, w) ≤ bound ∧
    Spec.dist (let r := ned2geodetic bk v u (-w) lat0 lon0 h0 ell deg
      geodetic2ned r.1 r.2.1 r.2.2 lat0 lon0 h0 ell deg) (v, u, -w) ≤ bound ∧
    Spec.dist (let r := nwu2geodetic bk v (-u) w lat0 lon0 h0 ell deg
      geodetic2nwu r.1 r.2.1 r.2.2 lat0 lon0 h0 ell deg) (v, -u, w) ≤ bound ∧
    Spec.dist (let r := sez2geodetic bk (-v) u w lat0 lon0 h0 ell deg
      geodetic2sez r.1 r.2.1 r.2.2 lat0 lon0 h0 ell deg) (-v, u, w) ≤ bound ∧
    (let c := enu2dca u v w heading deg
     Spec.dist (let r := dca2geodetic bk c.1 c.2.1 c.2.2 lat0 lon0 h0 heading ell deg
      geodetic2dca r.1 r.2.1 r.2.2 lat0 lon0 h0 heading ell deg) c ≤ bound) := by
  intro a b bound
  have h := geodetic2ecef_ecef2geodetic_accuracy bk _ _ _ d ell deg hr hflat hout haxis hd (fun h => absurd h hbk)
  simp only at h
  have hE : Spec.dist (let r := enu2geodetic bk u v w lat0 lon0 h0 ell deg
      geodetic2enu r.1 r.2.1 r.2.2 lat0 lon0 h0 ell deg) (u, v, w) ≤ bound := by
    have e1 := ecef2enu_enu2ecef lat0 lon0 h0 ell deg u v w
    have e2 := ecef2enu_dist lat0 lon0 h0 ell deg
      (let r := enu2geodetic bk u v w lat0 lon0 h0 ell deg; geodetic2ecef r.1 r.2.1 r.2.2 ell deg)
      (enu2ecef u v w lat0 lon0 h0 ell deg)
    simp only at e1 e2
    rw [e1] at e2
    simp only [geodetic2enu_eq]
    rw [e2]
    exact h
  have sq : ∀ x y : ℝ, (-x - -y) * (-x - -y) = (x - y) * (x - y) := fun x y => by ring
  refine ⟨hE, ?_, ?_, ?_, ?_⟩
  · refine le_trans (le_of_eq ?_) hE
    simp only [ned2geodetic, geodetic2ned, neg_neg, Spec.dist, Spec.norm, Spec.sub, dot, sq]
    congr 1
    simp only [enu2geodetic]
    ring
  · refine le_trans (le_of_eq ?_) hE
    simp only [nwu2geodetic, geodetic2nwu, neg_neg, Spec.dist, Spec.norm, Spec.sub, dot, sq]
    congr 1
    ring
  · refine le_trans (le_of_eq ?_) hE
    simp only [sez2geodetic, geodetic2sez, neg_neg, Spec.dist, Spec.norm, Spec.sub, dot, sq]
    congr 1
    ring
  · intro c
    refine le_trans (le_of_eq ?_) hE
    have e1 := dca2enu_enu2dca heading deg u v w
    simp only at e1
    simp only [dca2geodetic, geodetic2dca]
    rw [e1]
    generalize (geodetic2enu (F := ℝ) _ _ _ _ _ _ _ _) = q
    simp only [c]
    rw [Spec.dist, Spec.dist, ← enu2dca_norm heading deg (Spec.sub q (u, v, w))]
    congr 1
    simp only [enu2dca, Spec.sub]
    ext <;> simp only [] <;> ring

/-- witness: a target 3 km above an observer on the equator meets the hypotheses -/
example : Spec.dist (let r := enu2geodetic .pure (0 : ℝ) 0 3000 0 0 0
    geodetic2enu r.1 r.2.1 r.2.2 0 0 0) (0, 0, 3000) ≤
      ((6378137 ^ 2 / 6356752.31424518 + 3000) * (6378137 / 6356752.31424518) + 6378137) *
        latErr 6378137 6356752.31424518 3000 := by
  have ea : (resolveEllipsoid (none : Option (Ellipsoid ℝ))).semimajor_axis = 6378137 := by
    simp only [resolveEllipsoid, wgs84, Ellipsoid.ofArgs]; norm_num
  have eb : (resolveEllipsoid (none : Option (Ellipsoid ℝ))).semiminor_axis = 6356752.31424518 := by
    simp only [resolveEllipsoid, wgs84, Ellipsoid.ofArgs]
  have hp : geodetic2ecef (0 : ℝ) 0 (0 + 3000) none true = (6381137, 0, 0) := by
    have hs : Real.sqrt ((6378137 : ℝ) ^ 2) = 6378137 := Real.sqrt_sq (by norm_num)
    rw [geodetic2ecef_real, ea, eb]
    simp [toRad, hs]
    norm_num
  have hq : enu2ecef (0 : ℝ) 0 3000 0 0 0 none true = (6381137, 0, 0) := by
    have h1 := ecef2enu_above 0 0 0 none true 3000
    have h2 := enu2ecef_ecef2enu 0 0 0 none true (6381137 : ℝ) 0 0
    rw [hp] at h1
    simp only at h1 h2
    rwa [h1] at h2
  have h := geodetic_local_roundtrip .pure 0 0 3000 3000 0 0 0 0 none true regularO_none (by rw [ea, eb]; norm_num)
    (by rw [hq, ea, eb]; norm_num [InsideEllipsoid, level]) (by rw [hq]; norm_num)
    (by rw [hq, ← hp]
        have := geodetic2ecef_dist 0 0 (0 + 3000) none true wgs84_regular.a_pos wgs84_regular.b_pos (by norm_num)
        rw [zero_add] at this ⊢
        exact this)
    (by decide)
  rw [ea, eb] at h
  exact h.1

end

end Pymap3d
