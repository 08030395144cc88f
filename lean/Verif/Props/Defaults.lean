/- Generated by tools/defaults.py from the signatures in /repo/src/pymap3d/*.py; do not edit. -/
import Verif.Model.Aer
import Verif.Model.Dca
import Verif.Model.Body
import Verif.Model.Rsphere
import Verif.Model.RsphereEuler
import Verif.Model.Haversine
import Verif.Model.Spherical
import Verif.Model.Nvector
import Verif.Model.Los
import Verif.Model.Lox
import Verif.Model.Vincenty
import Verif.Model.Karney
import Verif.Model.EllipsoidCache
import Verif.Model.Eci
import Verif.Model.Vallado

set_option linter.unusedSectionVars false
set_option linter.unusedVariables false

namespace Pymap3d
open Py

section
variable {F : Type} [Add F] [Sub F] [Mul F] [Div F] [Neg F] [Pow F Nat] [OfScientific F] [LT F] [LE F] [DecidableLT F]
  [DecidableLE F] [PyMath F]

/-- **C63.** `ecef.py`: omitted optional arguments. -/
theorem defaults_ecef :
    (∀ (lat lon alt : F), geodetic2ecef (F := F) lat lon alt =
      geodetic2ecef (F := F) lat lon alt (some wgs84) true) ∧
    (∀ (bk : Backend) (x y z : F), ecef2geodetic (F := F) bk x y z =
      ecef2geodetic (F := F) bk x y z (some wgs84) true) ∧
    (∀ (u v w lat0 lon0 : F), ecef2enuv (F := F) u v w lat0 lon0 =
      ecef2enuv (F := F) u v w lat0 lon0 true) ∧
    (∀ (x y z lat0 lon0 h0 : F), ecef2enu (F := F) x y z lat0 lon0 h0 =
      ecef2enu (F := F) x y z lat0 lon0 h0 (some wgs84) true) ∧
    (∀ (east north up lat0 lon0 : F), enu2uvw (F := F) east north up lat0 lon0 =
      enu2uvw (F := F) east north up lat0 lon0 true) ∧
    (∀ (u v w lat0 lon0 : F), uvw2enu (F := F) u v w lat0 lon0 =
      uvw2enu (F := F) u v w lat0 lon0 true) ∧
    (∀ (e1 n1 u1 lat0 lon0 h0 : F), enu2ecef (F := F) e1 n1 u1 lat0 lon0 h0 =
      enu2ecef (F := F) e1 n1 u1 lat0 lon0 h0 (some wgs84) true) := by
  refine ⟨?_, ?_, ?_, ?_, ?_, ?_, ?_⟩ <;> intros <;> rfl

/-- **C63.** `enu.py`: omitted optional arguments. -/
theorem defaults_enu :
    (∀ (e n u : F), enu2aer (F := F) e n u =
      enu2aer (F := F) e n u true) ∧
    (∀ (az el srange : F), aer2enu (F := F) az el srange =
      aer2enu (F := F) az el srange true) ∧
    (∀ (bk : Backend) (e n u lat0 lon0 h0 : F), enu2geodetic (F := F) bk e n u lat0 lon0 h0 =
      enu2geodetic (F := F) bk e n u lat0 lon0 h0 (some wgs84) true) ∧
    (∀ (lat lon h lat0 lon0 h0 : F), geodetic2enu (F := F) lat lon h lat0 lon0 h0 =
      geodetic2enu (F := F) lat lon h lat0 lon0 h0 (some wgs84) true) ∧
    (∀ (e n u lat0 lon0 : F), enu2ecefv (F := F) e n u lat0 lon0 =
      enu2ecefv (F := F) e n u lat0 lon0 true) ∧
    (∀ (lat0 lon0 : F), ecef2enu_matrix (F := F) lat0 lon0 =
      ecef2enu_matrix (F := F) lat0 lon0 true) ∧
    (∀ (lat0 lon0 : F), enu2ecef_matrix (F := F) lat0 lon0 =
      enu2ecef_matrix (F := F) lat0 lon0 true) := by
  refine ⟨?_, ?_, ?_, ?_, ?_, ?_, ?_⟩ <;> intros <;> rfl

/-- **C63.** `ned.py`: omitted optional arguments. -/
theorem defaults_ned :
    (∀ (az elev slantRange : F), aer2ned (F := F) az elev slantRange =
      aer2ned (F := F) az elev slantRange true) ∧
    (∀ (n e d : F), ned2aer (F := F) n e d =
      ned2aer (F := F) n e d true) ∧
    (∀ (bk : Backend) (n e d lat0 lon0 h0 : F), ned2geodetic (F := F) bk n e d lat0 lon0 h0 =
      ned2geodetic (F := F) bk n e d lat0 lon0 h0 (some wgs84) true) ∧
    (∀ (n e d lat0 lon0 h0 : F), ned2ecef (F := F) n e d lat0 lon0 h0 =
      ned2ecef (F := F) n e d lat0 lon0 h0 (some wgs84) true) ∧
    (∀ (x y z lat0 lon0 h0 : F), ecef2ned (F := F) x y z lat0 lon0 h0 =
      ecef2ned (F := F) x y z lat0 lon0 h0 (some wgs84) true) ∧
    (∀ (lat lon h lat0 lon0 h0 : F), geodetic2ned (F := F) lat lon h lat0 lon0 h0 =
      geodetic2ned (F := F) lat lon h lat0 lon0 h0 (some wgs84) true) ∧
    (∀ (x y z lat0 lon0 : F), ecef2nedv (F := F) x y z lat0 lon0 =
      ecef2nedv (F := F) x y z lat0 lon0 true) ∧
    (∀ (lat0 lon0 : F), ecef2ned_matrix (F := F) lat0 lon0 =
      ecef2ned_matrix (F := F) lat0 lon0 true) ∧
    (∀ (lat0 lon0 : F), ned2ecef_matrix (F := F) lat0 lon0 =
      ned2ecef_matrix (F := F) lat0 lon0 true) := by
  refine ⟨?_, ?_, ?_, ?_, ?_, ?_, ?_, ?_, ?_⟩ <;> intros <;> rfl

/-- **C63.** `nwu.py`: omitted optional arguments. -/
theorem defaults_nwu :
    (∀ (az elev slantRange : F), aer2nwu (F := F) az elev slantRange =
      aer2nwu (F := F) az elev slantRange true) ∧
    (∀ (n w u : F), nwu2aer (F := F) n w u =
      nwu2aer (F := F) n w u true) ∧
    (∀ (bk : Backend) (n w u lat0 lon0 h0 : F), nwu2geodetic (F := F) bk n w u lat0 lon0 h0 =
      nwu2geodetic (F := F) bk n w u lat0 lon0 h0 (some wgs84) true) ∧
    (∀ (n w u lat0 lon0 h0 : F), nwu2ecef (F := F) n w u lat0 lon0 h0 =
      nwu2ecef (F := F) n w u lat0 lon0 h0 (some wgs84) true) ∧
    (∀ (n w u lat0 lon0 : F), nwu2ecefv (F := F) n w u lat0 lon0 =
      nwu2ecefv (F := F) n w u lat0 lon0 true) ∧
    (∀ (x y z lat0 lon0 h0 : F), ecef2nwu (F := F) x y z lat0 lon0 h0 =
      ecef2nwu (F := F) x y z lat0 lon0 h0 (some wgs84) true) ∧
    (∀ (x y z lat0 lon0 : F), ecef2nwuv (F := F) x y z lat0 lon0 =
      ecef2nwuv (F := F) x y z lat0 lon0 true) ∧
    (∀ (lat lon h lat0 lon0 h0 : F), geodetic2nwu (F := F) lat lon h lat0 lon0 h0 =
      geodetic2nwu (F := F) lat lon h lat0 lon0 h0 (some wgs84) true) ∧
    (∀ (lat0 lon0 : F), ecef2nwu_matrix (F := F) lat0 lon0 =
      ecef2nwu_matrix (F := F) lat0 lon0 true) ∧
    (∀ (lat0 lon0 : F), nwu2ecef_matrix (F := F) lat0 lon0 =
      nwu2ecef_matrix (F := F) lat0 lon0 true) := by
  refine ⟨?_, ?_, ?_, ?_, ?_, ?_, ?_, ?_, ?_, ?_⟩ <;> intros <;> rfl

/-- **C63.** `sez.py`: omitted optional arguments. -/
theorem defaults_sez :
    (∀ (az elev slantRange : F), aer2sez (F := F) az elev slantRange =
      aer2sez (F := F) az elev slantRange true) ∧
    (∀ (s e z : F), sez2aer (F := F) s e z =
      sez2aer (F := F) s e z true) ∧
    (∀ (bk : Backend) (s e z lat0 lon0 h0 : F), sez2geodetic (F := F) bk s e z lat0 lon0 h0 =
      sez2geodetic (F := F) bk s e z lat0 lon0 h0 (some wgs84) true) ∧
    (∀ (s e z lat0 lon0 h0 : F), sez2ecef (F := F) s e z lat0 lon0 h0 =
      sez2ecef (F := F) s e z lat0 lon0 h0 (some wgs84) true) ∧
    (∀ (s e z lat0 lon0 : F), sez2ecefv (F := F) s e z lat0 lon0 =
      sez2ecefv (F := F) s e z lat0 lon0 true) ∧
    (∀ (x y z lat0 lon0 h0 : F), ecef2sez (F := F) x y z lat0 lon0 h0 =
      ecef2sez (F := F) x y z lat0 lon0 h0 (some wgs84) true) ∧
    (∀ (x y z lat0 lon0 : F), ecef2sezv (F := F) x y z lat0 lon0 =
      ecef2sezv (F := F) x y z lat0 lon0 true) ∧
    (∀ (lat lon h lat0 lon0 h0 : F), geodetic2sez (F := F) lat lon h lat0 lon0 h0 =
      geodetic2sez (F := F) lat lon h lat0 lon0 h0 (some wgs84) true) ∧
    (∀ (lat0 lon0 : F), ecef2sez_matrix (F := F) lat0 lon0 =
      ecef2sez_matrix (F := F) lat0 lon0 true) ∧
    (∀ (lat0 lon0 : F), sez2ecef_matrix (F := F) lat0 lon0 =
      sez2ecef_matrix (F := F) lat0 lon0 true) := by
  refine ⟨?_, ?_, ?_, ?_, ?_, ?_, ?_, ?_, ?_, ?_⟩ <;> intros <;> rfl

/-- **C63.** `aer.py`: omitted optional arguments. -/
theorem defaults_aer :
    (∀ (x y z lat0 lon0 h0 : F), ecef2aer (F := F) x y z lat0 lon0 h0 =
      ecef2aer (F := F) x y z lat0 lon0 h0 (some wgs84) true) ∧
    (∀ (lat lon h lat0 lon0 h0 : F), geodetic2aer (F := F) lat lon h lat0 lon0 h0 =
      geodetic2aer (F := F) lat lon h lat0 lon0 h0 (some wgs84) true) ∧
    (∀ (bk : Backend) (az el srange lat0 lon0 h0 : F), aer2geodetic (F := F) bk az el srange lat0 lon0 h0 =
      aer2geodetic (F := F) bk az el srange lat0 lon0 h0 (some wgs84) true) ∧
    (∀ (az el srange lat0 lon0 alt0 : F), aer2ecef (F := F) az el srange lat0 lon0 alt0 =
      aer2ecef (F := F) az el srange lat0 lon0 alt0 (some wgs84) true) := by
  refine ⟨?_, ?_, ?_, ?_⟩ <;> intros <;> rfl

/-- **C63.** `dca.py`: omitted optional arguments. -/
theorem defaults_dca :
    (∀ (e n u heading : F), enu2dca (F := F) e n u heading =
      enu2dca (F := F) e n u heading true) ∧
    (∀ (dr cr above heading : F), dca2enu (F := F) dr cr above heading =
      dca2enu (F := F) dr cr above heading true) ∧
    (∀ (dr cr above heading : F), dca2ned (F := F) dr cr above heading =
      dca2ned (F := F) dr cr above heading true) ∧
    (∀ (n e d heading : F), ned2dca (F := F) n e d heading =
      ned2dca (F := F) n e d heading true) ∧
    (∀ (x y z lat0 lon0 h0 heading : F), ecef2dca (F := F) x y z lat0 lon0 h0 heading =
      ecef2dca (F := F) x y z lat0 lon0 h0 heading (some wgs84) true) ∧
    (∀ (dr cr above lat0 lon0 h0 heading : F), dca2ecef (F := F) dr cr above lat0 lon0 h0 heading =
      dca2ecef (F := F) dr cr above lat0 lon0 h0 heading (some wgs84) true) ∧
    (∀ (lat lon h lat0 lon0 h0 heading : F), geodetic2dca (F := F) lat lon h lat0 lon0 h0 heading =
      geodetic2dca (F := F) lat lon h lat0 lon0 h0 heading (some wgs84) true) ∧
    (∀ (bk : Backend) (dr cr above lat0 lon0 h0 heading : F), dca2geodetic (F := F) bk dr cr above lat0 lon0 h0 heading =
      dca2geodetic (F := F) bk dr cr above lat0 lon0 h0 heading (some wgs84) true) ∧
    (∀ (az el srange heading : F), aer2dca (F := F) az el srange heading =
      aer2dca (F := F) az el srange heading true) ∧
    (∀ (dr cr above heading : F), dca2aer (F := F) dr cr above heading =
      dca2aer (F := F) dr cr above heading true) := by
  refine ⟨?_, ?_, ?_, ?_, ?_, ?_, ?_, ?_, ?_, ?_⟩ <;> intros <;> rfl

/-- **C63.** `body.py`: omitted optional arguments. -/
theorem defaults_body :
    (∀ (yaw pitch roll : F), ned2body_matrix (F := F) yaw pitch roll =
      ned2body_matrix (F := F) yaw pitch roll "zyx" true) ∧
    (∀ (yaw pitch roll : F), body2ned_matrix (F := F) yaw pitch roll =
      body2ned_matrix (F := F) yaw pitch roll "zyx" true) ∧
    (∀ (yaw pitch roll : F), enu2body_matrix (F := F) yaw pitch roll =
      enu2body_matrix (F := F) yaw pitch roll "zyx" true) ∧
    (∀ (yaw pitch roll : F), body2enu_matrix (F := F) yaw pitch roll =
      body2enu_matrix (F := F) yaw pitch roll "zyx" true) ∧
    (∀ (yaw pitch roll : F), sez2body_matrix (F := F) yaw pitch roll =
      sez2body_matrix (F := F) yaw pitch roll "zyx" true) ∧
    (∀ (yaw pitch roll : F), body2sez_matrix (F := F) yaw pitch roll =
      body2sez_matrix (F := F) yaw pitch roll "zyx" true) ∧
    (∀ (yaw pitch roll : F), nwu2body_matrix (F := F) yaw pitch roll =
      nwu2body_matrix (F := F) yaw pitch roll "zyx" true) ∧
    (∀ (yaw pitch roll : F), body2nwu_matrix (F := F) yaw pitch roll =
      body2nwu_matrix (F := F) yaw pitch roll "zyx" true) ∧
    (∀ (n e d yaw pitch roll : F), ned2body (F := F) n e d yaw pitch roll =
      ned2body (F := F) n e d yaw pitch roll "zyx" true) ∧
    (∀ (xb yb zb yaw pitch roll : F), body2ned (F := F) xb yb zb yaw pitch roll =
      body2ned (F := F) xb yb zb yaw pitch roll "zyx" true) ∧
    (∀ (e n u yaw pitch roll : F), enu2body (F := F) e n u yaw pitch roll =
      enu2body (F := F) e n u yaw pitch roll "zyx" true) ∧
    (∀ (xb yb zb yaw pitch roll : F), body2enu (F := F) xb yb zb yaw pitch roll =
      body2enu (F := F) xb yb zb yaw pitch roll "zyx" true) ∧
    (∀ (s e z yaw pitch roll : F), sez2body (F := F) s e z yaw pitch roll =
      sez2body (F := F) s e z yaw pitch roll "zyx" true) ∧
    (∀ (xb yb zb yaw pitch roll : F), body2sez (F := F) xb yb zb yaw pitch roll =
      body2sez (F := F) xb yb zb yaw pitch roll "zyx" true) ∧
    (∀ (n w u yaw pitch roll : F), nwu2body (F := F) n w u yaw pitch roll =
      nwu2body (F := F) n w u yaw pitch roll "zyx" true) ∧
    (∀ (xb yb zb yaw pitch roll : F), body2nwu (F := F) xb yb zb yaw pitch roll =
      body2nwu (F := F) xb yb zb yaw pitch roll "zyx" true) ∧
    (∀ (x y z lat0 lon0 h0 yaw pitch roll : F), ecef2body (F := F) x y z lat0 lon0 h0 yaw pitch roll =
      ecef2body (F := F) x y z lat0 lon0 h0 yaw pitch roll (some wgs84) "ned" "zyx" true) ∧
    (∀ (xb yb zb lat0 lon0 h0 yaw pitch roll : F), body2ecef (F := F) xb yb zb lat0 lon0 h0 yaw pitch roll =
      body2ecef (F := F) xb yb zb lat0 lon0 h0 yaw pitch roll (some wgs84) "ned" "zyx" true) ∧
    (∀ (x y z lat0 lon0 yaw pitch roll : F), ecef2bodyv (F := F) x y z lat0 lon0 yaw pitch roll =
      ecef2bodyv (F := F) x y z lat0 lon0 yaw pitch roll "ned" "zyx" true) ∧
    (∀ (xb yb zb lat0 lon0 yaw pitch roll : F), body2ecefv (F := F) xb yb zb lat0 lon0 yaw pitch roll =
      body2ecefv (F := F) xb yb zb lat0 lon0 yaw pitch roll "ned" "zyx" true) ∧
    (∀ (lat lon h lat0 lon0 h0 yaw pitch roll : F), geodetic2body (F := F) lat lon h lat0 lon0 h0 yaw pitch roll =
      geodetic2body (F := F) lat lon h lat0 lon0 h0 yaw pitch roll (some wgs84) "ned" "zyx" true) ∧
    (∀ (bk : Backend) (xb yb zb lat0 lon0 h0 yaw pitch roll : F), body2geodetic (F := F) bk xb yb zb lat0 lon0 h0 yaw pitch roll =
      body2geodetic (F := F) bk xb yb zb lat0 lon0 h0 yaw pitch roll (some wgs84) "ned" "zyx" true) := by
  refine ⟨?_, ?_, ?_, ?_, ?_, ?_, ?_, ?_, ?_, ?_, ?_, ?_, ?_, ?_, ?_, ?_, ?_, ?_, ?_, ?_, ?_, ?_⟩ <;> intros <;> rfl

/-- **C63.** `rcurve.py`: omitted optional arguments. -/
theorem defaults_rcurve :
    (∀ (geodetic_lat : F), geocentric_radius (F := F) geodetic_lat =
      geocentric_radius (F := F) geodetic_lat (some wgs84) true) ∧
    (∀ (lat : F), parallel (F := F) lat =
      parallel (F := F) lat (some wgs84) true) ∧
    (∀ (lat : F), meridian (F := F) lat =
      meridian (F := F) lat (some wgs84) true) ∧
    (∀ (lat : F), transverse (F := F) lat =
      transverse (F := F) lat (some wgs84) true) := by
  refine ⟨?_, ?_, ?_, ?_⟩ <;> intros <;> rfl

/-- **C63.** `rsphere.py`: omitted optional arguments. -/
theorem defaults_rsphere :
    (eqavol (F := F) =
      eqavol (F := F) (some wgs84)) ∧
    (authalic (F := F) =
      authalic (F := F) (some wgs84)) ∧
    (rectifying (F := F) =
      rectifying (F := F) (some wgs84)) ∧
    (∀ (lat1 lon1 lat2 lon2 : F), euler (F := F) lat1 lon1 lat2 lon2 =
      euler (F := F) lat1 lon1 lat2 lon2 (some wgs84) true) ∧
    (∀ (lat : F), rcurveSphere (F := F) lat =
      rcurveSphere (F := F) lat (some wgs84) true "mean") ∧
    (triaxial (F := F) =
      triaxial (F := F) (some wgs84) "mean") ∧
    (biaxial (F := F) =
      biaxial (F := F) (some wgs84) "mean") := by
  refine ⟨?_, ?_, ?_, ?_, ?_, ?_, ?_⟩ <;> intros <;> rfl

/-- **C63.** `latitude.py`: omitted optional arguments. -/
theorem defaults_latitude :
    (∀ (geocentric_lat geocentric_distance : F), geoc2geod (F := F) geocentric_lat geocentric_distance =
      geoc2geod (F := F) geocentric_lat geocentric_distance (some wgs84) true) ∧
    (∀ (geodetic_lat alt_m : F), geodetic2geocentric (F := F) geodetic_lat alt_m =
      geodetic2geocentric (F := F) geodetic_lat alt_m (some wgs84) true) ∧
    (∀ (geocentric_lat alt_m : F), geocentric2geodetic (F := F) geocentric_lat alt_m =
      geocentric2geodetic (F := F) geocentric_lat alt_m (some wgs84) true) ∧
    (∀ (geodetic_lat : F), geodetic2isometric (F := F) geodetic_lat =
      geodetic2isometric (F := F) geodetic_lat (some wgs84) true) ∧
    (∀ (isometric_lat : F), isometric2geodetic (F := F) isometric_lat =
      isometric2geodetic (F := F) isometric_lat (some wgs84) true) ∧
    (∀ (conformal_lat : F), conformal2geodetic (F := F) conformal_lat =
      conformal2geodetic (F := F) conformal_lat (some wgs84) true) ∧
    (∀ (geodetic_lat : F), geodetic2conformal (F := F) geodetic_lat =
      geodetic2conformal (F := F) geodetic_lat (some wgs84) true) ∧
    (∀ (geodetic_lat : F), geodetic2rectifying (F := F) geodetic_lat =
      geodetic2rectifying (F := F) geodetic_lat (some wgs84) true) ∧
    (∀ (rectifying_lat : F), rectifying2geodetic (F := F) rectifying_lat =
      rectifying2geodetic (F := F) rectifying_lat (some wgs84) true) ∧
    (∀ (geodetic_lat : F), geodetic2authalic (F := F) geodetic_lat =
      geodetic2authalic (F := F) geodetic_lat (some wgs84) true) ∧
    (∀ (authalic_lat : F), authalic2geodetic (F := F) authalic_lat =
      authalic2geodetic (F := F) authalic_lat (some wgs84) true) ∧
    (∀ (geodetic_lat : F), geodetic2parametric (F := F) geodetic_lat =
      geodetic2parametric (F := F) geodetic_lat (some wgs84) true) ∧
    (∀ (parametric_lat : F), parametric2geodetic (F := F) parametric_lat =
      parametric2geodetic (F := F) parametric_lat (some wgs84) true) := by
  refine ⟨?_, ?_, ?_, ?_, ?_, ?_, ?_, ?_, ?_, ?_, ?_, ?_, ?_⟩ <;> intros <;> rfl

/-- **C63.** `haversine.py`: omitted optional arguments. -/
theorem defaults_haversine :
    (∀ (lon0 lat0 lon1 lat1 : F), anglesep_meeus (F := F) lon0 lat0 lon1 lat1 =
      anglesep_meeus (F := F) lon0 lat0 lon1 lat1 true) ∧
    (∀ (lon0 lat0 lon1 lat1 : F), anglesep (F := F) lon0 lat0 lon1 lat1 =
      anglesep (F := F) lon0 lat0 lon1 lat1 true) := by
  refine ⟨?_, ?_⟩ <;> intros <;> rfl

/-- **C63.** `spherical.py`: omitted optional arguments. -/
theorem defaults_spherical :
    (∀ (lat lon alt : F), geodetic2spherical (F := F) lat lon alt =
      geodetic2spherical (F := F) lat lon alt (some wgs84) true) ∧
    (∀ (lat lon radius : F), spherical2geodetic (F := F) lat lon radius =
      spherical2geodetic (F := F) lat lon radius (some wgs84) true) := by
  refine ⟨?_, ?_⟩ <;> intros <;> rfl

/-- **C63.** `nvector.py`: omitted optional arguments. -/
theorem defaults_nvector :
    (∀ (lat lon : F), geodetic2nvector (F := F) lat lon =
      geodetic2nvector (F := F) lat lon true) ∧
    (∀ (n1 n2 n3 : F), nvector2geodetic (F := F) n1 n2 n3 =
      nvector2geodetic (F := F) n1 n2 n3 true) ∧
    (∀ (bk : Backend) (x y z : F), ecef2nvector (F := F) bk x y z =
      ecef2nvector (F := F) bk x y z (some wgs84) true) ∧
    (∀ (n1 n2 n3 : F), nvector2ecef (F := F) n1 n2 n3 =
      nvector2ecef (F := F) n1 n2 n3 (0.0) (some wgs84) true) ∧
    (∀ (n1 : F × F × F) (n2 : F × F × F), nvector_distance (F := F) n1 n2 =
      nvector_distance (F := F) n1 n2 none) ∧
    (∀ (n1 : F × F × F) (n2 : F × F × F) (np : F × F × F), nvector_cross_track_distance (F := F) n1 n2 np =
      nvector_cross_track_distance (F := F) n1 n2 np none) := by
  refine ⟨?_, ?_, ?_, ?_, ?_, ?_⟩ <;> intros <;> rfl

/-- **C63.** `los.py`: omitted optional arguments. -/
theorem defaults_los :
    ∀ (bk : Backend) (lat0 lon0 h0 az tilt : F), lookAtSpheroid (F := F) bk lat0 lon0 h0 az tilt =
      lookAtSpheroid (F := F) bk lat0 lon0 h0 az tilt (some wgs84) true := by
  intros; rfl

/-- **C63.** `lox.py`: omitted optional arguments. -/
theorem defaults_lox :
    (∀ (lat : F), meridian_dist (F := F) lat =
      meridian_dist (F := F) lat (some wgs84) true) ∧
    (∀ (lat1 lat2 : F), meridian_arc (F := F) lat1 lat2 =
      meridian_arc (F := F) lat1 lat2 (some wgs84) true) ∧
    (∀ (lat1 lon1 lat2 lon2 : F), loxodrome_inverse (F := F) lat1 lon1 lat2 lon2 =
      loxodrome_inverse (F := F) lat1 lon1 lat2 lon2 (some wgs84) true) ∧
    (∀ (lat1 lon1 rng a12 : F), loxodrome_direct (F := F) lat1 lon1 rng a12 =
      loxodrome_direct (F := F) lat1 lon1 rng a12 (some wgs84) true) ∧
    (∀ (lon1 lon2 lat : F), departure (F := F) lon1 lon2 lat =
      departure (F := F) lon1 lon2 lat (some wgs84) true) ∧
    (∀ (pts : List (F × F)), meanm (F := F) pts =
      meanm (F := F) pts (some wgs84) true) := by
  refine ⟨?_, ?_, ?_, ?_, ?_, ?_⟩ <;> intros <;> rfl

/-- **C63.** `vincenty.py`: omitted optional arguments. -/
theorem defaults_vincenty :
    (∀ (lat1 lon1 lat2 lon2 : F), vdist (F := F) lat1 lon1 lat2 lon2 =
      vdist (F := F) lat1 lon1 lat2 lon2 (some wgs84) true) ∧
    (∀ (lat1 lon1 rng azim : F), vreckon (F := F) lat1 lon1 rng azim =
      vreckon (F := F) lat1 lon1 rng azim (some wgs84) true) ∧
    (∀ (lat1 lon1 lat2 lon2 : F), track2 (F := F) lat1 lon1 lat2 lon2 =
      track2 (F := F) lat1 lon1 lat2 lon2 (some wgs84) 100 true) := by
  refine ⟨?_, ?_, ?_⟩ <;> intros <;> rfl

/-- **C63.** `karney.py`: omitted optional arguments. -/
theorem defaults_karney :
    (∀ (lat1 lon1 lat2 lon2 : F), geodesic_inverse (F := F) lat1 lon1 lat2 lon2 =
      geodesic_inverse (F := F) lat1 lon1 lat2 lon2 (some wgs84) true) ∧
    (∀ (lat1 lon1 azi1 dist : F), geodesic_direct (F := F) lat1 lon1 azi1 dist =
      geodesic_direct (F := F) lat1 lon1 azi1 dist (some wgs84) true) ∧
    (∀ (lat1 lon1 lat2 lon2 : F), geodesic_line (F := F) lat1 lon1 lat2 lon2 =
      geodesic_line (F := F) lat1 lon1 lat2 lon2 (some wgs84) 100 true) ∧
    (∀ (pts : List (F × F)), geodesic_area (F := F) pts =
      geodesic_area (F := F) pts (some wgs84) true) := by
  refine ⟨?_, ?_, ?_, ?_⟩ <;> intros <;> rfl

/-- **C63.** `eci.py`, `earth_orientation.py`, `ecef.py`, `aer.py`, `sidereal.py`, `vallado.py`: omitted optional arguments
(the Earth-orientation parameters default to zero, the rate step to half a second). -/
theorem defaults_eci :
    (∀ (x y z : F) (t : DateTime), eci2ecef x y z t = eci2ecef x y z t 0.0 0.0 0.0) ∧
    (∀ (x y z : F) (t : DateTime), ecef2eci x y z t = ecef2eci x y z t 0.0 0.0 0.0) ∧
    (∀ (s : PosVel F) (t : DateTime), eci2ecefState s t = eci2ecefState s t 0.0 0.0 0.0) ∧
    (∀ (s : PosVel F) (t : DateTime), ecef2eciState s t = ecef2eciState s t 0.0 0.0 0.0) ∧
    (polarMotionMatrix (F := F) = polarMotionMatrix 0.0 0.0) ∧
    (∀ t : DateTime, eciToEcefMatrix (F := F) t = eciToEcefMatrix t 0.0 0.0 0.0) ∧
    (∀ t : DateTime, eciToEcefMatrixRate (F := F) t = eciToEcefMatrixRate t 0.0 0.0 0.0 0.5) ∧
    (∀ (bk : Backend) (x y z : F) (t : DateTime),
      eci2geodetic bk x y z t = eci2geodetic bk x y z t (some wgs84) true 0.0 0.0 0.0) ∧
    (∀ (lat lon alt : F) (t : DateTime),
      geodetic2eci lat lon alt t = geodetic2eci lat lon alt t (some wgs84) true 0.0 0.0 0.0) ∧
    (∀ (x y z lat0 lon0 h0 : F) (t : DateTime),
      eci2aer x y z lat0 lon0 h0 t = eci2aer x y z lat0 lon0 h0 t true 0.0 0.0 0.0) ∧
    (∀ (az el srange lat0 lon0 h0 : F) (t : DateTime),
      aer2eci az el srange lat0 lon0 h0 t = aer2eci az el srange lat0 lon0 h0 t (some wgs84) true 0.0 0.0 0.0) ∧
    (∀ (fi : String → Except PyErr DateTime) (t : TimeLike) (lon_radians : F),
      datetime2siderealVallado fi t lon_radians = datetime2siderealVallado fi t lon_radians 0.0) ∧
    (∀ (fi : String → Except PyErr DateTime) (az_deg el_deg lat_deg lon_deg : F) (time : TimeLike),
      azel2radec fi az_deg el_deg lat_deg lon_deg time = azel2radec fi az_deg el_deg lat_deg lon_deg time 0.0) ∧
    (∀ (fi : String → Except PyErr DateTime) (ra_deg dec_deg lat_deg lon_deg : F) (time : TimeLike),
      radec2azel fi ra_deg dec_deg lat_deg lon_deg time = radec2azel fi ra_deg dec_deg lat_deg lon_deg time 0.0) := by
  refine ⟨?_, ?_, ?_, ?_, ?_, ?_, ?_, ?_, ?_, ?_, ?_, ?_, ?_, ?_⟩ <;> intros <;> rfl

end

end Pymap3d
