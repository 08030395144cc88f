import Verif.Model.Ecef
import Verif.Model.Enu
import Verif.Model.Ned
import Verif.Model.Nwu
import Verif.Model.Sez
import Verif.Model.Aer
import Verif.Model.Dca
import Verif.Model.Body
import Verif.Model.Latitude
import Verif.Model.Spherical
import Verif.Model.Haversine
import Verif.Model.Nvector
import Verif.Model.Lox
import Verif.Model.Los
import Mathlib.Tactic.SplitIfs
/-!
C57 (degree and radian modes agree) and C58 (default ellipsoid), for an arbitrary arithmetic `F` (in particular IEEE doubles).
Generated by tools/units.py: one conjunct per exported function.
-/
set_option linter.unusedVariables false
set_option linter.unusedSectionVars false
namespace Pymap3d
open Py

variable {F : Type} [Add F] [Sub F] [Mul F] [Div F] [Neg F] [Pow F Nat] [OfScientific F] [LT F] [LE F]
  [DecidableLT F] [DecidableLE F] [PyMath F]

/-- convert the two angles of an (angle, angle, length) result to degrees -/
def degAngles (p : F × F × F) : F × F × F := (degrees p.1, degrees p.2.1, p.2.2)
/-- convert a pair of angles to degrees -/
def degPair (p : F × F) : F × F := (degrees p.1, degrees p.2)

/-- **C57.** calling with degrees equals calling with `radians(...)` of the angular inputs and `deg=False`, angular outputs converted by `degrees` -/
theorem units_LocalFrames :
    (∀ (lat lon alt : F) (ell : Option (Ellipsoid F)), geodetic2ecef lat lon alt ell true =
      geodetic2ecef (radians lat) (radians lon) alt ell false) ∧
    (∀ (bk : Backend) (x y z : F) (ell : Option (Ellipsoid F)), ecef2geodetic bk x y z ell true =
      degAngles (ecef2geodetic bk x y z ell false)) ∧
    (∀ (u v w lat0 lon0 : F), uvw2enu u v w lat0 lon0 true =
      uvw2enu u v w (radians lat0) (radians lon0) false) ∧
    (∀ (u v w lat0 lon0 : F), ecef2enuv u v w lat0 lon0 true =
      ecef2enuv u v w (radians lat0) (radians lon0) false) ∧
    (∀ (e n u lat0 lon0 : F), enu2uvw e n u lat0 lon0 true =
      enu2uvw e n u (radians lat0) (radians lon0) false) ∧
    (∀ (e n u lat0 lon0 : F), enu2ecefv e n u lat0 lon0 true =
      enu2ecefv e n u (radians lat0) (radians lon0) false) ∧
    (∀ (x y z lat0 lon0 h0 : F) (ell : Option (Ellipsoid F)), ecef2enu x y z lat0 lon0 h0 ell true =
      ecef2enu x y z (radians lat0) (radians lon0) h0 ell false) ∧
    (∀ (e n u lat0 lon0 h0 : F) (ell : Option (Ellipsoid F)), enu2ecef e n u lat0 lon0 h0 ell true =
      enu2ecef e n u (radians lat0) (radians lon0) h0 ell false) ∧
    (∀ (bk : Backend) (e n u lat0 lon0 h0 : F) (ell : Option (Ellipsoid F)), enu2geodetic bk e n u lat0 lon0 h0 ell true =
      degAngles (enu2geodetic bk e n u (radians lat0) (radians lon0) h0 ell false)) ∧
    (∀ (lat lon h lat0 lon0 h0 : F) (ell : Option (Ellipsoid F)), geodetic2enu lat lon h lat0 lon0 h0 ell true =
      geodetic2enu (radians lat) (radians lon) h (radians lat0) (radians lon0) h0 ell false) ∧
    (∀ (bk : Backend) (n e d lat0 lon0 h0 : F) (ell : Option (Ellipsoid F)), ned2geodetic bk n e d lat0 lon0 h0 ell true =
      degAngles (ned2geodetic bk n e d (radians lat0) (radians lon0) h0 ell false)) ∧
    (∀ (n e d lat0 lon0 h0 : F) (ell : Option (Ellipsoid F)), ned2ecef n e d lat0 lon0 h0 ell true =
      ned2ecef n e d (radians lat0) (radians lon0) h0 ell false) ∧
    (∀ (x y z lat0 lon0 h0 : F) (ell : Option (Ellipsoid F)), ecef2ned x y z lat0 lon0 h0 ell true =
      ecef2ned x y z (radians lat0) (radians lon0) h0 ell false) ∧
    (∀ (lat lon h lat0 lon0 h0 : F) (ell : Option (Ellipsoid F)), geodetic2ned lat lon h lat0 lon0 h0 ell true =
      geodetic2ned (radians lat) (radians lon) h (radians lat0) (radians lon0) h0 ell false) ∧
    (∀ (x y z lat0 lon0 : F), ecef2nedv x y z lat0 lon0 true =
      ecef2nedv x y z (radians lat0) (radians lon0) false) ∧
    (∀ (bk : Backend) (n w u lat0 lon0 h0 : F) (ell : Option (Ellipsoid F)), nwu2geodetic bk n w u lat0 lon0 h0 ell true =
      degAngles (nwu2geodetic bk n w u (radians lat0) (radians lon0) h0 ell false)) ∧
    (∀ (n w u lat0 lon0 h0 : F) (ell : Option (Ellipsoid F)), nwu2ecef n w u lat0 lon0 h0 ell true =
      nwu2ecef n w u (radians lat0) (radians lon0) h0 ell false) ∧
    (∀ (n w u lat0 lon0 : F), nwu2ecefv n w u lat0 lon0 true =
      nwu2ecefv n w u (radians lat0) (radians lon0) false) ∧
    (∀ (x y z lat0 lon0 h0 : F) (ell : Option (Ellipsoid F)), ecef2nwu x y z lat0 lon0 h0 ell true =
      ecef2nwu x y z (radians lat0) (radians lon0) h0 ell false) ∧
    (∀ (x y z lat0 lon0 : F), ecef2nwuv x y z lat0 lon0 true =
      ecef2nwuv x y z (radians lat0) (radians lon0) false) ∧
    (∀ (lat lon h lat0 lon0 h0 : F) (ell : Option (Ellipsoid F)), geodetic2nwu lat lon h lat0 lon0 h0 ell true =
      geodetic2nwu (radians lat) (radians lon) h (radians lat0) (radians lon0) h0 ell false) ∧
    (∀ (bk : Backend) (s e z lat0 lon0 h0 : F) (ell : Option (Ellipsoid F)), sez2geodetic bk s e z lat0 lon0 h0 ell true =
      degAngles (sez2geodetic bk s e z (radians lat0) (radians lon0) h0 ell false)) ∧
    (∀ (s e z lat0 lon0 h0 : F) (ell : Option (Ellipsoid F)), sez2ecef s e z lat0 lon0 h0 ell true =
      sez2ecef s e z (radians lat0) (radians lon0) h0 ell false) ∧
    (∀ (s e z lat0 lon0 : F), sez2ecefv s e z lat0 lon0 true =
      sez2ecefv s e z (radians lat0) (radians lon0) false) ∧
    (∀ (x y z lat0 lon0 h0 : F) (ell : Option (Ellipsoid F)), ecef2sez x y z lat0 lon0 h0 ell true =
      ecef2sez x y z (radians lat0) (radians lon0) h0 ell false) ∧
    (∀ (x y z lat0 lon0 : F), ecef2sezv x y z lat0 lon0 true =
      ecef2sezv x y z (radians lat0) (radians lon0) false) ∧
    (∀ (lat lon h lat0 lon0 h0 : F) (ell : Option (Ellipsoid F)), geodetic2sez lat lon h lat0 lon0 h0 ell true =
      geodetic2sez (radians lat) (radians lon) h (radians lat0) (radians lon0) h0 ell false) ∧
    (∀ (lat0 lon0 : F), ecef2enu_matrix lat0 lon0 true =
      ecef2enu_matrix (radians lat0) (radians lon0) false) ∧
    (∀ (lat0 lon0 : F), enu2ecef_matrix lat0 lon0 true =
      enu2ecef_matrix (radians lat0) (radians lon0) false) ∧
    (∀ (lat0 lon0 : F), ecef2ned_matrix lat0 lon0 true =
      ecef2ned_matrix (radians lat0) (radians lon0) false) ∧
    (∀ (lat0 lon0 : F), ned2ecef_matrix lat0 lon0 true =
      ned2ecef_matrix (radians lat0) (radians lon0) false) ∧
    (∀ (lat0 lon0 : F), ecef2sez_matrix lat0 lon0 true =
      ecef2sez_matrix (radians lat0) (radians lon0) false) ∧
    (∀ (lat0 lon0 : F), sez2ecef_matrix lat0 lon0 true =
      sez2ecef_matrix (radians lat0) (radians lon0) false) ∧
    (∀ (lat0 lon0 : F), ecef2nwu_matrix lat0 lon0 true =
      ecef2nwu_matrix (radians lat0) (radians lon0) false) ∧
    (∀ (lat0 lon0 : F), nwu2ecef_matrix lat0 lon0 true =
      nwu2ecef_matrix (radians lat0) (radians lon0) false) :=
  ⟨by intros; rfl, by intros; rfl, by intros; rfl, by intros; rfl, by intros; rfl, by intros; rfl, by intros; rfl, by intros; rfl, by intros; rfl, by intros; rfl, by intros; rfl, by intros; rfl, by intros; rfl, by intros; rfl, by intros; rfl, by intros; rfl, by intros; rfl, by intros; rfl, by intros; rfl, by intros; rfl, by intros; rfl, by intros; rfl, by intros; rfl, by intros; rfl, by intros; rfl, by intros; rfl, by intros; rfl, by intros; rfl, by intros; rfl, by intros; rfl, by intros; rfl, by intros; rfl, by intros; rfl, by intros; rfl, by intros; rfl⟩

/-- **C58.** omitting the ellipsoid equals passing WGS84 -/
theorem default_ellipsoid_LocalFrames :
    (∀ (lat lon alt : F)  (deg : Bool), geodetic2ecef lat lon alt none deg = geodetic2ecef lat lon alt (some wgs84) deg) ∧
    (∀ (bk : Backend) (x y z : F)  (deg : Bool), ecef2geodetic bk x y z none deg = ecef2geodetic bk x y z (some wgs84) deg) ∧
    (∀ (x y z lat0 lon0 h0 : F)  (deg : Bool), ecef2enu x y z lat0 lon0 h0 none deg = ecef2enu x y z lat0 lon0 h0 (some wgs84) deg) ∧
    (∀ (e n u lat0 lon0 h0 : F)  (deg : Bool), enu2ecef e n u lat0 lon0 h0 none deg = enu2ecef e n u lat0 lon0 h0 (some wgs84) deg) ∧
    (∀ (bk : Backend) (e n u lat0 lon0 h0 : F)  (deg : Bool), enu2geodetic bk e n u lat0 lon0 h0 none deg = enu2geodetic bk e n u lat0 lon0 h0 (some wgs84) deg) ∧
    (∀ (lat lon h lat0 lon0 h0 : F)  (deg : Bool), geodetic2enu lat lon h lat0 lon0 h0 none deg = geodetic2enu lat lon h lat0 lon0 h0 (some wgs84) deg) ∧
    (∀ (bk : Backend) (n e d lat0 lon0 h0 : F)  (deg : Bool), ned2geodetic bk n e d lat0 lon0 h0 none deg = ned2geodetic bk n e d lat0 lon0 h0 (some wgs84) deg) ∧
    (∀ (n e d lat0 lon0 h0 : F)  (deg : Bool), ned2ecef n e d lat0 lon0 h0 none deg = ned2ecef n e d lat0 lon0 h0 (some wgs84) deg) ∧
    (∀ (x y z lat0 lon0 h0 : F)  (deg : Bool), ecef2ned x y z lat0 lon0 h0 none deg = ecef2ned x y z lat0 lon0 h0 (some wgs84) deg) ∧
    (∀ (lat lon h lat0 lon0 h0 : F)  (deg : Bool), geodetic2ned lat lon h lat0 lon0 h0 none deg = geodetic2ned lat lon h lat0 lon0 h0 (some wgs84) deg) ∧
    (∀ (bk : Backend) (n w u lat0 lon0 h0 : F)  (deg : Bool), nwu2geodetic bk n w u lat0 lon0 h0 none deg = nwu2geodetic bk n w u lat0 lon0 h0 (some wgs84) deg) ∧
    (∀ (n w u lat0 lon0 h0 : F)  (deg : Bool), nwu2ecef n w u lat0 lon0 h0 none deg = nwu2ecef n w u lat0 lon0 h0 (some wgs84) deg) ∧
    (∀ (x y z lat0 lon0 h0 : F)  (deg : Bool), ecef2nwu x y z lat0 lon0 h0 none deg = ecef2nwu x y z lat0 lon0 h0 (some wgs84) deg) ∧
    (∀ (lat lon h lat0 lon0 h0 : F)  (deg : Bool), geodetic2nwu lat lon h lat0 lon0 h0 none deg = geodetic2nwu lat lon h lat0 lon0 h0 (some wgs84) deg) ∧
    (∀ (bk : Backend) (s e z lat0 lon0 h0 : F)  (deg : Bool), sez2geodetic bk s e z lat0 lon0 h0 none deg = sez2geodetic bk s e z lat0 lon0 h0 (some wgs84) deg) ∧
    (∀ (s e z lat0 lon0 h0 : F)  (deg : Bool), sez2ecef s e z lat0 lon0 h0 none deg = sez2ecef s e z lat0 lon0 h0 (some wgs84) deg) ∧
    (∀ (x y z lat0 lon0 h0 : F)  (deg : Bool), ecef2sez x y z lat0 lon0 h0 none deg = ecef2sez x y z lat0 lon0 h0 (some wgs84) deg) ∧
    (∀ (lat lon h lat0 lon0 h0 : F)  (deg : Bool), geodetic2sez lat lon h lat0 lon0 h0 none deg = geodetic2sez lat lon h lat0 lon0 h0 (some wgs84) deg) :=
  ⟨by intros; rfl, by intros; rfl, by intros; rfl, by intros; rfl, by intros; rfl, by intros; rfl, by intros; rfl, by intros; rfl, by intros; rfl, by intros; rfl, by intros; rfl, by intros; rfl, by intros; rfl, by intros; rfl, by intros; rfl, by intros; rfl, by intros; rfl, by intros; rfl⟩

/-- **C57.** calling with degrees equals calling with `radians(...)` of the angular inputs and `deg=False`, angular outputs converted by `degrees` -/
theorem units_Aer :
    (∀ (az el r : F), aer2enu az el r true =
      aer2enu (radians az) (radians el) r false) ∧
    (∀ (az el r lat0 lon0 h0 : F) (ell : Option (Ellipsoid F)), aer2ecef az el r lat0 lon0 h0 ell true =
      aer2ecef (radians az) (radians el) r (radians lat0) (radians lon0) h0 ell false) ∧
    (∀ (bk : Backend) (az el r lat0 lon0 h0 : F) (ell : Option (Ellipsoid F)), aer2geodetic bk az el r lat0 lon0 h0 ell true =
      degAngles (aer2geodetic bk (radians az) (radians el) r (radians lat0) (radians lon0) h0 ell false)) ∧
    (∀ (az el r : F), aer2ned az el r true =
      aer2ned (radians az) (radians el) r false) ∧
    (∀ (az el r : F), aer2nwu az el r true =
      aer2nwu (radians az) (radians el) r false) ∧
    (∀ (az el r : F), aer2sez az el r true =
      aer2sez (radians az) (radians el) r false) ∧
    (∀ (e n u hdg : F), enu2dca e n u hdg true =
      enu2dca e n u (radians hdg) false) ∧
    (∀ (dr cr ab hdg : F), dca2enu dr cr ab hdg true =
      dca2enu dr cr ab (radians hdg) false) ∧
    (∀ (n e d hdg : F), ned2dca n e d hdg true =
      ned2dca n e d (radians hdg) false) ∧
    (∀ (dr cr ab hdg : F), dca2ned dr cr ab hdg true =
      dca2ned dr cr ab (radians hdg) false) ∧
    (∀ (x y z lat0 lon0 h0 hdg : F) (ell : Option (Ellipsoid F)), ecef2dca x y z lat0 lon0 h0 hdg ell true =
      ecef2dca x y z (radians lat0) (radians lon0) h0 (radians hdg) ell false) ∧
    (∀ (dr cr ab lat0 lon0 h0 hdg : F) (ell : Option (Ellipsoid F)), dca2ecef dr cr ab lat0 lon0 h0 hdg ell true =
      dca2ecef dr cr ab (radians lat0) (radians lon0) h0 (radians hdg) ell false) ∧
    (∀ (lat lon h lat0 lon0 h0 hdg : F) (ell : Option (Ellipsoid F)), geodetic2dca lat lon h lat0 lon0 h0 hdg ell true =
      geodetic2dca (radians lat) (radians lon) h (radians lat0) (radians lon0) h0 (radians hdg) ell false) ∧
    (∀ (bk : Backend) (dr cr ab lat0 lon0 h0 hdg : F) (ell : Option (Ellipsoid F)), dca2geodetic bk dr cr ab lat0 lon0 h0 hdg ell true =
      degAngles (dca2geodetic bk dr cr ab (radians lat0) (radians lon0) h0 (radians hdg) ell false)) ∧
    (∀ (az el r hdg : F), aer2dca az el r hdg true =
      aer2dca (radians az) (radians el) r (radians hdg) false) ∧
    (∀ (e n u : F), enu2aer e n u true =
      degAngles (enu2aer e n u false)) ∧
    (∀ (n e d : F), ned2aer n e d true =
      degAngles (ned2aer n e d false)) ∧
    (∀ (n w u : F), nwu2aer n w u true =
      degAngles (nwu2aer n w u false)) ∧
    (∀ (s e z : F), sez2aer s e z true =
      degAngles (sez2aer s e z false)) ∧
    (∀ (x y z lat0 lon0 h0 : F) (ell : Option (Ellipsoid F)), ecef2aer x y z lat0 lon0 h0 ell true =
      degAngles (ecef2aer x y z (radians lat0) (radians lon0) h0 ell false)) ∧
    (∀ (lat lon h lat0 lon0 h0 : F) (ell : Option (Ellipsoid F)), geodetic2aer lat lon h lat0 lon0 h0 ell true =
      degAngles (geodetic2aer (radians lat) (radians lon) h (radians lat0) (radians lon0) h0 ell false)) ∧
    (∀ (dr cr ab hdg : F), dca2aer dr cr ab hdg true =
      degAngles (dca2aer dr cr ab (radians hdg) false)) :=
  ⟨by intros; rfl, by intros; rfl, by intros; rfl, by intros; rfl, by intros; rfl, by intros; rfl, by intros; rfl, by intros; rfl, by intros; rfl, by intros; rfl, by intros; rfl, by intros; rfl, by intros; rfl, by intros; rfl, by intros; rfl, by intros; rfl, by intros; rfl, by intros; rfl, by intros; rfl, by intros; rfl, by intros; rfl, by intros; rfl⟩

/-- **C58.** omitting the ellipsoid equals passing WGS84 -/
theorem default_ellipsoid_Aer :
    (∀ (az el r lat0 lon0 h0 : F)  (deg : Bool), aer2ecef az el r lat0 lon0 h0 none deg = aer2ecef az el r lat0 lon0 h0 (some wgs84) deg) ∧
    (∀ (bk : Backend) (az el r lat0 lon0 h0 : F)  (deg : Bool), aer2geodetic bk az el r lat0 lon0 h0 none deg = aer2geodetic bk az el r lat0 lon0 h0 (some wgs84) deg) ∧
    (∀ (x y z lat0 lon0 h0 hdg : F)  (deg : Bool), ecef2dca x y z lat0 lon0 h0 hdg none deg = ecef2dca x y z lat0 lon0 h0 hdg (some wgs84) deg) ∧
    (∀ (dr cr ab lat0 lon0 h0 hdg : F)  (deg : Bool), dca2ecef dr cr ab lat0 lon0 h0 hdg none deg = dca2ecef dr cr ab lat0 lon0 h0 hdg (some wgs84) deg) ∧
    (∀ (lat lon h lat0 lon0 h0 hdg : F)  (deg : Bool), geodetic2dca lat lon h lat0 lon0 h0 hdg none deg = geodetic2dca lat lon h lat0 lon0 h0 hdg (some wgs84) deg) ∧
    (∀ (bk : Backend) (dr cr ab lat0 lon0 h0 hdg : F)  (deg : Bool), dca2geodetic bk dr cr ab lat0 lon0 h0 hdg none deg = dca2geodetic bk dr cr ab lat0 lon0 h0 hdg (some wgs84) deg) ∧
    (∀ (x y z lat0 lon0 h0 : F)  (deg : Bool), ecef2aer x y z lat0 lon0 h0 none deg = ecef2aer x y z lat0 lon0 h0 (some wgs84) deg) ∧
    (∀ (lat lon h lat0 lon0 h0 : F)  (deg : Bool), geodetic2aer lat lon h lat0 lon0 h0 none deg = geodetic2aer lat lon h lat0 lon0 h0 (some wgs84) deg) :=
  ⟨by intros; rfl, by intros; rfl, by intros; rfl, by intros; rfl, by intros; rfl, by intros; rfl, by intros; rfl, by intros; rfl⟩

theorem body2geodetic_deg (bk : Backend) (x y z lat0 lon0 h0 yaw pitch roll : F) (ell : Option (Ellipsoid F)) (frame seq : String) :
    body2geodetic bk x y z lat0 lon0 h0 yaw pitch roll ell frame seq true =
      Except.map degAngles (body2geodetic bk x y z (radians lat0) (radians lon0) h0 (radians yaw) (radians pitch) (radians roll) ell
        frame seq false) := by
  have h1 : body2ned x y z yaw pitch roll seq true = body2ned x y z (radians yaw) (radians pitch) (radians roll) seq false := rfl
  have h2 : body2enu x y z yaw pitch roll seq true = body2enu x y z (radians yaw) (radians pitch) (radians roll) seq false := rfl
  have h3 : body2sez x y z yaw pitch roll seq true = body2sez x y z (radians yaw) (radians pitch) (radians roll) seq false := rfl
  have h4 : body2nwu x y z yaw pitch roll seq true = body2nwu x y z (radians yaw) (radians pitch) (radians roll) seq false := rfl
  simp only [body2geodetic, h1, h2, h3, h4]
  split_ifs
  · cases body2ned x y z (radians yaw) (radians pitch) (radians roll) seq false <;> rfl
  · cases body2enu x y z (radians yaw) (radians pitch) (radians roll) seq false <;> rfl
  · cases body2sez x y z (radians yaw) (radians pitch) (radians roll) seq false <;> rfl
  · cases body2nwu x y z (radians yaw) (radians pitch) (radians roll) seq false <;> rfl
  · rfl

/-- **C57.** calling with degrees equals calling with `radians(...)` of the angular inputs and `deg=False`, angular outputs converted by `degrees` -/
theorem units_Body :
    (∀ (x y z yaw pitch roll : F) (seq : String), ned2body x y z yaw pitch roll seq true =
      ned2body x y z (radians yaw) (radians pitch) (radians roll) seq false) ∧
    (∀ (x y z yaw pitch roll : F) (seq : String), enu2body x y z yaw pitch roll seq true =
      enu2body x y z (radians yaw) (radians pitch) (radians roll) seq false) ∧
    (∀ (x y z yaw pitch roll : F) (seq : String), sez2body x y z yaw pitch roll seq true =
      sez2body x y z (radians yaw) (radians pitch) (radians roll) seq false) ∧
    (∀ (x y z yaw pitch roll : F) (seq : String), nwu2body x y z yaw pitch roll seq true =
      nwu2body x y z (radians yaw) (radians pitch) (radians roll) seq false) ∧
    (∀ (x y z yaw pitch roll : F) (seq : String), body2ned x y z yaw pitch roll seq true =
      body2ned x y z (radians yaw) (radians pitch) (radians roll) seq false) ∧
    (∀ (x y z yaw pitch roll : F) (seq : String), body2enu x y z yaw pitch roll seq true =
      body2enu x y z (radians yaw) (radians pitch) (radians roll) seq false) ∧
    (∀ (x y z yaw pitch roll : F) (seq : String), body2sez x y z yaw pitch roll seq true =
      body2sez x y z (radians yaw) (radians pitch) (radians roll) seq false) ∧
    (∀ (x y z yaw pitch roll : F) (seq : String), body2nwu x y z yaw pitch roll seq true =
      body2nwu x y z (radians yaw) (radians pitch) (radians roll) seq false) ∧
    (∀ (x y z lat0 lon0 h0 yaw pitch roll : F) (ell : Option (Ellipsoid F)) (frame seq : String), ecef2body x y z lat0 lon0 h0 yaw pitch roll ell frame seq true =
      ecef2body x y z (radians lat0) (radians lon0) h0 (radians yaw) (radians pitch) (radians roll) ell frame seq false) ∧
    (∀ (x y z lat0 lon0 h0 yaw pitch roll : F) (ell : Option (Ellipsoid F)) (frame seq : String), body2ecef x y z lat0 lon0 h0 yaw pitch roll ell frame seq true =
      body2ecef x y z (radians lat0) (radians lon0) h0 (radians yaw) (radians pitch) (radians roll) ell frame seq false) ∧
    (∀ (lat lon h lat0 lon0 h0 yaw pitch roll : F) (ell : Option (Ellipsoid F)) (frame seq : String), geodetic2body lat lon h lat0 lon0 h0 yaw pitch roll ell frame seq true =
      geodetic2body (radians lat) (radians lon) h (radians lat0) (radians lon0) h0 (radians yaw) (radians pitch) (radians roll) ell frame seq false) ∧
    (∀ (bk : Backend) (x y z lat0 lon0 h0 yaw pitch roll : F) (ell : Option (Ellipsoid F)) (frame seq : String), body2geodetic bk x y z lat0 lon0 h0 yaw pitch roll ell frame seq true =
      Except.map degAngles (body2geodetic bk x y z (radians lat0) (radians lon0) h0 (radians yaw) (radians pitch) (radians roll) ell frame seq false)) ∧
    (∀ (x y z lat0 lon0 yaw pitch roll : F) (frame seq : String), ecef2bodyv x y z lat0 lon0 yaw pitch roll frame seq true =
      ecef2bodyv x y z (radians lat0) (radians lon0) (radians yaw) (radians pitch) (radians roll) frame seq false) ∧
    (∀ (x y z lat0 lon0 yaw pitch roll : F) (frame seq : String), body2ecefv x y z lat0 lon0 yaw pitch roll frame seq true =
      body2ecefv x y z (radians lat0) (radians lon0) (radians yaw) (radians pitch) (radians roll) frame seq false) :=
  ⟨by intros; rfl, by intros; rfl, by intros; rfl, by intros; rfl, by intros; rfl, by intros; rfl, by intros; rfl, by intros; rfl, by intros; rfl, by intros; rfl, by intros; rfl, body2geodetic_deg, by intros; rfl, by intros; rfl⟩

/-- **C58.** omitting the ellipsoid equals passing WGS84 -/
theorem default_ellipsoid_Body :
    (∀ (x y z lat0 lon0 h0 yaw pitch roll : F) (frame seq : String) (deg : Bool), ecef2body x y z lat0 lon0 h0 yaw pitch roll none frame seq deg = ecef2body x y z lat0 lon0 h0 yaw pitch roll (some wgs84) frame seq deg) ∧
    (∀ (x y z lat0 lon0 h0 yaw pitch roll : F) (frame seq : String) (deg : Bool), body2ecef x y z lat0 lon0 h0 yaw pitch roll none frame seq deg = body2ecef x y z lat0 lon0 h0 yaw pitch roll (some wgs84) frame seq deg) ∧
    (∀ (lat lon h lat0 lon0 h0 yaw pitch roll : F) (frame seq : String) (deg : Bool), geodetic2body lat lon h lat0 lon0 h0 yaw pitch roll none frame seq deg = geodetic2body lat lon h lat0 lon0 h0 yaw pitch roll (some wgs84) frame seq deg) ∧
    (∀ (bk : Backend) (x y z lat0 lon0 h0 yaw pitch roll : F) (frame seq : String) (deg : Bool), body2geodetic bk x y z lat0 lon0 h0 yaw pitch roll none frame seq deg = body2geodetic bk x y z lat0 lon0 h0 yaw pitch roll (some wgs84) frame seq deg) :=
  ⟨by intros; rfl, by intros; rfl, by intros; rfl, by intros; rfl⟩

theorem Ext.map_outAngle (deg : Bool) (x : Ext F) : Ext.map (outAngle deg) x = if deg then Ext.map degrees x else x := by
  cases deg <;> cases x <;> rfl

theorem loxodrome_direct_deg (lat0 lon0 r az : F) (ell : Option (Ellipsoid F)) :
    loxodrome_direct lat0 lon0 r az ell true =
      Except.map (fun p => (degrees p.1, Ext.map degrees p.2))
        (loxodrome_direct (radians lat0) (radians lon0) r (radians az) ell false) := by
  simp only [loxodrome_direct, inAngle, if_true, Bool.false_eq_true, if_false, Ext.map_outAngle, outAngle]
  split_ifs <;> rfl

/-- **C57.** calling with degrees equals calling with `radians(...)` of the angular inputs and `deg=False`, angular outputs converted by `degrees` -/
theorem units_Latitude :
    (∀ (lat : F) (ell : Option (Ellipsoid F)), geodetic2rectifying lat ell true =
      degrees (geodetic2rectifying (radians lat) ell false)) ∧
    (∀ (lat : F) (ell : Option (Ellipsoid F)), rectifying2geodetic lat ell true =
      degrees (rectifying2geodetic (radians lat) ell false)) ∧
    (∀ (lat : F) (ell : Option (Ellipsoid F)), geodetic2authalic lat ell true =
      degrees (geodetic2authalic (radians lat) ell false)) ∧
    (∀ (lat : F) (ell : Option (Ellipsoid F)), authalic2geodetic lat ell true =
      degrees (authalic2geodetic (radians lat) ell false)) ∧
    (∀ (lat : F) (ell : Option (Ellipsoid F)), conformal2geodetic lat ell true =
      degrees (conformal2geodetic (radians lat) ell false)) ∧
    (∀ (lat : F) (ell : Option (Ellipsoid F)), isometric2geodetic lat ell true =
      degrees (isometric2geodetic (radians lat) ell false)) ∧
    (∀ (lat : F) (ell : Option (Ellipsoid F)), geodetic2parametric lat ell true =
      degrees (geodetic2parametric (radians lat) ell false)) ∧
    (∀ (lat : F) (ell : Option (Ellipsoid F)), parametric2geodetic lat ell true =
      degrees (parametric2geodetic (radians lat) ell false)) ∧
    (∀ (lat : F) (ell : Option (Ellipsoid F)), geodetic2conformal lat ell true =
      degrees (geodetic2conformal (radians lat) ell false)) ∧
    (∀ (lat : F) (ell : Option (Ellipsoid F)), geodetic2isometric lat ell true =
      Ext.map degrees (geodetic2isometric (radians lat) ell false)) ∧
    (∀ (lat r : F) (ell : Option (Ellipsoid F)), geoc2geod lat r ell true =
      degrees (geoc2geod (radians lat) r ell false)) ∧
    (∀ (lat h : F) (ell : Option (Ellipsoid F)), geodetic2geocentric lat h ell true =
      degrees (geodetic2geocentric (radians lat) h ell false)) ∧
    (∀ (lat h : F) (ell : Option (Ellipsoid F)), geocentric2geodetic lat h ell true =
      degrees (geocentric2geodetic (radians lat) h ell false)) ∧
    (∀ (lat : F) (ell : Option (Ellipsoid F)), geocentric_radius lat ell true =
      geocentric_radius (radians lat) ell false) ∧
    (∀ (lat : F) (ell : Option (Ellipsoid F)), transverse lat ell true =
      transverse (radians lat) ell false) ∧
    (∀ (lat : F) (ell : Option (Ellipsoid F)), parallel lat ell true =
      parallel (radians lat) ell false) ∧
    (∀ (lat : F) (ell : Option (Ellipsoid F)), meridian lat ell true =
      meridian (radians lat) ell false) ∧
    (∀ (lat lon h : F) (ell : Option (Ellipsoid F)), geodetic2spherical lat lon h ell true =
      degAngles (geodetic2spherical (radians lat) (radians lon) h ell false)) ∧
    (∀ (lat lon r : F) (ell : Option (Ellipsoid F)), spherical2geodetic lat lon r ell true =
      degAngles (spherical2geodetic (radians lat) (radians lon) r ell false)) ∧
    (∀ (lon0 lat0 lon1 lat1 : F), anglesep lon0 lat0 lon1 lat1 true =
      degrees (anglesep (radians lon0) (radians lat0) (radians lon1) (radians lat1) false)) ∧
    (∀ (lon0 lat0 lon1 lat1 : F), anglesep_meeus lon0 lat0 lon1 lat1 true =
      degrees (anglesep_meeus (radians lon0) (radians lat0) (radians lon1) (radians lat1) false)) ∧
    (∀ (lat lon : F), geodetic2nvector lat lon true =
      geodetic2nvector (radians lat) (radians lon) false) ∧
    (∀ (x y z : F), nvector2geodetic x y z true =
      degPair (nvector2geodetic x y z false)) ∧
    (∀ (lat0 lat1 : F) (ell : Option (Ellipsoid F)), meridian_arc lat0 lat1 ell true =
      meridian_arc (radians lat0) (radians lat1) ell false) ∧
    (∀ (lon0 lon1 lat : F) (ell : Option (Ellipsoid F)), departure lon0 lon1 lat ell true =
      departure (radians lon0) (radians lon1) (radians lat) ell false) ∧
    (∀ (lat0 lon0 r az : F) (ell : Option (Ellipsoid F)), loxodrome_direct lat0 lon0 r az ell true =
      Except.map (fun p => (degrees p.1, Ext.map degrees p.2)) (loxodrome_direct (radians lat0) (radians lon0) r (radians az) ell false)) :=
  ⟨by intros; rfl, by intros; rfl, by intros; rfl, by intros; rfl, by intros; rfl, by intros; rfl, by intros; rfl, by intros; rfl, by intros; rfl, by intro lat ell; simp only [geodetic2isometric, Ext.map_outAngle]; rfl, by intros; rfl, by intros; rfl, by intros; rfl, by intros; rfl, by intros; rfl, by intros; rfl, by intros; rfl, by intros; rfl, by intros; rfl, by intros; rfl, by intros; rfl, by intros; rfl, by intros; rfl, by intros; rfl, by intros; rfl, loxodrome_direct_deg⟩

/-- **C58.** omitting the ellipsoid equals passing WGS84 -/
theorem default_ellipsoid_Latitude :
    (∀ (lat : F)  (deg : Bool), geodetic2rectifying lat none deg = geodetic2rectifying lat (some wgs84) deg) ∧
    (∀ (lat : F)  (deg : Bool), rectifying2geodetic lat none deg = rectifying2geodetic lat (some wgs84) deg) ∧
    (∀ (lat : F)  (deg : Bool), geodetic2authalic lat none deg = geodetic2authalic lat (some wgs84) deg) ∧
    (∀ (lat : F)  (deg : Bool), authalic2geodetic lat none deg = authalic2geodetic lat (some wgs84) deg) ∧
    (∀ (lat : F)  (deg : Bool), conformal2geodetic lat none deg = conformal2geodetic lat (some wgs84) deg) ∧
    (∀ (lat : F)  (deg : Bool), isometric2geodetic lat none deg = isometric2geodetic lat (some wgs84) deg) ∧
    (∀ (lat : F)  (deg : Bool), geodetic2parametric lat none deg = geodetic2parametric lat (some wgs84) deg) ∧
    (∀ (lat : F)  (deg : Bool), parametric2geodetic lat none deg = parametric2geodetic lat (some wgs84) deg) ∧
    (∀ (lat : F)  (deg : Bool), geodetic2conformal lat none deg = geodetic2conformal lat (some wgs84) deg) ∧
    (∀ (lat : F)  (deg : Bool), geodetic2isometric lat none deg = geodetic2isometric lat (some wgs84) deg) ∧
    (∀ (lat r : F)  (deg : Bool), geoc2geod lat r none deg = geoc2geod lat r (some wgs84) deg) ∧
    (∀ (lat h : F)  (deg : Bool), geodetic2geocentric lat h none deg = geodetic2geocentric lat h (some wgs84) deg) ∧
    (∀ (lat h : F)  (deg : Bool), geocentric2geodetic lat h none deg = geocentric2geodetic lat h (some wgs84) deg) ∧
    (∀ (lat : F)  (deg : Bool), geocentric_radius lat none deg = geocentric_radius lat (some wgs84) deg) ∧
    (∀ (lat : F)  (deg : Bool), transverse lat none deg = transverse lat (some wgs84) deg) ∧
    (∀ (lat : F)  (deg : Bool), parallel lat none deg = parallel lat (some wgs84) deg) ∧
    (∀ (lat : F)  (deg : Bool), meridian lat none deg = meridian lat (some wgs84) deg) ∧
    (∀ (lat lon h : F)  (deg : Bool), geodetic2spherical lat lon h none deg = geodetic2spherical lat lon h (some wgs84) deg) ∧
    (∀ (lat lon r : F)  (deg : Bool), spherical2geodetic lat lon r none deg = spherical2geodetic lat lon r (some wgs84) deg) ∧
    (∀ (lat0 lat1 : F)  (deg : Bool), meridian_arc lat0 lat1 none deg = meridian_arc lat0 lat1 (some wgs84) deg) ∧
    (∀ (lon0 lon1 lat : F)  (deg : Bool), departure lon0 lon1 lat none deg = departure lon0 lon1 lat (some wgs84) deg) ∧
    (∀ (lat0 lon0 r az : F)  (deg : Bool), loxodrome_direct lat0 lon0 r az none deg = loxodrome_direct lat0 lon0 r az (some wgs84) deg) :=
  ⟨by intros; rfl, by intros; rfl, by intros; rfl, by intros; rfl, by intros; rfl, by intros; rfl, by intros; rfl, by intros; rfl, by intros; rfl, by intros; rfl, by intros; rfl, by intros; rfl, by intros; rfl, by intros; rfl, by intros; rfl, by intros; rfl, by intros; rfl, by intros; rfl, by intros; rfl, by intros; rfl, by intros; rfl, by intros; rfl⟩

end Pymap3d
