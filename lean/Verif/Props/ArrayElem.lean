import Verif.Props.ArrayCode
import Verif.Model.Spherical
import Verif.Model.Haversine
import Verif.Model.Nvector
/-!
**C80** (generated by `tools/arrays.py`): the functions without value-dependent branches, called with numpy arrays.  Each line says: the
element at index `i` of the result of the array call (the same transcription, read at the type of arrays) is the result of the scalar call on
the elements at `i`.
-/
set_option linter.unusedSectionVars false
namespace Pymap3d
open Py

variable {ι F : Type} [Add F] [Sub F] [Mul F] [Div F] [Neg F] [Pow F Nat] [OfScientific F] [LT F] [LE F]
  [DecidableLT F] [DecidableLE F] [PyMath F]

/-- **C80.** -/
theorem local_frames_elementwise (ell : Option (Ellipsoid F)) (deg : Bool) (i : ι) :
    (∀ (lat lon alt : Arr ι F), Arr.at3 (geodetic2ecef lat lon alt (ellArr ι ell) deg) i = geodetic2ecef (lat i) (lon i) (alt i) ell deg) ∧
    (∀ (u v w lat0 lon0 : Arr ι F), Arr.at3 (uvw2enu u v w lat0 lon0 deg) i = uvw2enu (u i) (v i) (w i) (lat0 i) (lon0 i) deg) ∧
    (∀ (u v w lat0 lon0 : Arr ι F), Arr.at3 (ecef2enuv u v w lat0 lon0 deg) i = ecef2enuv (u i) (v i) (w i) (lat0 i) (lon0 i) deg) ∧
    (∀ (e n u lat0 lon0 : Arr ι F), Arr.at3 (enu2uvw e n u lat0 lon0 deg) i = enu2uvw (e i) (n i) (u i) (lat0 i) (lon0 i) deg) ∧
    (∀ (e n u lat0 lon0 : Arr ι F), Arr.at3 (enu2ecefv e n u lat0 lon0 deg) i = enu2ecefv (e i) (n i) (u i) (lat0 i) (lon0 i) deg) ∧
    (∀ (x y z lat0 lon0 h0 : Arr ι F), Arr.at3 (ecef2enu x y z lat0 lon0 h0 (ellArr ι ell) deg) i = ecef2enu (x i) (y i) (z i) (lat0 i) (lon0 i) (h0 i) ell deg) ∧
    (∀ (e n u lat0 lon0 h0 : Arr ι F), Arr.at3 (enu2ecef e n u lat0 lon0 h0 (ellArr ι ell) deg) i = enu2ecef (e i) (n i) (u i) (lat0 i) (lon0 i) (h0 i) ell deg) ∧
    (∀ (lat lon h lat0 lon0 h0 : Arr ι F), Arr.at3 (geodetic2enu lat lon h lat0 lon0 h0 (ellArr ι ell) deg) i = geodetic2enu (lat i) (lon i) (h i) (lat0 i) (lon0 i) (h0 i) ell deg) ∧
    (∀ (n e d lat0 lon0 h0 : Arr ι F), Arr.at3 (ned2ecef n e d lat0 lon0 h0 (ellArr ι ell) deg) i = ned2ecef (n i) (e i) (d i) (lat0 i) (lon0 i) (h0 i) ell deg) ∧
    (∀ (x y z lat0 lon0 h0 : Arr ι F), Arr.at3 (ecef2ned x y z lat0 lon0 h0 (ellArr ι ell) deg) i = ecef2ned (x i) (y i) (z i) (lat0 i) (lon0 i) (h0 i) ell deg) ∧
    (∀ (lat lon h lat0 lon0 h0 : Arr ι F), Arr.at3 (geodetic2ned lat lon h lat0 lon0 h0 (ellArr ι ell) deg) i = geodetic2ned (lat i) (lon i) (h i) (lat0 i) (lon0 i) (h0 i) ell deg) ∧
    (∀ (x y z lat0 lon0 : Arr ι F), Arr.at3 (ecef2nedv x y z lat0 lon0 deg) i = ecef2nedv (x i) (y i) (z i) (lat0 i) (lon0 i) deg) ∧
    (∀ (n w u lat0 lon0 h0 : Arr ι F), Arr.at3 (nwu2ecef n w u lat0 lon0 h0 (ellArr ι ell) deg) i = nwu2ecef (n i) (w i) (u i) (lat0 i) (lon0 i) (h0 i) ell deg) ∧
    (∀ (n w u lat0 lon0 : Arr ι F), Arr.at3 (nwu2ecefv n w u lat0 lon0 deg) i = nwu2ecefv (n i) (w i) (u i) (lat0 i) (lon0 i) deg) ∧
    (∀ (x y z lat0 lon0 h0 : Arr ι F), Arr.at3 (ecef2nwu x y z lat0 lon0 h0 (ellArr ι ell) deg) i = ecef2nwu (x i) (y i) (z i) (lat0 i) (lon0 i) (h0 i) ell deg) ∧
    (∀ (x y z lat0 lon0 : Arr ι F), Arr.at3 (ecef2nwuv x y z lat0 lon0 deg) i = ecef2nwuv (x i) (y i) (z i) (lat0 i) (lon0 i) deg) ∧
    (∀ (lat lon h lat0 lon0 h0 : Arr ι F), Arr.at3 (geodetic2nwu lat lon h lat0 lon0 h0 (ellArr ι ell) deg) i = geodetic2nwu (lat i) (lon i) (h i) (lat0 i) (lon0 i) (h0 i) ell deg) ∧
    (∀ (s e z lat0 lon0 h0 : Arr ι F), Arr.at3 (sez2ecef s e z lat0 lon0 h0 (ellArr ι ell) deg) i = sez2ecef (s i) (e i) (z i) (lat0 i) (lon0 i) (h0 i) ell deg) ∧
    (∀ (s e z lat0 lon0 : Arr ι F), Arr.at3 (sez2ecefv s e z lat0 lon0 deg) i = sez2ecefv (s i) (e i) (z i) (lat0 i) (lon0 i) deg) ∧
    (∀ (x y z lat0 lon0 h0 : Arr ι F), Arr.at3 (ecef2sez x y z lat0 lon0 h0 (ellArr ι ell) deg) i = ecef2sez (x i) (y i) (z i) (lat0 i) (lon0 i) (h0 i) ell deg) ∧
    (∀ (x y z lat0 lon0 : Arr ι F), Arr.at3 (ecef2sezv x y z lat0 lon0 deg) i = ecef2sezv (x i) (y i) (z i) (lat0 i) (lon0 i) deg) ∧
    (∀ (lat lon h lat0 lon0 h0 : Arr ι F), Arr.at3 (geodetic2sez lat lon h lat0 lon0 h0 (ellArr ι ell) deg) i = geodetic2sez (lat i) (lon i) (h i) (lat0 i) (lon0 i) (h0 i) ell deg) :=
  ⟨
    fun _ _ _ => by cases ell <;> cases deg <;> rfl,
    fun _ _ _ _ _ => by cases deg <;> rfl,
    fun _ _ _ _ _ => by cases deg <;> rfl,
    fun _ _ _ _ _ => by cases deg <;> rfl,
    fun _ _ _ _ _ => by cases deg <;> rfl,
    fun _ _ _ _ _ _ => by cases ell <;> cases deg <;> rfl,
    fun _ _ _ _ _ _ => by cases ell <;> cases deg <;> rfl,
    fun _ _ _ _ _ _ => by cases ell <;> cases deg <;> rfl,
    fun _ _ _ _ _ _ => by cases ell <;> cases deg <;> rfl,
    fun _ _ _ _ _ _ => by cases ell <;> cases deg <;> rfl,
    fun _ _ _ _ _ _ => by cases ell <;> cases deg <;> rfl,
    fun _ _ _ _ _ => by cases deg <;> rfl,
    fun _ _ _ _ _ _ => by cases ell <;> cases deg <;> rfl,
    fun _ _ _ _ _ => by cases deg <;> rfl,
    fun _ _ _ _ _ _ => by cases ell <;> cases deg <;> rfl,
    fun _ _ _ _ _ => by cases deg <;> rfl,
    fun _ _ _ _ _ _ => by cases ell <;> cases deg <;> rfl,
    fun _ _ _ _ _ _ => by cases ell <;> cases deg <;> rfl,
    fun _ _ _ _ _ => by cases deg <;> rfl,
    fun _ _ _ _ _ _ => by cases ell <;> cases deg <;> rfl,
    fun _ _ _ _ _ => by cases deg <;> rfl,
    fun _ _ _ _ _ _ => by cases ell <;> cases deg <;> rfl⟩

/-- **C80.** -/
theorem aer_dca_elementwise (ell : Option (Ellipsoid F)) (deg : Bool) (i : ι) :
    (∀ (az el r : Arr ι F), Arr.at3 (aer2enu az el r deg) i = aer2enu (az i) (el i) (r i) deg) ∧
    (∀ (az el r lat0 lon0 h0 : Arr ι F), Arr.at3 (aer2ecef az el r lat0 lon0 h0 (ellArr ι ell) deg) i = aer2ecef (az i) (el i) (r i) (lat0 i) (lon0 i) (h0 i) ell deg) ∧
    (∀ (az el r : Arr ι F), Arr.at3 (aer2ned az el r deg) i = aer2ned (az i) (el i) (r i) deg) ∧
    (∀ (az el r : Arr ι F), Arr.at3 (aer2nwu az el r deg) i = aer2nwu (az i) (el i) (r i) deg) ∧
    (∀ (az el r : Arr ι F), Arr.at3 (aer2sez az el r deg) i = aer2sez (az i) (el i) (r i) deg) ∧
    (∀ (e n u hdg : Arr ι F), Arr.at3 (enu2dca e n u hdg deg) i = enu2dca (e i) (n i) (u i) (hdg i) deg) ∧
    (∀ (dr cr ab hdg : Arr ι F), Arr.at3 (dca2enu dr cr ab hdg deg) i = dca2enu (dr i) (cr i) (ab i) (hdg i) deg) ∧
    (∀ (n e d hdg : Arr ι F), Arr.at3 (ned2dca n e d hdg deg) i = ned2dca (n i) (e i) (d i) (hdg i) deg) ∧
    (∀ (dr cr ab hdg : Arr ι F), Arr.at3 (dca2ned dr cr ab hdg deg) i = dca2ned (dr i) (cr i) (ab i) (hdg i) deg) ∧
    (∀ (x y z lat0 lon0 h0 hdg : Arr ι F), Arr.at3 (ecef2dca x y z lat0 lon0 h0 hdg (ellArr ι ell) deg) i = ecef2dca (x i) (y i) (z i) (lat0 i) (lon0 i) (h0 i) (hdg i) ell deg) ∧
    (∀ (dr cr ab lat0 lon0 h0 hdg : Arr ι F), Arr.at3 (dca2ecef dr cr ab lat0 lon0 h0 hdg (ellArr ι ell) deg) i = dca2ecef (dr i) (cr i) (ab i) (lat0 i) (lon0 i) (h0 i) (hdg i) ell deg) ∧
    (∀ (lat lon h lat0 lon0 h0 hdg : Arr ι F), Arr.at3 (geodetic2dca lat lon h lat0 lon0 h0 hdg (ellArr ι ell) deg) i = geodetic2dca (lat i) (lon i) (h i) (lat0 i) (lon0 i) (h0 i) (hdg i) ell deg) ∧
    (∀ (az el r hdg : Arr ι F), Arr.at3 (aer2dca az el r hdg deg) i = aer2dca (az i) (el i) (r i) (hdg i) deg) :=
  ⟨
    fun _ _ _ => by cases deg <;> rfl,
    fun _ _ _ _ _ _ => by cases ell <;> cases deg <;> rfl,
    fun _ _ _ => by cases deg <;> rfl,
    fun _ _ _ => by cases deg <;> rfl,
    fun _ _ _ => by cases deg <;> rfl,
    fun _ _ _ _ => by cases deg <;> rfl,
    fun _ _ _ _ => by cases deg <;> rfl,
    fun _ _ _ _ => by cases deg <;> rfl,
    fun _ _ _ _ => by cases deg <;> rfl,
    fun _ _ _ _ _ _ _ => by cases ell <;> cases deg <;> rfl,
    fun _ _ _ _ _ _ _ => by cases ell <;> cases deg <;> rfl,
    fun _ _ _ _ _ _ _ => by cases ell <;> cases deg <;> rfl,
    fun _ _ _ _ => by cases deg <;> rfl⟩

/-- **C80.** -/
theorem latitudes_elementwise (ell : Option (Ellipsoid F)) (deg : Bool) (i : ι) :
    (∀ (lat : Arr ι F), (geodetic2rectifying lat (ellArr ι ell) deg) i = geodetic2rectifying (lat i) ell deg) ∧
    (∀ (lat : Arr ι F), (rectifying2geodetic lat (ellArr ι ell) deg) i = rectifying2geodetic (lat i) ell deg) ∧
    (∀ (lat : Arr ι F), (geodetic2authalic lat (ellArr ι ell) deg) i = geodetic2authalic (lat i) ell deg) ∧
    (∀ (lat : Arr ι F), (authalic2geodetic lat (ellArr ι ell) deg) i = authalic2geodetic (lat i) ell deg) ∧
    (∀ (lat : Arr ι F), (conformal2geodetic lat (ellArr ι ell) deg) i = conformal2geodetic (lat i) ell deg) ∧
    (∀ (lat : Arr ι F), (isometric2geodetic lat (ellArr ι ell) deg) i = isometric2geodetic (lat i) ell deg) ∧
    (∀ (lat : Arr ι F), (geodetic2parametric lat (ellArr ι ell) deg) i = geodetic2parametric (lat i) ell deg) ∧
    (∀ (lat : Arr ι F), (parametric2geodetic lat (ellArr ι ell) deg) i = parametric2geodetic (lat i) ell deg) ∧
    (∀ (lat r : Arr ι F), (geoc2geod lat r (ellArr ι ell) deg) i = geoc2geod (lat i) (r i) ell deg) ∧
    (∀ (lat h : Arr ι F), (geodetic2geocentric lat h (ellArr ι ell) deg) i = geodetic2geocentric (lat i) (h i) ell deg) ∧
    (∀ (lat h : Arr ι F), (geocentric2geodetic lat h (ellArr ι ell) deg) i = geocentric2geodetic (lat i) (h i) ell deg) ∧
    (∀ (lat : Arr ι F), (geocentric_radius lat (ellArr ι ell) deg) i = geocentric_radius (lat i) ell deg) ∧
    (∀ (lat : Arr ι F), (transverse lat (ellArr ι ell) deg) i = transverse (lat i) ell deg) ∧
    (∀ (lat : Arr ι F), (parallel lat (ellArr ι ell) deg) i = parallel (lat i) ell deg) ∧
    (∀ (lat : Arr ι F), (meridian lat (ellArr ι ell) deg) i = meridian (lat i) ell deg) ∧
    (∀ (lat lon h : Arr ι F), Arr.at3 (geodetic2spherical lat lon h (ellArr ι ell) deg) i = geodetic2spherical (lat i) (lon i) (h i) ell deg) ∧
    (∀ (lat lon r : Arr ι F), Arr.at3 (spherical2geodetic lat lon r (ellArr ι ell) deg) i = spherical2geodetic (lat i) (lon i) (r i) ell deg) ∧
    (∀ (theta : Arr ι F), (haversine theta) i = haversine (theta i)) ∧
    (∀ (lon0 lat0 lon1 lat1 : Arr ι F), (anglesep lon0 lat0 lon1 lat1 deg) i = anglesep (lon0 i) (lat0 i) (lon1 i) (lat1 i) deg) ∧
    (∀ (lon0 lat0 lon1 lat1 : Arr ι F), (anglesep_meeus lon0 lat0 lon1 lat1 deg) i = anglesep_meeus (lon0 i) (lat0 i) (lon1 i) (lat1 i) deg) ∧
    (∀ (lat lon : Arr ι F), Arr.at3 (geodetic2nvector lat lon deg) i = geodetic2nvector (lat i) (lon i) deg) ∧
    (∀ (x y z : Arr ι F), Arr.at2 (nvector2geodetic x y z deg) i = nvector2geodetic (x i) (y i) (z i) deg) ∧
    (∀ (x y z alt : Arr ι F), Arr.at3 (nvector2ecef x y z alt (ellArr ι ell) deg) i = nvector2ecef (x i) (y i) (z i) (alt i) ell deg) ∧
    (∀ (lat0 lat1 : Arr ι F), (meridian_arc lat0 lat1 (ellArr ι ell) deg) i = meridian_arc (lat0 i) (lat1 i) ell deg) ∧
    (∀ (lat : Arr ι F), (meridian_dist lat (ellArr ι ell) deg) i = meridian_dist (lat i) ell deg) ∧
    (∀ (x y : Arr ι F), Arr.at2 (cart2pol x y) i = cart2pol (x i) (y i)) ∧
    (∀ (theta rho : Arr ι F), Arr.at2 (pol2cart theta rho) i = pol2cart (theta i) (rho i)) ∧
    (∀ (x y z : Arr ι F), Arr.at3 (cart2sph x y z) i = cart2sph (x i) (y i) (z i)) ∧
    (∀ (az el r : Arr ι F), Arr.at3 (sph2cart az el r) i = sph2cart (az i) (el i) (r i)) :=
  ⟨
    fun _ => by cases ell <;> cases deg <;> rfl,
    fun _ => by cases ell <;> cases deg <;> rfl,
    fun _ => by cases ell <;> cases deg <;> rfl,
    fun _ => by cases ell <;> cases deg <;> rfl,
    fun _ => by cases ell <;> cases deg <;> rfl,
    fun _ => by cases ell <;> cases deg <;> rfl,
    fun _ => by cases ell <;> cases deg <;> rfl,
    fun _ => by cases ell <;> cases deg <;> rfl,
    fun _ _ => by cases ell <;> cases deg <;> rfl,
    fun _ _ => by cases ell <;> cases deg <;> rfl,
    fun _ _ => by cases ell <;> cases deg <;> rfl,
    fun _ => by cases ell <;> cases deg <;> rfl,
    fun _ => by cases ell <;> cases deg <;> rfl,
    fun _ => by cases ell <;> cases deg <;> rfl,
    fun _ => by cases ell <;> cases deg <;> rfl,
    fun _ _ _ => by cases ell <;> cases deg <;> rfl,
    fun _ _ _ => by cases ell <;> cases deg <;> rfl,
    fun _ => by rfl,
    fun _ _ _ _ => by cases deg <;> rfl,
    fun _ _ _ _ => by cases deg <;> rfl,
    fun _ _ => by cases deg <;> rfl,
    fun _ _ _ => by cases deg <;> rfl,
    fun _ _ _ _ => by cases ell <;> cases deg <;> rfl,
    fun _ _ => by cases ell <;> cases deg <;> rfl,
    fun _ => by cases ell <;> cases deg <;> rfl,
    fun _ _ => by rfl,
    fun _ _ => by rfl,
    fun _ _ _ => by rfl,
    fun _ _ _ => by rfl⟩

end Pymap3d
