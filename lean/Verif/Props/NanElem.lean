import Verif.Props.NanBase
/-!
**C84** (generated by `tools/nan.py`): NaN operands of the functions without loops.  `nan_f`: which results of `f` are NaN, in terms of which
arguments are; `num_f`: a result none of whose listed arguments is NaN is the number the same call on numbers gives, whatever the remaining
arguments are (NaN or not).
-/
set_option linter.unusedSectionVars false
set_option linter.unusedVariables false
set_option linter.unusedSimpArgs false
namespace Pymap3d
open Py PyNan Nan

variable {F : Type} [Add F] [Sub F] [Mul F] [Div F] [Neg F] [Pow F Nat] [OfScientific F] [LT F] [LE F]
  [DecidableLT F] [DecidableLE F] [PyMath F]

theorem nan_geodetic2ecef (lat lon alt : Nan F) (ell : Option (Ellipsoid F)) (deg : Bool) :
    (geodetic2ecef lat lon alt (noNan ell) deg).1.isNan = anyNan [lat, lon, alt] ∧
    (geodetic2ecef lat lon alt (noNan ell) deg).2.1.isNan = anyNan [lat, lon, alt] ∧
    (geodetic2ecef lat lon alt (noNan ell) deg).2.2.isNan = anyNan [lat, alt] := by
  refine ⟨?_, ?_, ?_⟩ <;>
  · simp [geodetic2ecef, anyNan, Bool.or_assoc, Bool.or_comm, Bool.or_left_comm]

theorem num_geodetic2ecef (lat lon alt : F) (ell : Option (Ellipsoid F)) (deg : Bool) :
    (geodetic2ecef (num lat) (num lon) (num alt) (noNan ell) deg).1 = num (geodetic2ecef lat lon alt ell deg).1 ∧
    (geodetic2ecef (num lat) (num lon) (num alt) (noNan ell) deg).2.1 = num (geodetic2ecef lat lon alt ell deg).2.1 ∧
    (∀ lon' : Nan F, (geodetic2ecef (num lat) lon' (num alt) (noNan ell) deg).2.2 = num (geodetic2ecef lat lon alt ell deg).2.2) := by
  cases ell <;> cases deg <;>
  num_rfl

theorem nan_uvw2enu (u v w lat0 lon0 : Nan F) (deg : Bool) :
    (uvw2enu u v w lat0 lon0 deg).1.isNan = anyNan [u, v, lon0] ∧
    (uvw2enu u v w lat0 lon0 deg).2.1.isNan = anyNan [u, v, w, lat0, lon0] ∧
    (uvw2enu u v w lat0 lon0 deg).2.2.isNan = anyNan [u, v, w, lat0, lon0] := by
  refine ⟨?_, ?_, ?_⟩ <;>
  · simp [uvw2enu, anyNan, Bool.or_assoc, Bool.or_comm, Bool.or_left_comm]

theorem num_uvw2enu (u v w lat0 lon0 : F) (deg : Bool) :
    (∀ w' lat0' : Nan F, (uvw2enu (num u) (num v) w' lat0' (num lon0) deg).1 = num (uvw2enu u v w lat0 lon0 deg).1) ∧
    (uvw2enu (num u) (num v) (num w) (num lat0) (num lon0) deg).2.1 = num (uvw2enu u v w lat0 lon0 deg).2.1 ∧
    (uvw2enu (num u) (num v) (num w) (num lat0) (num lon0) deg).2.2 = num (uvw2enu u v w lat0 lon0 deg).2.2 := by
  cases deg <;>
  num_rfl

theorem nan_ecef2enuv (u v w lat0 lon0 : Nan F) (deg : Bool) :
    (ecef2enuv u v w lat0 lon0 deg).1.isNan = anyNan [u, v, lon0] ∧
    (ecef2enuv u v w lat0 lon0 deg).2.1.isNan = anyNan [u, v, w, lat0, lon0] ∧
    (ecef2enuv u v w lat0 lon0 deg).2.2.isNan = anyNan [u, v, w, lat0, lon0] := by
  refine ⟨?_, ?_, ?_⟩ <;>
  · simp [ecef2enuv, anyNan, Bool.or_assoc, Bool.or_comm, Bool.or_left_comm]

theorem num_ecef2enuv (u v w lat0 lon0 : F) (deg : Bool) :
    (∀ w' lat0' : Nan F, (ecef2enuv (num u) (num v) w' lat0' (num lon0) deg).1 = num (ecef2enuv u v w lat0 lon0 deg).1) ∧
    (ecef2enuv (num u) (num v) (num w) (num lat0) (num lon0) deg).2.1 = num (ecef2enuv u v w lat0 lon0 deg).2.1 ∧
    (ecef2enuv (num u) (num v) (num w) (num lat0) (num lon0) deg).2.2 = num (ecef2enuv u v w lat0 lon0 deg).2.2 := by
  cases deg <;>
  num_rfl

theorem nan_enu2uvw (e n u lat0 lon0 : Nan F) (deg : Bool) :
    (enu2uvw e n u lat0 lon0 deg).1.isNan = anyNan [e, n, u, lat0, lon0] ∧
    (enu2uvw e n u lat0 lon0 deg).2.1.isNan = anyNan [e, n, u, lat0, lon0] ∧
    (enu2uvw e n u lat0 lon0 deg).2.2.isNan = anyNan [n, u, lat0] := by
  refine ⟨?_, ?_, ?_⟩ <;>
  · simp [enu2uvw, anyNan, Bool.or_assoc, Bool.or_comm, Bool.or_left_comm]

theorem num_enu2uvw (e n u lat0 lon0 : F) (deg : Bool) :
    (enu2uvw (num e) (num n) (num u) (num lat0) (num lon0) deg).1 = num (enu2uvw e n u lat0 lon0 deg).1 ∧
    (enu2uvw (num e) (num n) (num u) (num lat0) (num lon0) deg).2.1 = num (enu2uvw e n u lat0 lon0 deg).2.1 ∧
    (∀ e' lon0' : Nan F, (enu2uvw e' (num n) (num u) (num lat0) lon0' deg).2.2 = num (enu2uvw e n u lat0 lon0 deg).2.2) := by
  cases deg <;>
  num_rfl

theorem nan_enu2ecefv (e n u lat0 lon0 : Nan F) (deg : Bool) :
    (enu2ecefv e n u lat0 lon0 deg).1.isNan = anyNan [e, n, u, lat0, lon0] ∧
    (enu2ecefv e n u lat0 lon0 deg).2.1.isNan = anyNan [e, n, u, lat0, lon0] ∧
    (enu2ecefv e n u lat0 lon0 deg).2.2.isNan = anyNan [n, u, lat0] := by
  refine ⟨?_, ?_, ?_⟩ <;>
  · simp [enu2ecefv, anyNan, Bool.or_assoc, Bool.or_comm, Bool.or_left_comm]

theorem num_enu2ecefv (e n u lat0 lon0 : F) (deg : Bool) :
    (enu2ecefv (num e) (num n) (num u) (num lat0) (num lon0) deg).1 = num (enu2ecefv e n u lat0 lon0 deg).1 ∧
    (enu2ecefv (num e) (num n) (num u) (num lat0) (num lon0) deg).2.1 = num (enu2ecefv e n u lat0 lon0 deg).2.1 ∧
    (∀ e' lon0' : Nan F, (enu2ecefv e' (num n) (num u) (num lat0) lon0' deg).2.2 = num (enu2ecefv e n u lat0 lon0 deg).2.2) := by
  cases deg <;>
  num_rfl

theorem nan_ecef2enu (x y z lat0 lon0 h0 : Nan F) (ell : Option (Ellipsoid F)) (deg : Bool) :
    (ecef2enu x y z lat0 lon0 h0 (noNan ell) deg).1.isNan = anyNan [x, y, lat0, lon0, h0] ∧
    (ecef2enu x y z lat0 lon0 h0 (noNan ell) deg).2.1.isNan = anyNan [x, y, z, lat0, lon0, h0] ∧
    (ecef2enu x y z lat0 lon0 h0 (noNan ell) deg).2.2.isNan = anyNan [x, y, z, lat0, lon0, h0] := by
  refine ⟨?_, ?_, ?_⟩ <;>
  · simp [ecef2enu, anyNan, Bool.or_assoc, Bool.or_comm, Bool.or_left_comm, nan_geodetic2ecef, nan_uvw2enu]

theorem num_ecef2enu (x y z lat0 lon0 h0 : F) (ell : Option (Ellipsoid F)) (deg : Bool) :
    (∀ z' : Nan F, (ecef2enu (num x) (num y) z' (num lat0) (num lon0) (num h0) (noNan ell) deg).1 = num (ecef2enu x y z lat0 lon0 h0 ell deg).1) ∧
    (ecef2enu (num x) (num y) (num z) (num lat0) (num lon0) (num h0) (noNan ell) deg).2.1 = num (ecef2enu x y z lat0 lon0 h0 ell deg).2.1 ∧
    (ecef2enu (num x) (num y) (num z) (num lat0) (num lon0) (num h0) (noNan ell) deg).2.2 = num (ecef2enu x y z lat0 lon0 h0 ell deg).2.2 := by
  cases ell <;> cases deg <;>
  num_rfl

theorem nan_enu2ecef (e n u lat0 lon0 h0 : Nan F) (ell : Option (Ellipsoid F)) (deg : Bool) :
    (enu2ecef e n u lat0 lon0 h0 (noNan ell) deg).1.isNan = anyNan [e, n, u, lat0, lon0, h0] ∧
    (enu2ecef e n u lat0 lon0 h0 (noNan ell) deg).2.1.isNan = anyNan [e, n, u, lat0, lon0, h0] ∧
    (enu2ecef e n u lat0 lon0 h0 (noNan ell) deg).2.2.isNan = anyNan [n, u, lat0, h0] := by
  refine ⟨?_, ?_, ?_⟩ <;>
  · simp [enu2ecef, anyNan, Bool.or_assoc, Bool.or_comm, Bool.or_left_comm, nan_geodetic2ecef, nan_enu2uvw]

theorem num_enu2ecef (e n u lat0 lon0 h0 : F) (ell : Option (Ellipsoid F)) (deg : Bool) :
    (enu2ecef (num e) (num n) (num u) (num lat0) (num lon0) (num h0) (noNan ell) deg).1 = num (enu2ecef e n u lat0 lon0 h0 ell deg).1 ∧
    (enu2ecef (num e) (num n) (num u) (num lat0) (num lon0) (num h0) (noNan ell) deg).2.1 = num (enu2ecef e n u lat0 lon0 h0 ell deg).2.1 ∧
    (∀ e' lon0' : Nan F, (enu2ecef e' (num n) (num u) (num lat0) lon0' (num h0) (noNan ell) deg).2.2 = num (enu2ecef e n u lat0 lon0 h0 ell deg).2.2) := by
  cases ell <;> cases deg <;>
  num_rfl

theorem nan_geodetic2enu (lat lon h lat0 lon0 h0 : Nan F) (ell : Option (Ellipsoid F)) (deg : Bool) :
    (geodetic2enu lat lon h lat0 lon0 h0 (noNan ell) deg).1.isNan = anyNan [lat, lon, h, lat0, lon0, h0] ∧
    (geodetic2enu lat lon h lat0 lon0 h0 (noNan ell) deg).2.1.isNan = anyNan [lat, lon, h, lat0, lon0, h0] ∧
    (geodetic2enu lat lon h lat0 lon0 h0 (noNan ell) deg).2.2.isNan = anyNan [lat, lon, h, lat0, lon0, h0] := by
  refine ⟨?_, ?_, ?_⟩ <;>
  · simp [geodetic2enu, anyNan, Bool.or_assoc, Bool.or_comm, Bool.or_left_comm, nan_geodetic2ecef, nan_uvw2enu]

theorem num_geodetic2enu (lat lon h lat0 lon0 h0 : F) (ell : Option (Ellipsoid F)) (deg : Bool) :
    (geodetic2enu (num lat) (num lon) (num h) (num lat0) (num lon0) (num h0) (noNan ell) deg).1 = num (geodetic2enu lat lon h lat0 lon0 h0 ell deg).1 ∧
    (geodetic2enu (num lat) (num lon) (num h) (num lat0) (num lon0) (num h0) (noNan ell) deg).2.1 = num (geodetic2enu lat lon h lat0 lon0 h0 ell deg).2.1 ∧
    (geodetic2enu (num lat) (num lon) (num h) (num lat0) (num lon0) (num h0) (noNan ell) deg).2.2 = num (geodetic2enu lat lon h lat0 lon0 h0 ell deg).2.2 := by
  cases ell <;> cases deg <;>
  num_rfl

theorem nan_enu2aer (e n u : Nan F) (deg : Bool) :
    (enu2aer e n u deg).1.isNan = anyNan [e, n] ∧
    (enu2aer e n u deg).2.1.isNan = anyNan [e, n, u] ∧
    (enu2aer e n u deg).2.2.isNan = anyNan [e, n, u] := by
  refine ⟨?_, ?_, ?_⟩ <;>
  · simp [enu2aer, anyNan, Bool.or_assoc, Bool.or_comm, Bool.or_left_comm]

theorem num_enu2aer (e n u : F) (deg : Bool) :
    (∀ u' : Nan F, (enu2aer (num e) (num n) u' deg).1 = num (enu2aer e n u deg).1) ∧
    (enu2aer (num e) (num n) (num u) deg).2.1 = num (enu2aer e n u deg).2.1 ∧
    (enu2aer (num e) (num n) (num u) deg).2.2 = num (enu2aer e n u deg).2.2 := by
  have h := @num_zeroTrim F
  refine ⟨?_, ?_, ?_⟩ <;> intros <;> simp only [enu2aer, h] <;> cases deg <;> rfl

theorem nan_aer2enu (az el r : Nan F) (deg : Bool) :
    (aer2enu az el r deg).1.isNan = anyNan [az, el, r] ∧
    (aer2enu az el r deg).2.1.isNan = anyNan [az, el, r] ∧
    (aer2enu az el r deg).2.2.isNan = anyNan [el, r] := by
  refine ⟨?_, ?_, ?_⟩ <;>
  · simp [aer2enu, anyNan, Bool.or_assoc, Bool.or_comm, Bool.or_left_comm]

theorem num_aer2enu (az el r : F) (deg : Bool) :
    (aer2enu (num az) (num el) (num r) deg).1 = num (aer2enu az el r deg).1 ∧
    (aer2enu (num az) (num el) (num r) deg).2.1 = num (aer2enu az el r deg).2.1 ∧
    (∀ az' : Nan F, (aer2enu az' (num el) (num r) deg).2.2 = num (aer2enu az el r deg).2.2) := by
  cases deg <;>
  num_rfl

theorem nan_ecef2aer (x y z lat0 lon0 h0 : Nan F) (ell : Option (Ellipsoid F)) (deg : Bool) :
    (ecef2aer x y z lat0 lon0 h0 (noNan ell) deg).1.isNan = anyNan [x, y, z, lat0, lon0, h0] ∧
    (ecef2aer x y z lat0 lon0 h0 (noNan ell) deg).2.1.isNan = anyNan [x, y, z, lat0, lon0, h0] ∧
    (ecef2aer x y z lat0 lon0 h0 (noNan ell) deg).2.2.isNan = anyNan [x, y, z, lat0, lon0, h0] := by
  refine ⟨?_, ?_, ?_⟩ <;>
  · simp [ecef2aer, anyNan, Bool.or_assoc, Bool.or_comm, Bool.or_left_comm, nan_ecef2enu, nan_enu2aer]

theorem num_ecef2aer (x y z lat0 lon0 h0 : F) (ell : Option (Ellipsoid F)) (deg : Bool) :
    (ecef2aer (num x) (num y) (num z) (num lat0) (num lon0) (num h0) (noNan ell) deg).1 = num (ecef2aer x y z lat0 lon0 h0 ell deg).1 ∧
    (ecef2aer (num x) (num y) (num z) (num lat0) (num lon0) (num h0) (noNan ell) deg).2.1 = num (ecef2aer x y z lat0 lon0 h0 ell deg).2.1 ∧
    (ecef2aer (num x) (num y) (num z) (num lat0) (num lon0) (num h0) (noNan ell) deg).2.2 = num (ecef2aer x y z lat0 lon0 h0 ell deg).2.2 := by
  have k := num_enu2aer (ecef2enu x y z lat0 lon0 h0 ell deg).1 (ecef2enu x y z lat0 lon0 h0 ell deg).2.1 (ecef2enu x y z lat0 lon0 h0 ell deg).2.2 deg
  cases ell <;> cases deg <;> exact ⟨k.1 _, k.2⟩

theorem nan_geodetic2aer (lat lon h lat0 lon0 h0 : Nan F) (ell : Option (Ellipsoid F)) (deg : Bool) :
    (geodetic2aer lat lon h lat0 lon0 h0 (noNan ell) deg).1.isNan = anyNan [lat, lon, h, lat0, lon0, h0] ∧
    (geodetic2aer lat lon h lat0 lon0 h0 (noNan ell) deg).2.1.isNan = anyNan [lat, lon, h, lat0, lon0, h0] ∧
    (geodetic2aer lat lon h lat0 lon0 h0 (noNan ell) deg).2.2.isNan = anyNan [lat, lon, h, lat0, lon0, h0] := by
  refine ⟨?_, ?_, ?_⟩ <;>
  · simp [geodetic2aer, anyNan, Bool.or_assoc, Bool.or_comm, Bool.or_left_comm, nan_geodetic2enu, nan_enu2aer]

theorem num_geodetic2aer (lat lon h lat0 lon0 h0 : F) (ell : Option (Ellipsoid F)) (deg : Bool) :
    (geodetic2aer (num lat) (num lon) (num h) (num lat0) (num lon0) (num h0) (noNan ell) deg).1 = num (geodetic2aer lat lon h lat0 lon0 h0 ell deg).1 ∧
    (geodetic2aer (num lat) (num lon) (num h) (num lat0) (num lon0) (num h0) (noNan ell) deg).2.1 = num (geodetic2aer lat lon h lat0 lon0 h0 ell deg).2.1 ∧
    (geodetic2aer (num lat) (num lon) (num h) (num lat0) (num lon0) (num h0) (noNan ell) deg).2.2 = num (geodetic2aer lat lon h lat0 lon0 h0 ell deg).2.2 := by
  have k := num_enu2aer (geodetic2enu lat lon h lat0 lon0 h0 ell deg).1 (geodetic2enu lat lon h lat0 lon0 h0 ell deg).2.1 (geodetic2enu lat lon h lat0 lon0 h0 ell deg).2.2 deg
  cases ell <;> cases deg <;> exact ⟨k.1 _, k.2⟩

theorem nan_aer2ecef (az el r lat0 lon0 h0 : Nan F) (ell : Option (Ellipsoid F)) (deg : Bool) :
    (aer2ecef az el r lat0 lon0 h0 (noNan ell) deg).1.isNan = anyNan [az, el, r, lat0, lon0, h0] ∧
    (aer2ecef az el r lat0 lon0 h0 (noNan ell) deg).2.1.isNan = anyNan [az, el, r, lat0, lon0, h0] ∧
    (aer2ecef az el r lat0 lon0 h0 (noNan ell) deg).2.2.isNan = anyNan [az, el, r, lat0, h0] := by
  refine ⟨?_, ?_, ?_⟩ <;>
  · simp [aer2ecef, anyNan, Bool.or_assoc, Bool.or_comm, Bool.or_left_comm, nan_geodetic2ecef, nan_aer2enu, nan_enu2uvw]

theorem num_aer2ecef (az el r lat0 lon0 h0 : F) (ell : Option (Ellipsoid F)) (deg : Bool) :
    (aer2ecef (num az) (num el) (num r) (num lat0) (num lon0) (num h0) (noNan ell) deg).1 = num (aer2ecef az el r lat0 lon0 h0 ell deg).1 ∧
    (aer2ecef (num az) (num el) (num r) (num lat0) (num lon0) (num h0) (noNan ell) deg).2.1 = num (aer2ecef az el r lat0 lon0 h0 ell deg).2.1 ∧
    (∀ lon0' : Nan F, (aer2ecef (num az) (num el) (num r) (num lat0) lon0' (num h0) (noNan ell) deg).2.2 = num (aer2ecef az el r lat0 lon0 h0 ell deg).2.2) := by
  cases ell <;> cases deg <;>
  num_rfl

theorem nan_aer2ned (az el r : Nan F) (deg : Bool) :
    (aer2ned az el r deg).1.isNan = anyNan [az, el, r] ∧
    (aer2ned az el r deg).2.1.isNan = anyNan [az, el, r] ∧
    (aer2ned az el r deg).2.2.isNan = anyNan [el, r] := by
  refine ⟨?_, ?_, ?_⟩ <;>
  · simp [aer2ned, anyNan, Bool.or_assoc, Bool.or_comm, Bool.or_left_comm, nan_aer2enu]

theorem num_aer2ned (az el r : F) (deg : Bool) :
    (aer2ned (num az) (num el) (num r) deg).1 = num (aer2ned az el r deg).1 ∧
    (aer2ned (num az) (num el) (num r) deg).2.1 = num (aer2ned az el r deg).2.1 ∧
    (∀ az' : Nan F, (aer2ned az' (num el) (num r) deg).2.2 = num (aer2ned az el r deg).2.2) := by
  cases deg <;>
  num_rfl

theorem nan_ned2aer (n e d : Nan F) (deg : Bool) :
    (ned2aer n e d deg).1.isNan = anyNan [n, e] ∧
    (ned2aer n e d deg).2.1.isNan = anyNan [n, e, d] ∧
    (ned2aer n e d deg).2.2.isNan = anyNan [n, e, d] := by
  refine ⟨?_, ?_, ?_⟩ <;>
  · simp [ned2aer, anyNan, Bool.or_assoc, Bool.or_comm, Bool.or_left_comm, nan_enu2aer]

theorem num_ned2aer (n e d : F) (deg : Bool) :
    (∀ d' : Nan F, (ned2aer (num n) (num e) d' deg).1 = num (ned2aer n e d deg).1) ∧
    (ned2aer (num n) (num e) (num d) deg).2.1 = num (ned2aer n e d deg).2.1 ∧
    (ned2aer (num n) (num e) (num d) deg).2.2 = num (ned2aer n e d deg).2.2 := by
  cases deg <;>
  (have h := fun d : F => num_enu2aer e n (-d); exact ⟨fun d' => (h d _).1 (-d'), (h d _).2.1, (h d _).2.2⟩)

theorem nan_ned2ecef (n e d lat0 lon0 h0 : Nan F) (ell : Option (Ellipsoid F)) (deg : Bool) :
    (ned2ecef n e d lat0 lon0 h0 (noNan ell) deg).1.isNan = anyNan [n, e, d, lat0, lon0, h0] ∧
    (ned2ecef n e d lat0 lon0 h0 (noNan ell) deg).2.1.isNan = anyNan [n, e, d, lat0, lon0, h0] ∧
    (ned2ecef n e d lat0 lon0 h0 (noNan ell) deg).2.2.isNan = anyNan [n, d, lat0, h0] := by
  refine ⟨?_, ?_, ?_⟩ <;>
  · simp [ned2ecef, anyNan, Bool.or_assoc, Bool.or_comm, Bool.or_left_comm, nan_enu2ecef]

theorem num_ned2ecef (n e d lat0 lon0 h0 : F) (ell : Option (Ellipsoid F)) (deg : Bool) :
    (ned2ecef (num n) (num e) (num d) (num lat0) (num lon0) (num h0) (noNan ell) deg).1 = num (ned2ecef n e d lat0 lon0 h0 ell deg).1 ∧
    (ned2ecef (num n) (num e) (num d) (num lat0) (num lon0) (num h0) (noNan ell) deg).2.1 = num (ned2ecef n e d lat0 lon0 h0 ell deg).2.1 ∧
    (∀ e' lon0' : Nan F, (ned2ecef (num n) e' (num d) (num lat0) lon0' (num h0) (noNan ell) deg).2.2 = num (ned2ecef n e d lat0 lon0 h0 ell deg).2.2) := by
  cases ell <;> cases deg <;>
  num_rfl

theorem nan_ecef2ned (x y z lat0 lon0 h0 : Nan F) (ell : Option (Ellipsoid F)) (deg : Bool) :
    (ecef2ned x y z lat0 lon0 h0 (noNan ell) deg).1.isNan = anyNan [x, y, z, lat0, lon0, h0] ∧
    (ecef2ned x y z lat0 lon0 h0 (noNan ell) deg).2.1.isNan = anyNan [x, y, lat0, lon0, h0] ∧
    (ecef2ned x y z lat0 lon0 h0 (noNan ell) deg).2.2.isNan = anyNan [x, y, z, lat0, lon0, h0] := by
  refine ⟨?_, ?_, ?_⟩ <;>
  · simp [ecef2ned, anyNan, Bool.or_assoc, Bool.or_comm, Bool.or_left_comm, nan_ecef2enu]

theorem num_ecef2ned (x y z lat0 lon0 h0 : F) (ell : Option (Ellipsoid F)) (deg : Bool) :
    (ecef2ned (num x) (num y) (num z) (num lat0) (num lon0) (num h0) (noNan ell) deg).1 = num (ecef2ned x y z lat0 lon0 h0 ell deg).1 ∧
    (∀ z' : Nan F, (ecef2ned (num x) (num y) z' (num lat0) (num lon0) (num h0) (noNan ell) deg).2.1 = num (ecef2ned x y z lat0 lon0 h0 ell deg).2.1) ∧
    (ecef2ned (num x) (num y) (num z) (num lat0) (num lon0) (num h0) (noNan ell) deg).2.2 = num (ecef2ned x y z lat0 lon0 h0 ell deg).2.2 := by
  cases ell <;> cases deg <;>
  num_rfl

theorem nan_geodetic2ned (lat lon h lat0 lon0 h0 : Nan F) (ell : Option (Ellipsoid F)) (deg : Bool) :
    (geodetic2ned lat lon h lat0 lon0 h0 (noNan ell) deg).1.isNan = anyNan [lat, lon, h, lat0, lon0, h0] ∧
    (geodetic2ned lat lon h lat0 lon0 h0 (noNan ell) deg).2.1.isNan = anyNan [lat, lon, h, lat0, lon0, h0] ∧
    (geodetic2ned lat lon h lat0 lon0 h0 (noNan ell) deg).2.2.isNan = anyNan [lat, lon, h, lat0, lon0, h0] := by
  refine ⟨?_, ?_, ?_⟩ <;>
  · simp [geodetic2ned, anyNan, Bool.or_assoc, Bool.or_comm, Bool.or_left_comm, nan_geodetic2enu]

theorem num_geodetic2ned (lat lon h lat0 lon0 h0 : F) (ell : Option (Ellipsoid F)) (deg : Bool) :
    (geodetic2ned (num lat) (num lon) (num h) (num lat0) (num lon0) (num h0) (noNan ell) deg).1 = num (geodetic2ned lat lon h lat0 lon0 h0 ell deg).1 ∧
    (geodetic2ned (num lat) (num lon) (num h) (num lat0) (num lon0) (num h0) (noNan ell) deg).2.1 = num (geodetic2ned lat lon h lat0 lon0 h0 ell deg).2.1 ∧
    (geodetic2ned (num lat) (num lon) (num h) (num lat0) (num lon0) (num h0) (noNan ell) deg).2.2 = num (geodetic2ned lat lon h lat0 lon0 h0 ell deg).2.2 := by
  cases ell <;> cases deg <;>
  num_rfl

theorem nan_ecef2nedv (x y z lat0 lon0 : Nan F) (deg : Bool) :
    (ecef2nedv x y z lat0 lon0 deg).1.isNan = anyNan [x, y, z, lat0, lon0] ∧
    (ecef2nedv x y z lat0 lon0 deg).2.1.isNan = anyNan [x, y, lon0] ∧
    (ecef2nedv x y z lat0 lon0 deg).2.2.isNan = anyNan [x, y, z, lat0, lon0] := by
  refine ⟨?_, ?_, ?_⟩ <;>
  · simp [ecef2nedv, anyNan, Bool.or_assoc, Bool.or_comm, Bool.or_left_comm, nan_ecef2enuv]

theorem num_ecef2nedv (x y z lat0 lon0 : F) (deg : Bool) :
    (ecef2nedv (num x) (num y) (num z) (num lat0) (num lon0) deg).1 = num (ecef2nedv x y z lat0 lon0 deg).1 ∧
    (∀ z' lat0' : Nan F, (ecef2nedv (num x) (num y) z' lat0' (num lon0) deg).2.1 = num (ecef2nedv x y z lat0 lon0 deg).2.1) ∧
    (ecef2nedv (num x) (num y) (num z) (num lat0) (num lon0) deg).2.2 = num (ecef2nedv x y z lat0 lon0 deg).2.2 := by
  cases deg <;>
  num_rfl

theorem nan_aer2nwu (az el r : Nan F) (deg : Bool) :
    (aer2nwu az el r deg).1.isNan = anyNan [az, el, r] ∧
    (aer2nwu az el r deg).2.1.isNan = anyNan [az, el, r] ∧
    (aer2nwu az el r deg).2.2.isNan = anyNan [el, r] := by
  refine ⟨?_, ?_, ?_⟩ <;>
  · simp [aer2nwu, anyNan, Bool.or_assoc, Bool.or_comm, Bool.or_left_comm, nan_aer2enu]

theorem num_aer2nwu (az el r : F) (deg : Bool) :
    (aer2nwu (num az) (num el) (num r) deg).1 = num (aer2nwu az el r deg).1 ∧
    (aer2nwu (num az) (num el) (num r) deg).2.1 = num (aer2nwu az el r deg).2.1 ∧
    (∀ az' : Nan F, (aer2nwu az' (num el) (num r) deg).2.2 = num (aer2nwu az el r deg).2.2) := by
  cases deg <;>
  num_rfl

theorem nan_nwu2aer (n w u : Nan F) (deg : Bool) :
    (nwu2aer n w u deg).1.isNan = anyNan [n, w] ∧
    (nwu2aer n w u deg).2.1.isNan = anyNan [n, w, u] ∧
    (nwu2aer n w u deg).2.2.isNan = anyNan [n, w, u] := by
  refine ⟨?_, ?_, ?_⟩ <;>
  · simp [nwu2aer, anyNan, Bool.or_assoc, Bool.or_comm, Bool.or_left_comm, nan_enu2aer]

theorem num_nwu2aer (n w u : F) (deg : Bool) :
    (∀ u' : Nan F, (nwu2aer (num n) (num w) u' deg).1 = num (nwu2aer n w u deg).1) ∧
    (nwu2aer (num n) (num w) (num u) deg).2.1 = num (nwu2aer n w u deg).2.1 ∧
    (nwu2aer (num n) (num w) (num u) deg).2.2 = num (nwu2aer n w u deg).2.2 := by
  cases deg <;>
  (exact num_enu2aer (-w) n u _)

theorem nan_nwu2ecef (n w u lat0 lon0 h0 : Nan F) (ell : Option (Ellipsoid F)) (deg : Bool) :
    (nwu2ecef n w u lat0 lon0 h0 (noNan ell) deg).1.isNan = anyNan [n, w, u, lat0, lon0, h0] ∧
    (nwu2ecef n w u lat0 lon0 h0 (noNan ell) deg).2.1.isNan = anyNan [n, w, u, lat0, lon0, h0] ∧
    (nwu2ecef n w u lat0 lon0 h0 (noNan ell) deg).2.2.isNan = anyNan [n, u, lat0, h0] := by
  refine ⟨?_, ?_, ?_⟩ <;>
  · simp [nwu2ecef, anyNan, Bool.or_assoc, Bool.or_comm, Bool.or_left_comm, nan_enu2ecef]

theorem num_nwu2ecef (n w u lat0 lon0 h0 : F) (ell : Option (Ellipsoid F)) (deg : Bool) :
    (nwu2ecef (num n) (num w) (num u) (num lat0) (num lon0) (num h0) (noNan ell) deg).1 = num (nwu2ecef n w u lat0 lon0 h0 ell deg).1 ∧
    (nwu2ecef (num n) (num w) (num u) (num lat0) (num lon0) (num h0) (noNan ell) deg).2.1 = num (nwu2ecef n w u lat0 lon0 h0 ell deg).2.1 ∧
    (∀ w' lon0' : Nan F, (nwu2ecef (num n) w' (num u) (num lat0) lon0' (num h0) (noNan ell) deg).2.2 = num (nwu2ecef n w u lat0 lon0 h0 ell deg).2.2) := by
  cases ell <;> cases deg <;>
  num_rfl

theorem nan_nwu2ecefv (n w u lat0 lon0 : Nan F) (deg : Bool) :
    (nwu2ecefv n w u lat0 lon0 deg).1.isNan = anyNan [n, w, u, lat0, lon0] ∧
    (nwu2ecefv n w u lat0 lon0 deg).2.1.isNan = anyNan [n, w, u, lat0, lon0] ∧
    (nwu2ecefv n w u lat0 lon0 deg).2.2.isNan = anyNan [n, u, lat0] := by
  refine ⟨?_, ?_, ?_⟩ <;>
  · simp [nwu2ecefv, anyNan, Bool.or_assoc, Bool.or_comm, Bool.or_left_comm, nan_enu2ecefv]

theorem num_nwu2ecefv (n w u lat0 lon0 : F) (deg : Bool) :
    (nwu2ecefv (num n) (num w) (num u) (num lat0) (num lon0) deg).1 = num (nwu2ecefv n w u lat0 lon0 deg).1 ∧
    (nwu2ecefv (num n) (num w) (num u) (num lat0) (num lon0) deg).2.1 = num (nwu2ecefv n w u lat0 lon0 deg).2.1 ∧
    (∀ w' lon0' : Nan F, (nwu2ecefv (num n) w' (num u) (num lat0) lon0' deg).2.2 = num (nwu2ecefv n w u lat0 lon0 deg).2.2) := by
  cases deg <;>
  num_rfl

theorem nan_ecef2nwu (x y z lat0 lon0 h0 : Nan F) (ell : Option (Ellipsoid F)) (deg : Bool) :
    (ecef2nwu x y z lat0 lon0 h0 (noNan ell) deg).1.isNan = anyNan [x, y, z, lat0, lon0, h0] ∧
    (ecef2nwu x y z lat0 lon0 h0 (noNan ell) deg).2.1.isNan = anyNan [x, y, lat0, lon0, h0] ∧
    (ecef2nwu x y z lat0 lon0 h0 (noNan ell) deg).2.2.isNan = anyNan [x, y, z, lat0, lon0, h0] := by
  refine ⟨?_, ?_, ?_⟩ <;>
  · simp [ecef2nwu, anyNan, Bool.or_assoc, Bool.or_comm, Bool.or_left_comm, nan_ecef2enu]

theorem num_ecef2nwu (x y z lat0 lon0 h0 : F) (ell : Option (Ellipsoid F)) (deg : Bool) :
    (ecef2nwu (num x) (num y) (num z) (num lat0) (num lon0) (num h0) (noNan ell) deg).1 = num (ecef2nwu x y z lat0 lon0 h0 ell deg).1 ∧
    (∀ z' : Nan F, (ecef2nwu (num x) (num y) z' (num lat0) (num lon0) (num h0) (noNan ell) deg).2.1 = num (ecef2nwu x y z lat0 lon0 h0 ell deg).2.1) ∧
    (ecef2nwu (num x) (num y) (num z) (num lat0) (num lon0) (num h0) (noNan ell) deg).2.2 = num (ecef2nwu x y z lat0 lon0 h0 ell deg).2.2 := by
  cases ell <;> cases deg <;>
  num_rfl

theorem nan_ecef2nwuv (x y z lat0 lon0 : Nan F) (deg : Bool) :
    (ecef2nwuv x y z lat0 lon0 deg).1.isNan = anyNan [x, y, z, lat0, lon0] ∧
    (ecef2nwuv x y z lat0 lon0 deg).2.1.isNan = anyNan [x, y, lon0] ∧
    (ecef2nwuv x y z lat0 lon0 deg).2.2.isNan = anyNan [x, y, z, lat0, lon0] := by
  refine ⟨?_, ?_, ?_⟩ <;>
  · simp [ecef2nwuv, anyNan, Bool.or_assoc, Bool.or_comm, Bool.or_left_comm, nan_ecef2enuv]

theorem num_ecef2nwuv (x y z lat0 lon0 : F) (deg : Bool) :
    (ecef2nwuv (num x) (num y) (num z) (num lat0) (num lon0) deg).1 = num (ecef2nwuv x y z lat0 lon0 deg).1 ∧
    (∀ z' lat0' : Nan F, (ecef2nwuv (num x) (num y) z' lat0' (num lon0) deg).2.1 = num (ecef2nwuv x y z lat0 lon0 deg).2.1) ∧
    (ecef2nwuv (num x) (num y) (num z) (num lat0) (num lon0) deg).2.2 = num (ecef2nwuv x y z lat0 lon0 deg).2.2 := by
  cases deg <;>
  num_rfl

theorem nan_geodetic2nwu (lat lon h lat0 lon0 h0 : Nan F) (ell : Option (Ellipsoid F)) (deg : Bool) :
    (geodetic2nwu lat lon h lat0 lon0 h0 (noNan ell) deg).1.isNan = anyNan [lat, lon, h, lat0, lon0, h0] ∧
    (geodetic2nwu lat lon h lat0 lon0 h0 (noNan ell) deg).2.1.isNan = anyNan [lat, lon, h, lat0, lon0, h0] ∧
    (geodetic2nwu lat lon h lat0 lon0 h0 (noNan ell) deg).2.2.isNan = anyNan [lat, lon, h, lat0, lon0, h0] := by
  refine ⟨?_, ?_, ?_⟩ <;>
  · simp [geodetic2nwu, anyNan, Bool.or_assoc, Bool.or_comm, Bool.or_left_comm, nan_geodetic2enu]

theorem num_geodetic2nwu (lat lon h lat0 lon0 h0 : F) (ell : Option (Ellipsoid F)) (deg : Bool) :
    (geodetic2nwu (num lat) (num lon) (num h) (num lat0) (num lon0) (num h0) (noNan ell) deg).1 = num (geodetic2nwu lat lon h lat0 lon0 h0 ell deg).1 ∧
    (geodetic2nwu (num lat) (num lon) (num h) (num lat0) (num lon0) (num h0) (noNan ell) deg).2.1 = num (geodetic2nwu lat lon h lat0 lon0 h0 ell deg).2.1 ∧
    (geodetic2nwu (num lat) (num lon) (num h) (num lat0) (num lon0) (num h0) (noNan ell) deg).2.2 = num (geodetic2nwu lat lon h lat0 lon0 h0 ell deg).2.2 := by
  cases ell <;> cases deg <;>
  num_rfl

theorem nan_aer2sez (az el r : Nan F) (deg : Bool) :
    (aer2sez az el r deg).1.isNan = anyNan [az, el, r] ∧
    (aer2sez az el r deg).2.1.isNan = anyNan [az, el, r] ∧
    (aer2sez az el r deg).2.2.isNan = anyNan [el, r] := by
  refine ⟨?_, ?_, ?_⟩ <;>
  · simp [aer2sez, anyNan, Bool.or_assoc, Bool.or_comm, Bool.or_left_comm, nan_aer2enu]

theorem num_aer2sez (az el r : F) (deg : Bool) :
    (aer2sez (num az) (num el) (num r) deg).1 = num (aer2sez az el r deg).1 ∧
    (aer2sez (num az) (num el) (num r) deg).2.1 = num (aer2sez az el r deg).2.1 ∧
    (∀ az' : Nan F, (aer2sez az' (num el) (num r) deg).2.2 = num (aer2sez az el r deg).2.2) := by
  cases deg <;>
  num_rfl

theorem nan_sez2aer (s e z : Nan F) (deg : Bool) :
    (sez2aer s e z deg).1.isNan = anyNan [s, e] ∧
    (sez2aer s e z deg).2.1.isNan = anyNan [s, e, z] ∧
    (sez2aer s e z deg).2.2.isNan = anyNan [s, e, z] := by
  refine ⟨?_, ?_, ?_⟩ <;>
  · simp [sez2aer, anyNan, Bool.or_assoc, Bool.or_comm, Bool.or_left_comm, nan_enu2aer]

theorem num_sez2aer (s e z : F) (deg : Bool) :
    (∀ z' : Nan F, (sez2aer (num s) (num e) z' deg).1 = num (sez2aer s e z deg).1) ∧
    (sez2aer (num s) (num e) (num z) deg).2.1 = num (sez2aer s e z deg).2.1 ∧
    (sez2aer (num s) (num e) (num z) deg).2.2 = num (sez2aer s e z deg).2.2 := by
  cases deg <;>
  (exact num_enu2aer e (-s) z _)

theorem nan_sez2ecef (s e z lat0 lon0 h0 : Nan F) (ell : Option (Ellipsoid F)) (deg : Bool) :
    (sez2ecef s e z lat0 lon0 h0 (noNan ell) deg).1.isNan = anyNan [s, e, z, lat0, lon0, h0] ∧
    (sez2ecef s e z lat0 lon0 h0 (noNan ell) deg).2.1.isNan = anyNan [s, e, z, lat0, lon0, h0] ∧
    (sez2ecef s e z lat0 lon0 h0 (noNan ell) deg).2.2.isNan = anyNan [s, z, lat0, h0] := by
  refine ⟨?_, ?_, ?_⟩ <;>
  · simp [sez2ecef, anyNan, Bool.or_assoc, Bool.or_comm, Bool.or_left_comm, nan_enu2ecef]

theorem num_sez2ecef (s e z lat0 lon0 h0 : F) (ell : Option (Ellipsoid F)) (deg : Bool) :
    (sez2ecef (num s) (num e) (num z) (num lat0) (num lon0) (num h0) (noNan ell) deg).1 = num (sez2ecef s e z lat0 lon0 h0 ell deg).1 ∧
    (sez2ecef (num s) (num e) (num z) (num lat0) (num lon0) (num h0) (noNan ell) deg).2.1 = num (sez2ecef s e z lat0 lon0 h0 ell deg).2.1 ∧
    (∀ e' lon0' : Nan F, (sez2ecef (num s) e' (num z) (num lat0) lon0' (num h0) (noNan ell) deg).2.2 = num (sez2ecef s e z lat0 lon0 h0 ell deg).2.2) := by
  cases ell <;> cases deg <;>
  num_rfl

theorem nan_sez2ecefv (s e z lat0 lon0 : Nan F) (deg : Bool) :
    (sez2ecefv s e z lat0 lon0 deg).1.isNan = anyNan [s, e, z, lat0, lon0] ∧
    (sez2ecefv s e z lat0 lon0 deg).2.1.isNan = anyNan [s, e, z, lat0, lon0] ∧
    (sez2ecefv s e z lat0 lon0 deg).2.2.isNan = anyNan [s, z, lat0] := by
  refine ⟨?_, ?_, ?_⟩ <;>
  · simp [sez2ecefv, anyNan, Bool.or_assoc, Bool.or_comm, Bool.or_left_comm, nan_enu2ecefv]

theorem num_sez2ecefv (s e z lat0 lon0 : F) (deg : Bool) :
    (sez2ecefv (num s) (num e) (num z) (num lat0) (num lon0) deg).1 = num (sez2ecefv s e z lat0 lon0 deg).1 ∧
    (sez2ecefv (num s) (num e) (num z) (num lat0) (num lon0) deg).2.1 = num (sez2ecefv s e z lat0 lon0 deg).2.1 ∧
    (∀ e' lon0' : Nan F, (sez2ecefv (num s) e' (num z) (num lat0) lon0' deg).2.2 = num (sez2ecefv s e z lat0 lon0 deg).2.2) := by
  cases deg <;>
  num_rfl

theorem nan_ecef2sez (x y z lat0 lon0 h0 : Nan F) (ell : Option (Ellipsoid F)) (deg : Bool) :
    (ecef2sez x y z lat0 lon0 h0 (noNan ell) deg).1.isNan = anyNan [x, y, z, lat0, lon0, h0] ∧
    (ecef2sez x y z lat0 lon0 h0 (noNan ell) deg).2.1.isNan = anyNan [x, y, lat0, lon0, h0] ∧
    (ecef2sez x y z lat0 lon0 h0 (noNan ell) deg).2.2.isNan = anyNan [x, y, z, lat0, lon0, h0] := by
  refine ⟨?_, ?_, ?_⟩ <;>
  · simp [ecef2sez, anyNan, Bool.or_assoc, Bool.or_comm, Bool.or_left_comm, nan_ecef2enu]

theorem num_ecef2sez (x y z lat0 lon0 h0 : F) (ell : Option (Ellipsoid F)) (deg : Bool) :
    (ecef2sez (num x) (num y) (num z) (num lat0) (num lon0) (num h0) (noNan ell) deg).1 = num (ecef2sez x y z lat0 lon0 h0 ell deg).1 ∧
    (∀ z' : Nan F, (ecef2sez (num x) (num y) z' (num lat0) (num lon0) (num h0) (noNan ell) deg).2.1 = num (ecef2sez x y z lat0 lon0 h0 ell deg).2.1) ∧
    (ecef2sez (num x) (num y) (num z) (num lat0) (num lon0) (num h0) (noNan ell) deg).2.2 = num (ecef2sez x y z lat0 lon0 h0 ell deg).2.2 := by
  cases ell <;> cases deg <;>
  num_rfl

theorem nan_ecef2sezv (x y z lat0 lon0 : Nan F) (deg : Bool) :
    (ecef2sezv x y z lat0 lon0 deg).1.isNan = anyNan [x, y, z, lat0, lon0] ∧
    (ecef2sezv x y z lat0 lon0 deg).2.1.isNan = anyNan [x, y, lon0] ∧
    (ecef2sezv x y z lat0 lon0 deg).2.2.isNan = anyNan [x, y, z, lat0, lon0] := by
  refine ⟨?_, ?_, ?_⟩ <;>
  · simp [ecef2sezv, anyNan, Bool.or_assoc, Bool.or_comm, Bool.or_left_comm, nan_ecef2enuv]

theorem num_ecef2sezv (x y z lat0 lon0 : F) (deg : Bool) :
    (ecef2sezv (num x) (num y) (num z) (num lat0) (num lon0) deg).1 = num (ecef2sezv x y z lat0 lon0 deg).1 ∧
    (∀ z' lat0' : Nan F, (ecef2sezv (num x) (num y) z' lat0' (num lon0) deg).2.1 = num (ecef2sezv x y z lat0 lon0 deg).2.1) ∧
    (ecef2sezv (num x) (num y) (num z) (num lat0) (num lon0) deg).2.2 = num (ecef2sezv x y z lat0 lon0 deg).2.2 := by
  cases deg <;>
  num_rfl

theorem nan_geodetic2sez (lat lon h lat0 lon0 h0 : Nan F) (ell : Option (Ellipsoid F)) (deg : Bool) :
    (geodetic2sez lat lon h lat0 lon0 h0 (noNan ell) deg).1.isNan = anyNan [lat, lon, h, lat0, lon0, h0] ∧
    (geodetic2sez lat lon h lat0 lon0 h0 (noNan ell) deg).2.1.isNan = anyNan [lat, lon, h, lat0, lon0, h0] ∧
    (geodetic2sez lat lon h lat0 lon0 h0 (noNan ell) deg).2.2.isNan = anyNan [lat, lon, h, lat0, lon0, h0] := by
  refine ⟨?_, ?_, ?_⟩ <;>
  · simp [geodetic2sez, anyNan, Bool.or_assoc, Bool.or_comm, Bool.or_left_comm, nan_geodetic2enu]

theorem num_geodetic2sez (lat lon h lat0 lon0 h0 : F) (ell : Option (Ellipsoid F)) (deg : Bool) :
    (geodetic2sez (num lat) (num lon) (num h) (num lat0) (num lon0) (num h0) (noNan ell) deg).1 = num (geodetic2sez lat lon h lat0 lon0 h0 ell deg).1 ∧
    (geodetic2sez (num lat) (num lon) (num h) (num lat0) (num lon0) (num h0) (noNan ell) deg).2.1 = num (geodetic2sez lat lon h lat0 lon0 h0 ell deg).2.1 ∧
    (geodetic2sez (num lat) (num lon) (num h) (num lat0) (num lon0) (num h0) (noNan ell) deg).2.2 = num (geodetic2sez lat lon h lat0 lon0 h0 ell deg).2.2 := by
  cases ell <;> cases deg <;>
  num_rfl

theorem nan_enu2dca (e n u hdg : Nan F) (deg : Bool) :
    (enu2dca e n u hdg deg).1.isNan = anyNan [e, n, hdg] ∧
    (enu2dca e n u hdg deg).2.1.isNan = anyNan [e, n, hdg] ∧
    (enu2dca e n u hdg deg).2.2.isNan = anyNan [u] := by
  refine ⟨?_, ?_, ?_⟩ <;>
  · simp [enu2dca, anyNan, Bool.or_assoc, Bool.or_comm, Bool.or_left_comm]

theorem num_enu2dca (e n u hdg : F) (deg : Bool) :
    (∀ u' : Nan F, (enu2dca (num e) (num n) u' (num hdg) deg).1 = num (enu2dca e n u hdg deg).1) ∧
    (∀ u' : Nan F, (enu2dca (num e) (num n) u' (num hdg) deg).2.1 = num (enu2dca e n u hdg deg).2.1) ∧
    (∀ e' n' hdg' : Nan F, (enu2dca e' n' (num u) hdg' deg).2.2 = num (enu2dca e n u hdg deg).2.2) := by
  cases deg <;>
  num_rfl

theorem nan_dca2enu (dr cr ab hdg : Nan F) (deg : Bool) :
    (dca2enu dr cr ab hdg deg).1.isNan = anyNan [dr, cr, hdg] ∧
    (dca2enu dr cr ab hdg deg).2.1.isNan = anyNan [dr, cr, hdg] ∧
    (dca2enu dr cr ab hdg deg).2.2.isNan = anyNan [ab] := by
  refine ⟨?_, ?_, ?_⟩ <;>
  · simp [dca2enu, anyNan, Bool.or_assoc, Bool.or_comm, Bool.or_left_comm]

theorem num_dca2enu (dr cr ab hdg : F) (deg : Bool) :
    (∀ ab' : Nan F, (dca2enu (num dr) (num cr) ab' (num hdg) deg).1 = num (dca2enu dr cr ab hdg deg).1) ∧
    (∀ ab' : Nan F, (dca2enu (num dr) (num cr) ab' (num hdg) deg).2.1 = num (dca2enu dr cr ab hdg deg).2.1) ∧
    (∀ dr' cr' hdg' : Nan F, (dca2enu dr' cr' (num ab) hdg' deg).2.2 = num (dca2enu dr cr ab hdg deg).2.2) := by
  cases deg <;>
  num_rfl

theorem nan_ned2dca (n e d hdg : Nan F) (deg : Bool) :
    (ned2dca n e d hdg deg).1.isNan = anyNan [n, e, hdg] ∧
    (ned2dca n e d hdg deg).2.1.isNan = anyNan [n, e, hdg] ∧
    (ned2dca n e d hdg deg).2.2.isNan = anyNan [d] := by
  refine ⟨?_, ?_, ?_⟩ <;>
  · simp [ned2dca, anyNan, Bool.or_assoc, Bool.or_comm, Bool.or_left_comm, nan_enu2dca]

theorem num_ned2dca (n e d hdg : F) (deg : Bool) :
    (∀ d' : Nan F, (ned2dca (num n) (num e) d' (num hdg) deg).1 = num (ned2dca n e d hdg deg).1) ∧
    (∀ d' : Nan F, (ned2dca (num n) (num e) d' (num hdg) deg).2.1 = num (ned2dca n e d hdg deg).2.1) ∧
    (∀ n' e' hdg' : Nan F, (ned2dca n' e' (num d) hdg' deg).2.2 = num (ned2dca n e d hdg deg).2.2) := by
  cases deg <;>
  num_rfl

theorem nan_dca2ned (dr cr ab hdg : Nan F) (deg : Bool) :
    (dca2ned dr cr ab hdg deg).1.isNan = anyNan [dr, cr, hdg] ∧
    (dca2ned dr cr ab hdg deg).2.1.isNan = anyNan [dr, cr, hdg] ∧
    (dca2ned dr cr ab hdg deg).2.2.isNan = anyNan [ab] := by
  refine ⟨?_, ?_, ?_⟩ <;>
  · simp [dca2ned, anyNan, Bool.or_assoc, Bool.or_comm, Bool.or_left_comm, nan_dca2enu]

theorem num_dca2ned (dr cr ab hdg : F) (deg : Bool) :
    (∀ ab' : Nan F, (dca2ned (num dr) (num cr) ab' (num hdg) deg).1 = num (dca2ned dr cr ab hdg deg).1) ∧
    (∀ ab' : Nan F, (dca2ned (num dr) (num cr) ab' (num hdg) deg).2.1 = num (dca2ned dr cr ab hdg deg).2.1) ∧
    (∀ dr' cr' hdg' : Nan F, (dca2ned dr' cr' (num ab) hdg' deg).2.2 = num (dca2ned dr cr ab hdg deg).2.2) := by
  cases deg <;>
  num_rfl

theorem nan_ecef2dca (x y z lat0 lon0 h0 hdg : Nan F) (ell : Option (Ellipsoid F)) (deg : Bool) :
    (ecef2dca x y z lat0 lon0 h0 hdg (noNan ell) deg).1.isNan = anyNan [x, y, z, lat0, lon0, h0, hdg] ∧
    (ecef2dca x y z lat0 lon0 h0 hdg (noNan ell) deg).2.1.isNan = anyNan [x, y, z, lat0, lon0, h0, hdg] ∧
    (ecef2dca x y z lat0 lon0 h0 hdg (noNan ell) deg).2.2.isNan = anyNan [x, y, z, lat0, lon0, h0] := by
  refine ⟨?_, ?_, ?_⟩ <;>
  · simp [ecef2dca, anyNan, Bool.or_assoc, Bool.or_comm, Bool.or_left_comm, nan_ecef2enu, nan_enu2dca]

theorem num_ecef2dca (x y z lat0 lon0 h0 hdg : F) (ell : Option (Ellipsoid F)) (deg : Bool) :
    (ecef2dca (num x) (num y) (num z) (num lat0) (num lon0) (num h0) (num hdg) (noNan ell) deg).1 = num (ecef2dca x y z lat0 lon0 h0 hdg ell deg).1 ∧
    (ecef2dca (num x) (num y) (num z) (num lat0) (num lon0) (num h0) (num hdg) (noNan ell) deg).2.1 = num (ecef2dca x y z lat0 lon0 h0 hdg ell deg).2.1 ∧
    (∀ hdg' : Nan F, (ecef2dca (num x) (num y) (num z) (num lat0) (num lon0) (num h0) hdg' (noNan ell) deg).2.2 = num (ecef2dca x y z lat0 lon0 h0 hdg ell deg).2.2) := by
  cases ell <;> cases deg <;>
  num_rfl

theorem nan_dca2ecef (dr cr ab lat0 lon0 h0 hdg : Nan F) (ell : Option (Ellipsoid F)) (deg : Bool) :
    (dca2ecef dr cr ab lat0 lon0 h0 hdg (noNan ell) deg).1.isNan = anyNan [dr, cr, ab, lat0, lon0, h0, hdg] ∧
    (dca2ecef dr cr ab lat0 lon0 h0 hdg (noNan ell) deg).2.1.isNan = anyNan [dr, cr, ab, lat0, lon0, h0, hdg] ∧
    (dca2ecef dr cr ab lat0 lon0 h0 hdg (noNan ell) deg).2.2.isNan = anyNan [dr, cr, ab, lat0, h0, hdg] := by
  refine ⟨?_, ?_, ?_⟩ <;>
  · simp [dca2ecef, anyNan, Bool.or_assoc, Bool.or_comm, Bool.or_left_comm, nan_dca2enu, nan_enu2ecef]

theorem num_dca2ecef (dr cr ab lat0 lon0 h0 hdg : F) (ell : Option (Ellipsoid F)) (deg : Bool) :
    (dca2ecef (num dr) (num cr) (num ab) (num lat0) (num lon0) (num h0) (num hdg) (noNan ell) deg).1 = num (dca2ecef dr cr ab lat0 lon0 h0 hdg ell deg).1 ∧
    (dca2ecef (num dr) (num cr) (num ab) (num lat0) (num lon0) (num h0) (num hdg) (noNan ell) deg).2.1 = num (dca2ecef dr cr ab lat0 lon0 h0 hdg ell deg).2.1 ∧
    (∀ lon0' : Nan F, (dca2ecef (num dr) (num cr) (num ab) (num lat0) lon0' (num h0) (num hdg) (noNan ell) deg).2.2 = num (dca2ecef dr cr ab lat0 lon0 h0 hdg ell deg).2.2) := by
  cases ell <;> cases deg <;>
  num_rfl

theorem nan_geodetic2dca (lat lon h lat0 lon0 h0 hdg : Nan F) (ell : Option (Ellipsoid F)) (deg : Bool) :
    (geodetic2dca lat lon h lat0 lon0 h0 hdg (noNan ell) deg).1.isNan = anyNan [lat, lon, h, lat0, lon0, h0, hdg] ∧
    (geodetic2dca lat lon h lat0 lon0 h0 hdg (noNan ell) deg).2.1.isNan = anyNan [lat, lon, h, lat0, lon0, h0, hdg] ∧
    (geodetic2dca lat lon h lat0 lon0 h0 hdg (noNan ell) deg).2.2.isNan = anyNan [lat, lon, h, lat0, lon0, h0] := by
  refine ⟨?_, ?_, ?_⟩ <;>
  · simp [geodetic2dca, anyNan, Bool.or_assoc, Bool.or_comm, Bool.or_left_comm, nan_geodetic2enu, nan_enu2dca]

theorem num_geodetic2dca (lat lon h lat0 lon0 h0 hdg : F) (ell : Option (Ellipsoid F)) (deg : Bool) :
    (geodetic2dca (num lat) (num lon) (num h) (num lat0) (num lon0) (num h0) (num hdg) (noNan ell) deg).1 = num (geodetic2dca lat lon h lat0 lon0 h0 hdg ell deg).1 ∧
    (geodetic2dca (num lat) (num lon) (num h) (num lat0) (num lon0) (num h0) (num hdg) (noNan ell) deg).2.1 = num (geodetic2dca lat lon h lat0 lon0 h0 hdg ell deg).2.1 ∧
    (∀ hdg' : Nan F, (geodetic2dca (num lat) (num lon) (num h) (num lat0) (num lon0) (num h0) hdg' (noNan ell) deg).2.2 = num (geodetic2dca lat lon h lat0 lon0 h0 hdg ell deg).2.2) := by
  cases ell <;> cases deg <;>
  num_rfl

theorem nan_aer2dca (az el r hdg : Nan F) (deg : Bool) :
    (aer2dca az el r hdg deg).1.isNan = anyNan [az, el, r, hdg] ∧
    (aer2dca az el r hdg deg).2.1.isNan = anyNan [az, el, r, hdg] ∧
    (aer2dca az el r hdg deg).2.2.isNan = anyNan [el, r] := by
  refine ⟨?_, ?_, ?_⟩ <;>
  · simp [aer2dca, anyNan, Bool.or_assoc, Bool.or_comm, Bool.or_left_comm, nan_aer2enu, nan_enu2dca]

theorem num_aer2dca (az el r hdg : F) (deg : Bool) :
    (aer2dca (num az) (num el) (num r) (num hdg) deg).1 = num (aer2dca az el r hdg deg).1 ∧
    (aer2dca (num az) (num el) (num r) (num hdg) deg).2.1 = num (aer2dca az el r hdg deg).2.1 ∧
    (∀ az' hdg' : Nan F, (aer2dca az' (num el) (num r) hdg' deg).2.2 = num (aer2dca az el r hdg deg).2.2) := by
  cases deg <;>
  num_rfl

theorem nan_dca2aer (dr cr ab hdg : Nan F) (deg : Bool) :
    (dca2aer dr cr ab hdg deg).1.isNan = anyNan [dr, cr, hdg] ∧
    (dca2aer dr cr ab hdg deg).2.1.isNan = anyNan [dr, cr, ab, hdg] ∧
    (dca2aer dr cr ab hdg deg).2.2.isNan = anyNan [dr, cr, ab, hdg] := by
  refine ⟨?_, ?_, ?_⟩ <;>
  · simp [dca2aer, anyNan, Bool.or_assoc, Bool.or_comm, Bool.or_left_comm, nan_dca2enu, nan_enu2aer]

theorem num_dca2aer (dr cr ab hdg : F) (deg : Bool) :
    (∀ ab' : Nan F, (dca2aer (num dr) (num cr) ab' (num hdg) deg).1 = num (dca2aer dr cr ab hdg deg).1) ∧
    (dca2aer (num dr) (num cr) (num ab) (num hdg) deg).2.1 = num (dca2aer dr cr ab hdg deg).2.1 ∧
    (dca2aer (num dr) (num cr) (num ab) (num hdg) deg).2.2 = num (dca2aer dr cr ab hdg deg).2.2 := by
  cases deg <;>
  (first | exact num_enu2aer (dca2enu dr cr ab hdg false).1 (dca2enu dr cr ab hdg false).2.1 ab false | exact num_enu2aer (dca2enu dr cr ab hdg true).1 (dca2enu dr cr ab hdg true).2.1 ab true)

theorem nan_geocentric_radius (lat : Nan F) (ell : Option (Ellipsoid F)) (deg : Bool) :
    (geocentric_radius lat (noNan ell) deg).isNan = anyNan [lat] := by
  · simp [geocentric_radius, anyNan, Bool.or_assoc, Bool.or_comm, Bool.or_left_comm]

theorem num_geocentric_radius (lat : F) (ell : Option (Ellipsoid F)) (deg : Bool) :
    (geocentric_radius (num lat) (noNan ell) deg) = num (geocentric_radius lat ell deg) := by
  cases ell <;> cases deg <;>
  num_rfl

theorem nan_transverse (lat : Nan F) (ell : Option (Ellipsoid F)) (deg : Bool) :
    (transverse lat (noNan ell) deg).isNan = anyNan [lat] := by
  · simp [transverse, anyNan, Bool.or_assoc, Bool.or_comm, Bool.or_left_comm]

theorem num_transverse (lat : F) (ell : Option (Ellipsoid F)) (deg : Bool) :
    (transverse (num lat) (noNan ell) deg) = num (transverse lat ell deg) := by
  cases ell <;> cases deg <;>
  num_rfl

theorem nan_parallel (lat : Nan F) (ell : Option (Ellipsoid F)) (deg : Bool) :
    (parallel lat (noNan ell) deg).isNan = anyNan [lat] := by
  · simp [parallel, anyNan, Bool.or_assoc, Bool.or_comm, Bool.or_left_comm, nan_transverse]

theorem num_parallel (lat : F) (ell : Option (Ellipsoid F)) (deg : Bool) :
    (parallel (num lat) (noNan ell) deg) = num (parallel lat ell deg) := by
  cases ell <;> cases deg <;>
  num_rfl

theorem nan_meridian (lat : Nan F) (ell : Option (Ellipsoid F)) (deg : Bool) :
    (meridian lat (noNan ell) deg).isNan = anyNan [lat] := by
  · simp [meridian, anyNan, Bool.or_assoc, Bool.or_comm, Bool.or_left_comm]

theorem num_meridian (lat : F) (ell : Option (Ellipsoid F)) (deg : Bool) :
    (meridian (num lat) (noNan ell) deg) = num (meridian lat ell deg) := by
  cases ell <;> cases deg <;>
  num_rfl

theorem nan_geoc2geod (lat r : Nan F) (ell : Option (Ellipsoid F)) (deg : Bool) :
    (geoc2geod lat r (noNan ell) deg).isNan = anyNan [lat, r] := by
  · simp [geoc2geod, anyNan, Bool.or_assoc, Bool.or_comm, Bool.or_left_comm]

theorem num_geoc2geod (lat r : F) (ell : Option (Ellipsoid F)) (deg : Bool) :
    (geoc2geod (num lat) (num r) (noNan ell) deg) = num (geoc2geod lat r ell deg) := by
  cases ell <;> cases deg <;>
  num_rfl

theorem nan_geodetic2geocentric (lat h : Nan F) (ell : Option (Ellipsoid F)) (deg : Bool) :
    (geodetic2geocentric lat h (noNan ell) deg).isNan = anyNan [lat, h] := by
  · simp [geodetic2geocentric, anyNan, Bool.or_assoc, Bool.or_comm, Bool.or_left_comm, transverse]

theorem num_geodetic2geocentric (lat h : F) (ell : Option (Ellipsoid F)) (deg : Bool) :
    (geodetic2geocentric (num lat) (num h) (noNan ell) deg) = num (geodetic2geocentric lat h ell deg) := by
  cases ell <;> cases deg <;>
  num_rfl

theorem nan_geocentric2geodetic (lat h : Nan F) (ell : Option (Ellipsoid F)) (deg : Bool) :
    (geocentric2geodetic lat h (noNan ell) deg).isNan = anyNan [lat, h] := by
  · simp [geocentric2geodetic, anyNan, Bool.or_assoc, Bool.or_comm, Bool.or_left_comm, transverse]

theorem num_geocentric2geodetic (lat h : F) (ell : Option (Ellipsoid F)) (deg : Bool) :
    (geocentric2geodetic (num lat) (num h) (noNan ell) deg) = num (geocentric2geodetic lat h ell deg) := by
  cases ell <;> cases deg <;>
  num_rfl

theorem nan_conformal2geodetic (lat : Nan F) (ell : Option (Ellipsoid F)) (deg : Bool) :
    (conformal2geodetic lat (noNan ell) deg).isNan = anyNan [lat] := by
  · simp [conformal2geodetic, anyNan, Bool.or_assoc, Bool.or_comm, Bool.or_left_comm]

theorem num_conformal2geodetic (lat : F) (ell : Option (Ellipsoid F)) (deg : Bool) :
    (conformal2geodetic (num lat) (noNan ell) deg) = num (conformal2geodetic lat ell deg) := by
  cases ell <;> cases deg <;>
  num_rfl

theorem nan_isometric2geodetic (lat : Nan F) (ell : Option (Ellipsoid F)) (deg : Bool) :
    (isometric2geodetic lat (noNan ell) deg).isNan = anyNan [lat] := by
  · simp [isometric2geodetic, anyNan, Bool.or_assoc, Bool.or_comm, Bool.or_left_comm, nan_conformal2geodetic]

theorem num_isometric2geodetic (lat : F) (ell : Option (Ellipsoid F)) (deg : Bool) :
    (isometric2geodetic (num lat) (noNan ell) deg) = num (isometric2geodetic lat ell deg) := by
  cases ell <;> cases deg <;>
  num_rfl

theorem nan_geodetic2rectifying (lat : Nan F) (ell : Option (Ellipsoid F)) (deg : Bool) :
    (geodetic2rectifying lat (noNan ell) deg).isNan = anyNan [lat] := by
  · simp [geodetic2rectifying, anyNan, Bool.or_assoc, Bool.or_comm, Bool.or_left_comm]

theorem num_geodetic2rectifying (lat : F) (ell : Option (Ellipsoid F)) (deg : Bool) :
    (geodetic2rectifying (num lat) (noNan ell) deg) = num (geodetic2rectifying lat ell deg) := by
  cases ell <;> cases deg <;>
  num_rfl

theorem nan_rectifying2geodetic (lat : Nan F) (ell : Option (Ellipsoid F)) (deg : Bool) :
    (rectifying2geodetic lat (noNan ell) deg).isNan = anyNan [lat] := by
  · simp [rectifying2geodetic, anyNan, Bool.or_assoc, Bool.or_comm, Bool.or_left_comm]

theorem num_rectifying2geodetic (lat : F) (ell : Option (Ellipsoid F)) (deg : Bool) :
    (rectifying2geodetic (num lat) (noNan ell) deg) = num (rectifying2geodetic lat ell deg) := by
  cases ell <;> cases deg <;>
  num_rfl

theorem nan_geodetic2authalic (lat : Nan F) (ell : Option (Ellipsoid F)) (deg : Bool) :
    (geodetic2authalic lat (noNan ell) deg).isNan = anyNan [lat] := by
  · simp [geodetic2authalic, anyNan, Bool.or_assoc, Bool.or_comm, Bool.or_left_comm]

theorem num_geodetic2authalic (lat : F) (ell : Option (Ellipsoid F)) (deg : Bool) :
    (geodetic2authalic (num lat) (noNan ell) deg) = num (geodetic2authalic lat ell deg) := by
  cases ell <;> cases deg <;>
  num_rfl

theorem nan_authalic2geodetic (lat : Nan F) (ell : Option (Ellipsoid F)) (deg : Bool) :
    (authalic2geodetic lat (noNan ell) deg).isNan = anyNan [lat] := by
  · simp [authalic2geodetic, anyNan, Bool.or_assoc, Bool.or_comm, Bool.or_left_comm]

theorem num_authalic2geodetic (lat : F) (ell : Option (Ellipsoid F)) (deg : Bool) :
    (authalic2geodetic (num lat) (noNan ell) deg) = num (authalic2geodetic lat ell deg) := by
  cases ell <;> cases deg <;>
  num_rfl

theorem nan_geodetic2parametric (lat : Nan F) (ell : Option (Ellipsoid F)) (deg : Bool) :
    (geodetic2parametric lat (noNan ell) deg).isNan = anyNan [lat] := by
  · simp [geodetic2parametric, anyNan, Bool.or_assoc, Bool.or_comm, Bool.or_left_comm]

theorem num_geodetic2parametric (lat : F) (ell : Option (Ellipsoid F)) (deg : Bool) :
    (geodetic2parametric (num lat) (noNan ell) deg) = num (geodetic2parametric lat ell deg) := by
  cases ell <;> cases deg <;>
  num_rfl

theorem nan_parametric2geodetic (lat : Nan F) (ell : Option (Ellipsoid F)) (deg : Bool) :
    (parametric2geodetic lat (noNan ell) deg).isNan = anyNan [lat] := by
  · simp [parametric2geodetic, anyNan, Bool.or_assoc, Bool.or_comm, Bool.or_left_comm]

theorem num_parametric2geodetic (lat : F) (ell : Option (Ellipsoid F)) (deg : Bool) :
    (parametric2geodetic (num lat) (noNan ell) deg) = num (parametric2geodetic lat ell deg) := by
  cases ell <;> cases deg <;>
  num_rfl

theorem nan_geodetic2spherical (lat lon h : Nan F) (ell : Option (Ellipsoid F)) (deg : Bool) :
    (geodetic2spherical lat lon h (noNan ell) deg).1.isNan = anyNan [lat, h] ∧
    (geodetic2spherical lat lon h (noNan ell) deg).2.1.isNan = anyNan [lon] ∧
    (geodetic2spherical lat lon h (noNan ell) deg).2.2.isNan = anyNan [lat, h] := by
  refine ⟨?_, ?_, ?_⟩ <;>
  · simp [geodetic2spherical, anyNan, Bool.or_assoc, Bool.or_comm, Bool.or_left_comm]

theorem num_geodetic2spherical (lat lon h : F) (ell : Option (Ellipsoid F)) (deg : Bool) :
    (∀ lon' : Nan F, (geodetic2spherical (num lat) lon' (num h) (noNan ell) deg).1 = num (geodetic2spherical lat lon h ell deg).1) ∧
    (∀ lat' h' : Nan F, (geodetic2spherical lat' (num lon) h' (noNan ell) deg).2.1 = num (geodetic2spherical lat lon h ell deg).2.1) ∧
    (∀ lon' : Nan F, (geodetic2spherical (num lat) lon' (num h) (noNan ell) deg).2.2 = num (geodetic2spherical lat lon h ell deg).2.2) := by
  cases ell <;> cases deg <;>
  num_rfl

theorem nan_spherical2geodetic (lat lon r : Nan F) (ell : Option (Ellipsoid F)) (deg : Bool) :
    (spherical2geodetic lat lon r (noNan ell) deg).1.isNan = anyNan [lat, r] ∧
    (spherical2geodetic lat lon r (noNan ell) deg).2.1.isNan = anyNan [lon] ∧
    (spherical2geodetic lat lon r (noNan ell) deg).2.2.isNan = anyNan [lat, r] := by
  refine ⟨?_, ?_, ?_⟩ <;>
  · simp [spherical2geodetic, anyNan, Bool.or_assoc, Bool.or_comm, Bool.or_left_comm]

theorem num_spherical2geodetic (lat lon r : F) (ell : Option (Ellipsoid F)) (deg : Bool) :
    (∀ lon' : Nan F, (spherical2geodetic (num lat) lon' (num r) (noNan ell) deg).1 = num (spherical2geodetic lat lon r ell deg).1) ∧
    (∀ lat' r' : Nan F, (spherical2geodetic lat' (num lon) r' (noNan ell) deg).2.1 = num (spherical2geodetic lat lon r ell deg).2.1) ∧
    (∀ lon' : Nan F, (spherical2geodetic (num lat) lon' (num r) (noNan ell) deg).2.2 = num (spherical2geodetic lat lon r ell deg).2.2) := by
  cases ell <;> cases deg <;>
  num_rfl

theorem nan_haversine (theta : Nan F) :
    (haversine theta).isNan = anyNan [theta] := by
  · simp [haversine, anyNan, Bool.or_assoc, Bool.or_comm, Bool.or_left_comm]

theorem num_haversine (theta : F) :
    (haversine (num theta)) = num (haversine theta) := by
  num_rfl

theorem nan_anglesep_meeus (lon0 lat0 lon1 lat1 : Nan F) (deg : Bool) :
    (anglesep_meeus lon0 lat0 lon1 lat1 deg).isNan = anyNan [lon0, lat0, lon1, lat1] := by
  · simp [anglesep_meeus, anyNan, Bool.or_assoc, Bool.or_comm, Bool.or_left_comm, haversine]

theorem num_anglesep_meeus (lon0 lat0 lon1 lat1 : F) (deg : Bool) :
    (anglesep_meeus (num lon0) (num lat0) (num lon1) (num lat1) deg) = num (anglesep_meeus lon0 lat0 lon1 lat1 deg) := by
  cases deg <;>
  num_rfl

theorem nan_anglesep (lon0 lat0 lon1 lat1 : Nan F) (deg : Bool) :
    (anglesep lon0 lat0 lon1 lat1 deg).isNan = anyNan [lon0, lat0, lon1, lat1] := by
  · simp [anglesep, anyNan, Bool.or_assoc, Bool.or_comm, Bool.or_left_comm, nan_anglesep_meeus]

theorem num_anglesep (lon0 lat0 lon1 lat1 : F) (deg : Bool) :
    (anglesep (num lon0) (num lat0) (num lon1) (num lat1) deg) = num (anglesep lon0 lat0 lon1 lat1 deg) := by
  cases deg <;>
  num_rfl

theorem nan_geodetic2nvector (lat lon : Nan F) (deg : Bool) :
    (geodetic2nvector lat lon deg).1.isNan = anyNan [lat, lon] ∧
    (geodetic2nvector lat lon deg).2.1.isNan = anyNan [lat, lon] ∧
    (geodetic2nvector lat lon deg).2.2.isNan = anyNan [lat] := by
  refine ⟨?_, ?_, ?_⟩ <;>
  · simp [geodetic2nvector, anyNan, Bool.or_assoc, Bool.or_comm, Bool.or_left_comm]

theorem num_geodetic2nvector (lat lon : F) (deg : Bool) :
    (geodetic2nvector (num lat) (num lon) deg).1 = num (geodetic2nvector lat lon deg).1 ∧
    (geodetic2nvector (num lat) (num lon) deg).2.1 = num (geodetic2nvector lat lon deg).2.1 ∧
    (∀ lon' : Nan F, (geodetic2nvector (num lat) lon' deg).2.2 = num (geodetic2nvector lat lon deg).2.2) := by
  cases deg <;>
  num_rfl

theorem nan_nvector2geodetic (n1 n2 n3 : Nan F) (deg : Bool) :
    (nvector2geodetic n1 n2 n3 deg).1.isNan = anyNan [n3] ∧
    (nvector2geodetic n1 n2 n3 deg).2.isNan = anyNan [n1, n2] := by
  refine ⟨?_, ?_⟩ <;>
  · simp [nvector2geodetic, anyNan, Bool.or_assoc, Bool.or_comm, Bool.or_left_comm]

theorem num_nvector2geodetic (n1 n2 n3 : F) (deg : Bool) :
    (∀ n1' n2' : Nan F, (nvector2geodetic n1' n2' (num n3) deg).1 = num (nvector2geodetic n1 n2 n3 deg).1) ∧
    (∀ n3' : Nan F, (nvector2geodetic (num n1) (num n2) n3' deg).2 = num (nvector2geodetic n1 n2 n3 deg).2) := by
  cases deg <;>
  num_rfl

theorem nan_nvector2ecef (n1 n2 n3 alt : Nan F) (ell : Option (Ellipsoid F)) (deg : Bool) :
    (nvector2ecef n1 n2 n3 alt (noNan ell) deg).1.isNan = anyNan [n1, n2, n3, alt] ∧
    (nvector2ecef n1 n2 n3 alt (noNan ell) deg).2.1.isNan = anyNan [n1, n2, n3, alt] ∧
    (nvector2ecef n1 n2 n3 alt (noNan ell) deg).2.2.isNan = anyNan [n3, alt] := by
  refine ⟨?_, ?_, ?_⟩ <;>
  · simp [nvector2ecef, anyNan, Bool.or_assoc, Bool.or_comm, Bool.or_left_comm, nan_nvector2geodetic, nan_geodetic2ecef]

theorem num_nvector2ecef (n1 n2 n3 alt : F) (ell : Option (Ellipsoid F)) (deg : Bool) :
    (nvector2ecef (num n1) (num n2) (num n3) (num alt) (noNan ell) deg).1 = num (nvector2ecef n1 n2 n3 alt ell deg).1 ∧
    (nvector2ecef (num n1) (num n2) (num n3) (num alt) (noNan ell) deg).2.1 = num (nvector2ecef n1 n2 n3 alt ell deg).2.1 ∧
    (∀ n1' n2' : Nan F, (nvector2ecef n1' n2' (num n3) (num alt) (noNan ell) deg).2.2 = num (nvector2ecef n1 n2 n3 alt ell deg).2.2) := by
  cases ell <;> cases deg <;>
  num_rfl

theorem nan_meridian_arc (lat0 lat1 : Nan F) (ell : Option (Ellipsoid F)) (deg : Bool) :
    (meridian_arc lat0 lat1 (noNan ell) deg).isNan = anyNan [lat0, lat1] := by
  · simp [meridian_arc, anyNan, Bool.or_assoc, Bool.or_comm, Bool.or_left_comm, nan_geodetic2rectifying, rectifying]

theorem num_meridian_arc (lat0 lat1 : F) (ell : Option (Ellipsoid F)) (deg : Bool) :
    (meridian_arc (num lat0) (num lat1) (noNan ell) deg) = num (meridian_arc lat0 lat1 ell deg) := by
  cases ell <;> cases deg <;>
  num_rfl

theorem nan_meridian_dist (lat : Nan F) (ell : Option (Ellipsoid F)) (deg : Bool) :
    (meridian_dist lat (noNan ell) deg).isNan = anyNan [lat] := by
  · simp [meridian_dist, anyNan, Bool.or_assoc, Bool.or_comm, Bool.or_left_comm, nan_meridian_arc]

theorem num_meridian_dist (lat : F) (ell : Option (Ellipsoid F)) (deg : Bool) :
    (meridian_dist (num lat) (noNan ell) deg) = num (meridian_dist lat ell deg) := by
  cases ell <;> cases deg <;>
  num_rfl

theorem nan_departure (lon1 lon2 lat : Nan F) (ell : Option (Ellipsoid F)) (deg : Bool) :
    (departure lon1 lon2 lat (noNan ell) deg).isNan = anyNan [lon1, lon2, lat] := by
  · simp [departure, anyNan, Bool.or_assoc, Bool.or_comm, Bool.or_left_comm, nan_parallel]

theorem num_departure (lon1 lon2 lat : F) (ell : Option (Ellipsoid F)) (deg : Bool) :
    (departure (num lon1) (num lon2) (num lat) (noNan ell) deg) = num (departure lon1 lon2 lat ell deg) := by
  cases ell <;> cases deg <;>
  (exact num_departure_aux _ _ _ _ _)

theorem nan_cart2pol (x y : Nan F) :
    (cart2pol x y).1.isNan = anyNan [x, y] ∧
    (cart2pol x y).2.isNan = anyNan [x, y] := by
  refine ⟨?_, ?_⟩ <;>
  · simp [cart2pol, anyNan, Bool.or_assoc, Bool.or_comm, Bool.or_left_comm]

theorem num_cart2pol (x y : F) :
    (cart2pol (num x) (num y)).1 = num (cart2pol x y).1 ∧
    (cart2pol (num x) (num y)).2 = num (cart2pol x y).2 := by
  num_rfl

theorem nan_pol2cart (theta rho : Nan F) :
    (pol2cart theta rho).1.isNan = anyNan [theta, rho] ∧
    (pol2cart theta rho).2.isNan = anyNan [theta, rho] := by
  refine ⟨?_, ?_⟩ <;>
  · simp [pol2cart, anyNan, Bool.or_assoc, Bool.or_comm, Bool.or_left_comm]

theorem num_pol2cart (theta rho : F) :
    (pol2cart (num theta) (num rho)).1 = num (pol2cart theta rho).1 ∧
    (pol2cart (num theta) (num rho)).2 = num (pol2cart theta rho).2 := by
  num_rfl

theorem nan_cart2sph (x y z : Nan F) :
    (cart2sph x y z).1.isNan = anyNan [x, y] ∧
    (cart2sph x y z).2.1.isNan = anyNan [x, y, z] ∧
    (cart2sph x y z).2.2.isNan = anyNan [x, y, z] := by
  refine ⟨?_, ?_, ?_⟩ <;>
  · simp [cart2sph, anyNan, Bool.or_assoc, Bool.or_comm, Bool.or_left_comm]

theorem num_cart2sph (x y z : F) :
    (∀ z' : Nan F, (cart2sph (num x) (num y) z').1 = num (cart2sph x y z).1) ∧
    (cart2sph (num x) (num y) (num z)).2.1 = num (cart2sph x y z).2.1 ∧
    (cart2sph (num x) (num y) (num z)).2.2 = num (cart2sph x y z).2.2 := by
  num_rfl

theorem nan_sph2cart (az el r : Nan F) :
    (sph2cart az el r).1.isNan = anyNan [az, el, r] ∧
    (sph2cart az el r).2.1.isNan = anyNan [az, el, r] ∧
    (sph2cart az el r).2.2.isNan = anyNan [el, r] := by
  refine ⟨?_, ?_, ?_⟩ <;>
  · simp [sph2cart, anyNan, Bool.or_assoc, Bool.or_comm, Bool.or_left_comm]

theorem num_sph2cart (az el r : F) :
    (sph2cart (num az) (num el) (num r)).1 = num (sph2cart az el r).1 ∧
    (sph2cart (num az) (num el) (num r)).2.1 = num (sph2cart az el r).2.1 ∧
    (∀ az' : Nan F, (sph2cart az' (num el) (num r)).2.2 = num (sph2cart az el r).2.2) := by
  num_rfl

end Pymap3d
