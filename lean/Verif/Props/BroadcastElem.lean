import Verif.Props.BroadcastBase
/-!
**C85** (generated by `tools/broadcast.py`): calls whose arguments are numbers and arrays of different shapes, for the functions without
value-dependent branches.  `bc_f`: the value of each result at a multi-index is the result of the scalar call on the values of the arguments
at that multi-index (arguments with fewer axes, or axes of length 1, repeat their elements), and the kind and shape of each result is what
the analysis of kinds (C81) says.
-/
set_option linter.unusedSectionVars false
set_option linter.unusedSimpArgs false
namespace Pymap3d
open Py

variable {F : Type} [Add F] [Sub F] [Mul F] [Div F] [Neg F] [Pow F Nat] [OfScientific F] [LT F] [LE F]
  [DecidableLT F] [DecidableLE F] [PyMath F]

theorem bc_geodetic2ecef (lat lon alt : ND F) (ell : Option (Ellipsoid F)) (deg : Bool) (i : MultiIndex) :
    ((geodetic2ecef lat lon alt (ellND ell) deg).1.get i = (geodetic2ecef (lat.get i) (lon.get i) (alt.get i) ell deg).1 ∧
      (geodetic2ecef lat lon alt (ellND ell) deg).2.1.get i = (geodetic2ecef (lat.get i) (lon.get i) (alt.get i) ell deg).2.1 ∧
      (geodetic2ecef lat lon alt (ellND ell) deg).2.2.get i = (geodetic2ecef (lat.get i) (lon.get i) (alt.get i) ell deg).2.2) ∧
    ((geodetic2ecef lat lon alt (ellND ell) deg).1.kind = (geodetic2ecef lat.kind lon.kind alt.kind (ellKind ell) deg).1 ∧
      (geodetic2ecef lat lon alt (ellND ell) deg).2.1.kind = (geodetic2ecef lat.kind lon.kind alt.kind (ellKind ell) deg).2.1 ∧
      (geodetic2ecef lat lon alt (ellND ell) deg).2.2.kind = (geodetic2ecef lat.kind lon.kind alt.kind (ellKind ell) deg).2.2) := by
  constructor
  · refine ⟨?_, ?_, ?_⟩ <;>
      simp [geodetic2ecef]
  · cases ell <;> cases deg <;> exact ⟨rfl, rfl, rfl⟩

theorem bc_uvw2enu (u v w lat0 lon0 : ND F) (deg : Bool) (i : MultiIndex) :
    ((uvw2enu u v w lat0 lon0 deg).1.get i = (uvw2enu (u.get i) (v.get i) (w.get i) (lat0.get i) (lon0.get i) deg).1 ∧
      (uvw2enu u v w lat0 lon0 deg).2.1.get i = (uvw2enu (u.get i) (v.get i) (w.get i) (lat0.get i) (lon0.get i) deg).2.1 ∧
      (uvw2enu u v w lat0 lon0 deg).2.2.get i = (uvw2enu (u.get i) (v.get i) (w.get i) (lat0.get i) (lon0.get i) deg).2.2) ∧
    ((uvw2enu u v w lat0 lon0 deg).1.kind = (uvw2enu u.kind v.kind w.kind lat0.kind lon0.kind deg).1 ∧
      (uvw2enu u v w lat0 lon0 deg).2.1.kind = (uvw2enu u.kind v.kind w.kind lat0.kind lon0.kind deg).2.1 ∧
      (uvw2enu u v w lat0 lon0 deg).2.2.kind = (uvw2enu u.kind v.kind w.kind lat0.kind lon0.kind deg).2.2) := by
  constructor
  · refine ⟨?_, ?_, ?_⟩ <;>
      simp [uvw2enu]
  · cases deg <;> exact ⟨rfl, rfl, rfl⟩

theorem bc_ecef2enuv (u v w lat0 lon0 : ND F) (deg : Bool) (i : MultiIndex) :
    ((ecef2enuv u v w lat0 lon0 deg).1.get i = (ecef2enuv (u.get i) (v.get i) (w.get i) (lat0.get i) (lon0.get i) deg).1 ∧
      (ecef2enuv u v w lat0 lon0 deg).2.1.get i = (ecef2enuv (u.get i) (v.get i) (w.get i) (lat0.get i) (lon0.get i) deg).2.1 ∧
      (ecef2enuv u v w lat0 lon0 deg).2.2.get i = (ecef2enuv (u.get i) (v.get i) (w.get i) (lat0.get i) (lon0.get i) deg).2.2) ∧
    ((ecef2enuv u v w lat0 lon0 deg).1.kind = (ecef2enuv u.kind v.kind w.kind lat0.kind lon0.kind deg).1 ∧
      (ecef2enuv u v w lat0 lon0 deg).2.1.kind = (ecef2enuv u.kind v.kind w.kind lat0.kind lon0.kind deg).2.1 ∧
      (ecef2enuv u v w lat0 lon0 deg).2.2.kind = (ecef2enuv u.kind v.kind w.kind lat0.kind lon0.kind deg).2.2) := by
  constructor
  · refine ⟨?_, ?_, ?_⟩ <;>
      simp [ecef2enuv]
  · cases deg <;> exact ⟨rfl, rfl, rfl⟩

theorem bc_enu2uvw (e n u lat0 lon0 : ND F) (deg : Bool) (i : MultiIndex) :
    ((enu2uvw e n u lat0 lon0 deg).1.get i = (enu2uvw (e.get i) (n.get i) (u.get i) (lat0.get i) (lon0.get i) deg).1 ∧
      (enu2uvw e n u lat0 lon0 deg).2.1.get i = (enu2uvw (e.get i) (n.get i) (u.get i) (lat0.get i) (lon0.get i) deg).2.1 ∧
      (enu2uvw e n u lat0 lon0 deg).2.2.get i = (enu2uvw (e.get i) (n.get i) (u.get i) (lat0.get i) (lon0.get i) deg).2.2) ∧
    ((enu2uvw e n u lat0 lon0 deg).1.kind = (enu2uvw e.kind n.kind u.kind lat0.kind lon0.kind deg).1 ∧
      (enu2uvw e n u lat0 lon0 deg).2.1.kind = (enu2uvw e.kind n.kind u.kind lat0.kind lon0.kind deg).2.1 ∧
      (enu2uvw e n u lat0 lon0 deg).2.2.kind = (enu2uvw e.kind n.kind u.kind lat0.kind lon0.kind deg).2.2) := by
  constructor
  · refine ⟨?_, ?_, ?_⟩ <;>
      simp [enu2uvw]
  · cases deg <;> exact ⟨rfl, rfl, rfl⟩

theorem bc_enu2ecefv (e n u lat0 lon0 : ND F) (deg : Bool) (i : MultiIndex) :
    ((enu2ecefv e n u lat0 lon0 deg).1.get i = (enu2ecefv (e.get i) (n.get i) (u.get i) (lat0.get i) (lon0.get i) deg).1 ∧
      (enu2ecefv e n u lat0 lon0 deg).2.1.get i = (enu2ecefv (e.get i) (n.get i) (u.get i) (lat0.get i) (lon0.get i) deg).2.1 ∧
      (enu2ecefv e n u lat0 lon0 deg).2.2.get i = (enu2ecefv (e.get i) (n.get i) (u.get i) (lat0.get i) (lon0.get i) deg).2.2) ∧
    ((enu2ecefv e n u lat0 lon0 deg).1.kind = (enu2ecefv e.kind n.kind u.kind lat0.kind lon0.kind deg).1 ∧
      (enu2ecefv e n u lat0 lon0 deg).2.1.kind = (enu2ecefv e.kind n.kind u.kind lat0.kind lon0.kind deg).2.1 ∧
      (enu2ecefv e n u lat0 lon0 deg).2.2.kind = (enu2ecefv e.kind n.kind u.kind lat0.kind lon0.kind deg).2.2) := by
  constructor
  · refine ⟨?_, ?_, ?_⟩ <;>
      simp [enu2ecefv]
  · cases deg <;> exact ⟨rfl, rfl, rfl⟩

theorem bc_ecef2enu (x y z lat0 lon0 h0 : ND F) (ell : Option (Ellipsoid F)) (deg : Bool) (i : MultiIndex) :
    ((ecef2enu x y z lat0 lon0 h0 (ellND ell) deg).1.get i = (ecef2enu (x.get i) (y.get i) (z.get i) (lat0.get i) (lon0.get i) (h0.get i) ell deg).1 ∧
      (ecef2enu x y z lat0 lon0 h0 (ellND ell) deg).2.1.get i = (ecef2enu (x.get i) (y.get i) (z.get i) (lat0.get i) (lon0.get i) (h0.get i) ell deg).2.1 ∧
      (ecef2enu x y z lat0 lon0 h0 (ellND ell) deg).2.2.get i = (ecef2enu (x.get i) (y.get i) (z.get i) (lat0.get i) (lon0.get i) (h0.get i) ell deg).2.2) ∧
    ((ecef2enu x y z lat0 lon0 h0 (ellND ell) deg).1.kind = (ecef2enu x.kind y.kind z.kind lat0.kind lon0.kind h0.kind (ellKind ell) deg).1 ∧
      (ecef2enu x y z lat0 lon0 h0 (ellND ell) deg).2.1.kind = (ecef2enu x.kind y.kind z.kind lat0.kind lon0.kind h0.kind (ellKind ell) deg).2.1 ∧
      (ecef2enu x y z lat0 lon0 h0 (ellND ell) deg).2.2.kind = (ecef2enu x.kind y.kind z.kind lat0.kind lon0.kind h0.kind (ellKind ell) deg).2.2) := by
  constructor
  · refine ⟨?_, ?_, ?_⟩ <;>
      simp [ecef2enu, bc_geodetic2ecef, bc_uvw2enu]
  · cases ell <;> cases deg <;> exact ⟨rfl, rfl, rfl⟩

theorem bc_enu2ecef (e n u lat0 lon0 h0 : ND F) (ell : Option (Ellipsoid F)) (deg : Bool) (i : MultiIndex) :
    ((enu2ecef e n u lat0 lon0 h0 (ellND ell) deg).1.get i = (enu2ecef (e.get i) (n.get i) (u.get i) (lat0.get i) (lon0.get i) (h0.get i) ell deg).1 ∧
      (enu2ecef e n u lat0 lon0 h0 (ellND ell) deg).2.1.get i = (enu2ecef (e.get i) (n.get i) (u.get i) (lat0.get i) (lon0.get i) (h0.get i) ell deg).2.1 ∧
      (enu2ecef e n u lat0 lon0 h0 (ellND ell) deg).2.2.get i = (enu2ecef (e.get i) (n.get i) (u.get i) (lat0.get i) (lon0.get i) (h0.get i) ell deg).2.2) ∧
    ((enu2ecef e n u lat0 lon0 h0 (ellND ell) deg).1.kind = (enu2ecef e.kind n.kind u.kind lat0.kind lon0.kind h0.kind (ellKind ell) deg).1 ∧
      (enu2ecef e n u lat0 lon0 h0 (ellND ell) deg).2.1.kind = (enu2ecef e.kind n.kind u.kind lat0.kind lon0.kind h0.kind (ellKind ell) deg).2.1 ∧
      (enu2ecef e n u lat0 lon0 h0 (ellND ell) deg).2.2.kind = (enu2ecef e.kind n.kind u.kind lat0.kind lon0.kind h0.kind (ellKind ell) deg).2.2) := by
  constructor
  · refine ⟨?_, ?_, ?_⟩ <;>
      simp [enu2ecef, bc_geodetic2ecef, bc_enu2uvw]
  · cases ell <;> cases deg <;> exact ⟨rfl, rfl, rfl⟩

theorem bc_geodetic2enu (lat lon h lat0 lon0 h0 : ND F) (ell : Option (Ellipsoid F)) (deg : Bool) (i : MultiIndex) :
    ((geodetic2enu lat lon h lat0 lon0 h0 (ellND ell) deg).1.get i = (geodetic2enu (lat.get i) (lon.get i) (h.get i) (lat0.get i) (lon0.get i) (h0.get i) ell deg).1 ∧
      (geodetic2enu lat lon h lat0 lon0 h0 (ellND ell) deg).2.1.get i = (geodetic2enu (lat.get i) (lon.get i) (h.get i) (lat0.get i) (lon0.get i) (h0.get i) ell deg).2.1 ∧
      (geodetic2enu lat lon h lat0 lon0 h0 (ellND ell) deg).2.2.get i = (geodetic2enu (lat.get i) (lon.get i) (h.get i) (lat0.get i) (lon0.get i) (h0.get i) ell deg).2.2) ∧
    ((geodetic2enu lat lon h lat0 lon0 h0 (ellND ell) deg).1.kind = (geodetic2enu lat.kind lon.kind h.kind lat0.kind lon0.kind h0.kind (ellKind ell) deg).1 ∧
      (geodetic2enu lat lon h lat0 lon0 h0 (ellND ell) deg).2.1.kind = (geodetic2enu lat.kind lon.kind h.kind lat0.kind lon0.kind h0.kind (ellKind ell) deg).2.1 ∧
      (geodetic2enu lat lon h lat0 lon0 h0 (ellND ell) deg).2.2.kind = (geodetic2enu lat.kind lon.kind h.kind lat0.kind lon0.kind h0.kind (ellKind ell) deg).2.2) := by
  constructor
  · refine ⟨?_, ?_, ?_⟩ <;>
      simp [geodetic2enu, bc_geodetic2ecef, bc_uvw2enu]
  · cases ell <;> cases deg <;> exact ⟨rfl, rfl, rfl⟩

theorem bc_aer2enu (az el r : ND F) (deg : Bool) (i : MultiIndex) :
    ((aer2enu az el r deg).1.get i = (aer2enu (az.get i) (el.get i) (r.get i) deg).1 ∧
      (aer2enu az el r deg).2.1.get i = (aer2enu (az.get i) (el.get i) (r.get i) deg).2.1 ∧
      (aer2enu az el r deg).2.2.get i = (aer2enu (az.get i) (el.get i) (r.get i) deg).2.2) ∧
    ((aer2enu az el r deg).1.kind = (aer2enu az.kind el.kind r.kind deg).1 ∧
      (aer2enu az el r deg).2.1.kind = (aer2enu az.kind el.kind r.kind deg).2.1 ∧
      (aer2enu az el r deg).2.2.kind = (aer2enu az.kind el.kind r.kind deg).2.2) := by
  constructor
  · refine ⟨?_, ?_, ?_⟩ <;>
      simp [aer2enu]
  · cases deg <;> exact ⟨rfl, rfl, rfl⟩

theorem bc_aer2ecef (az el r lat0 lon0 h0 : ND F) (ell : Option (Ellipsoid F)) (deg : Bool) (i : MultiIndex) :
    ((aer2ecef az el r lat0 lon0 h0 (ellND ell) deg).1.get i = (aer2ecef (az.get i) (el.get i) (r.get i) (lat0.get i) (lon0.get i) (h0.get i) ell deg).1 ∧
      (aer2ecef az el r lat0 lon0 h0 (ellND ell) deg).2.1.get i = (aer2ecef (az.get i) (el.get i) (r.get i) (lat0.get i) (lon0.get i) (h0.get i) ell deg).2.1 ∧
      (aer2ecef az el r lat0 lon0 h0 (ellND ell) deg).2.2.get i = (aer2ecef (az.get i) (el.get i) (r.get i) (lat0.get i) (lon0.get i) (h0.get i) ell deg).2.2) ∧
    ((aer2ecef az el r lat0 lon0 h0 (ellND ell) deg).1.kind = (aer2ecef az.kind el.kind r.kind lat0.kind lon0.kind h0.kind (ellKind ell) deg).1 ∧
      (aer2ecef az el r lat0 lon0 h0 (ellND ell) deg).2.1.kind = (aer2ecef az.kind el.kind r.kind lat0.kind lon0.kind h0.kind (ellKind ell) deg).2.1 ∧
      (aer2ecef az el r lat0 lon0 h0 (ellND ell) deg).2.2.kind = (aer2ecef az.kind el.kind r.kind lat0.kind lon0.kind h0.kind (ellKind ell) deg).2.2) := by
  constructor
  · refine ⟨?_, ?_, ?_⟩ <;>
      simp [aer2ecef, bc_geodetic2ecef, bc_aer2enu, bc_enu2uvw]
  · cases ell <;> cases deg <;> exact ⟨rfl, rfl, rfl⟩

theorem bc_aer2ned (az el r : ND F) (deg : Bool) (i : MultiIndex) :
    ((aer2ned az el r deg).1.get i = (aer2ned (az.get i) (el.get i) (r.get i) deg).1 ∧
      (aer2ned az el r deg).2.1.get i = (aer2ned (az.get i) (el.get i) (r.get i) deg).2.1 ∧
      (aer2ned az el r deg).2.2.get i = (aer2ned (az.get i) (el.get i) (r.get i) deg).2.2) ∧
    ((aer2ned az el r deg).1.kind = (aer2ned az.kind el.kind r.kind deg).1 ∧
      (aer2ned az el r deg).2.1.kind = (aer2ned az.kind el.kind r.kind deg).2.1 ∧
      (aer2ned az el r deg).2.2.kind = (aer2ned az.kind el.kind r.kind deg).2.2) := by
  constructor
  · refine ⟨?_, ?_, ?_⟩ <;>
      simp [aer2ned, bc_aer2enu]
  · cases deg <;> exact ⟨rfl, rfl, rfl⟩

theorem bc_ned2ecef (n e d lat0 lon0 h0 : ND F) (ell : Option (Ellipsoid F)) (deg : Bool) (i : MultiIndex) :
    ((ned2ecef n e d lat0 lon0 h0 (ellND ell) deg).1.get i = (ned2ecef (n.get i) (e.get i) (d.get i) (lat0.get i) (lon0.get i) (h0.get i) ell deg).1 ∧
      (ned2ecef n e d lat0 lon0 h0 (ellND ell) deg).2.1.get i = (ned2ecef (n.get i) (e.get i) (d.get i) (lat0.get i) (lon0.get i) (h0.get i) ell deg).2.1 ∧
      (ned2ecef n e d lat0 lon0 h0 (ellND ell) deg).2.2.get i = (ned2ecef (n.get i) (e.get i) (d.get i) (lat0.get i) (lon0.get i) (h0.get i) ell deg).2.2) ∧
    ((ned2ecef n e d lat0 lon0 h0 (ellND ell) deg).1.kind = (ned2ecef n.kind e.kind d.kind lat0.kind lon0.kind h0.kind (ellKind ell) deg).1 ∧
      (ned2ecef n e d lat0 lon0 h0 (ellND ell) deg).2.1.kind = (ned2ecef n.kind e.kind d.kind lat0.kind lon0.kind h0.kind (ellKind ell) deg).2.1 ∧
      (ned2ecef n e d lat0 lon0 h0 (ellND ell) deg).2.2.kind = (ned2ecef n.kind e.kind d.kind lat0.kind lon0.kind h0.kind (ellKind ell) deg).2.2) := by
  constructor
  · refine ⟨?_, ?_, ?_⟩ <;>
      simp [ned2ecef, bc_enu2ecef]
  · cases ell <;> cases deg <;> exact ⟨rfl, rfl, rfl⟩

theorem bc_ecef2ned (x y z lat0 lon0 h0 : ND F) (ell : Option (Ellipsoid F)) (deg : Bool) (i : MultiIndex) :
    ((ecef2ned x y z lat0 lon0 h0 (ellND ell) deg).1.get i = (ecef2ned (x.get i) (y.get i) (z.get i) (lat0.get i) (lon0.get i) (h0.get i) ell deg).1 ∧
      (ecef2ned x y z lat0 lon0 h0 (ellND ell) deg).2.1.get i = (ecef2ned (x.get i) (y.get i) (z.get i) (lat0.get i) (lon0.get i) (h0.get i) ell deg).2.1 ∧
      (ecef2ned x y z lat0 lon0 h0 (ellND ell) deg).2.2.get i = (ecef2ned (x.get i) (y.get i) (z.get i) (lat0.get i) (lon0.get i) (h0.get i) ell deg).2.2) ∧
    ((ecef2ned x y z lat0 lon0 h0 (ellND ell) deg).1.kind = (ecef2ned x.kind y.kind z.kind lat0.kind lon0.kind h0.kind (ellKind ell) deg).1 ∧
      (ecef2ned x y z lat0 lon0 h0 (ellND ell) deg).2.1.kind = (ecef2ned x.kind y.kind z.kind lat0.kind lon0.kind h0.kind (ellKind ell) deg).2.1 ∧
      (ecef2ned x y z lat0 lon0 h0 (ellND ell) deg).2.2.kind = (ecef2ned x.kind y.kind z.kind lat0.kind lon0.kind h0.kind (ellKind ell) deg).2.2) := by
  constructor
  · refine ⟨?_, ?_, ?_⟩ <;>
      simp [ecef2ned, bc_ecef2enu]
  · cases ell <;> cases deg <;> exact ⟨rfl, rfl, rfl⟩

theorem bc_geodetic2ned (lat lon h lat0 lon0 h0 : ND F) (ell : Option (Ellipsoid F)) (deg : Bool) (i : MultiIndex) :
    ((geodetic2ned lat lon h lat0 lon0 h0 (ellND ell) deg).1.get i = (geodetic2ned (lat.get i) (lon.get i) (h.get i) (lat0.get i) (lon0.get i) (h0.get i) ell deg).1 ∧
      (geodetic2ned lat lon h lat0 lon0 h0 (ellND ell) deg).2.1.get i = (geodetic2ned (lat.get i) (lon.get i) (h.get i) (lat0.get i) (lon0.get i) (h0.get i) ell deg).2.1 ∧
      (geodetic2ned lat lon h lat0 lon0 h0 (ellND ell) deg).2.2.get i = (geodetic2ned (lat.get i) (lon.get i) (h.get i) (lat0.get i) (lon0.get i) (h0.get i) ell deg).2.2) ∧
    ((geodetic2ned lat lon h lat0 lon0 h0 (ellND ell) deg).1.kind = (geodetic2ned lat.kind lon.kind h.kind lat0.kind lon0.kind h0.kind (ellKind ell) deg).1 ∧
      (geodetic2ned lat lon h lat0 lon0 h0 (ellND ell) deg).2.1.kind = (geodetic2ned lat.kind lon.kind h.kind lat0.kind lon0.kind h0.kind (ellKind ell) deg).2.1 ∧
      (geodetic2ned lat lon h lat0 lon0 h0 (ellND ell) deg).2.2.kind = (geodetic2ned lat.kind lon.kind h.kind lat0.kind lon0.kind h0.kind (ellKind ell) deg).2.2) := by
  constructor
  · refine ⟨?_, ?_, ?_⟩ <;>
      simp [geodetic2ned, bc_geodetic2enu]
  · cases ell <;> cases deg <;> exact ⟨rfl, rfl, rfl⟩

theorem bc_ecef2nedv (x y z lat0 lon0 : ND F) (deg : Bool) (i : MultiIndex) :
    ((ecef2nedv x y z lat0 lon0 deg).1.get i = (ecef2nedv (x.get i) (y.get i) (z.get i) (lat0.get i) (lon0.get i) deg).1 ∧
      (ecef2nedv x y z lat0 lon0 deg).2.1.get i = (ecef2nedv (x.get i) (y.get i) (z.get i) (lat0.get i) (lon0.get i) deg).2.1 ∧
      (ecef2nedv x y z lat0 lon0 deg).2.2.get i = (ecef2nedv (x.get i) (y.get i) (z.get i) (lat0.get i) (lon0.get i) deg).2.2) ∧
    ((ecef2nedv x y z lat0 lon0 deg).1.kind = (ecef2nedv x.kind y.kind z.kind lat0.kind lon0.kind deg).1 ∧
      (ecef2nedv x y z lat0 lon0 deg).2.1.kind = (ecef2nedv x.kind y.kind z.kind lat0.kind lon0.kind deg).2.1 ∧
      (ecef2nedv x y z lat0 lon0 deg).2.2.kind = (ecef2nedv x.kind y.kind z.kind lat0.kind lon0.kind deg).2.2) := by
  constructor
  · refine ⟨?_, ?_, ?_⟩ <;>
      simp [ecef2nedv, bc_ecef2enuv]
  · cases deg <;> exact ⟨rfl, rfl, rfl⟩

theorem bc_aer2nwu (az el r : ND F) (deg : Bool) (i : MultiIndex) :
    ((aer2nwu az el r deg).1.get i = (aer2nwu (az.get i) (el.get i) (r.get i) deg).1 ∧
      (aer2nwu az el r deg).2.1.get i = (aer2nwu (az.get i) (el.get i) (r.get i) deg).2.1 ∧
      (aer2nwu az el r deg).2.2.get i = (aer2nwu (az.get i) (el.get i) (r.get i) deg).2.2) ∧
    ((aer2nwu az el r deg).1.kind = (aer2nwu az.kind el.kind r.kind deg).1 ∧
      (aer2nwu az el r deg).2.1.kind = (aer2nwu az.kind el.kind r.kind deg).2.1 ∧
      (aer2nwu az el r deg).2.2.kind = (aer2nwu az.kind el.kind r.kind deg).2.2) := by
  constructor
  · refine ⟨?_, ?_, ?_⟩ <;>
      simp [aer2nwu, bc_aer2enu]
  · cases deg <;> exact ⟨rfl, rfl, rfl⟩

theorem bc_nwu2ecef (n w u lat0 lon0 h0 : ND F) (ell : Option (Ellipsoid F)) (deg : Bool) (i : MultiIndex) :
    ((nwu2ecef n w u lat0 lon0 h0 (ellND ell) deg).1.get i = (nwu2ecef (n.get i) (w.get i) (u.get i) (lat0.get i) (lon0.get i) (h0.get i) ell deg).1 ∧
      (nwu2ecef n w u lat0 lon0 h0 (ellND ell) deg).2.1.get i = (nwu2ecef (n.get i) (w.get i) (u.get i) (lat0.get i) (lon0.get i) (h0.get i) ell deg).2.1 ∧
      (nwu2ecef n w u lat0 lon0 h0 (ellND ell) deg).2.2.get i = (nwu2ecef (n.get i) (w.get i) (u.get i) (lat0.get i) (lon0.get i) (h0.get i) ell deg).2.2) ∧
    ((nwu2ecef n w u lat0 lon0 h0 (ellND ell) deg).1.kind = (nwu2ecef n.kind w.kind u.kind lat0.kind lon0.kind h0.kind (ellKind ell) deg).1 ∧
      (nwu2ecef n w u lat0 lon0 h0 (ellND ell) deg).2.1.kind = (nwu2ecef n.kind w.kind u.kind lat0.kind lon0.kind h0.kind (ellKind ell) deg).2.1 ∧
      (nwu2ecef n w u lat0 lon0 h0 (ellND ell) deg).2.2.kind = (nwu2ecef n.kind w.kind u.kind lat0.kind lon0.kind h0.kind (ellKind ell) deg).2.2) := by
  constructor
  · refine ⟨?_, ?_, ?_⟩ <;>
      simp [nwu2ecef, bc_enu2ecef]
  · cases ell <;> cases deg <;> exact ⟨rfl, rfl, rfl⟩

theorem bc_nwu2ecefv (n w u lat0 lon0 : ND F) (deg : Bool) (i : MultiIndex) :
    ((nwu2ecefv n w u lat0 lon0 deg).1.get i = (nwu2ecefv (n.get i) (w.get i) (u.get i) (lat0.get i) (lon0.get i) deg).1 ∧
      (nwu2ecefv n w u lat0 lon0 deg).2.1.get i = (nwu2ecefv (n.get i) (w.get i) (u.get i) (lat0.get i) (lon0.get i) deg).2.1 ∧
      (nwu2ecefv n w u lat0 lon0 deg).2.2.get i = (nwu2ecefv (n.get i) (w.get i) (u.get i) (lat0.get i) (lon0.get i) deg).2.2) ∧
    ((nwu2ecefv n w u lat0 lon0 deg).1.kind = (nwu2ecefv n.kind w.kind u.kind lat0.kind lon0.kind deg).1 ∧
      (nwu2ecefv n w u lat0 lon0 deg).2.1.kind = (nwu2ecefv n.kind w.kind u.kind lat0.kind lon0.kind deg).2.1 ∧
      (nwu2ecefv n w u lat0 lon0 deg).2.2.kind = (nwu2ecefv n.kind w.kind u.kind lat0.kind lon0.kind deg).2.2) := by
  constructor
  · refine ⟨?_, ?_, ?_⟩ <;>
      simp [nwu2ecefv, bc_enu2ecefv]
  · cases deg <;> exact ⟨rfl, rfl, rfl⟩

theorem bc_ecef2nwu (x y z lat0 lon0 h0 : ND F) (ell : Option (Ellipsoid F)) (deg : Bool) (i : MultiIndex) :
    ((ecef2nwu x y z lat0 lon0 h0 (ellND ell) deg).1.get i = (ecef2nwu (x.get i) (y.get i) (z.get i) (lat0.get i) (lon0.get i) (h0.get i) ell deg).1 ∧
      (ecef2nwu x y z lat0 lon0 h0 (ellND ell) deg).2.1.get i = (ecef2nwu (x.get i) (y.get i) (z.get i) (lat0.get i) (lon0.get i) (h0.get i) ell deg).2.1 ∧
      (ecef2nwu x y z lat0 lon0 h0 (ellND ell) deg).2.2.get i = (ecef2nwu (x.get i) (y.get i) (z.get i) (lat0.get i) (lon0.get i) (h0.get i) ell deg).2.2) ∧
    ((ecef2nwu x y z lat0 lon0 h0 (ellND ell) deg).1.kind = (ecef2nwu x.kind y.kind z.kind lat0.kind lon0.kind h0.kind (ellKind ell) deg).1 ∧
      (ecef2nwu x y z lat0 lon0 h0 (ellND ell) deg).2.1.kind = (ecef2nwu x.kind y.kind z.kind lat0.kind lon0.kind h0.kind (ellKind ell) deg).2.1 ∧
      (ecef2nwu x y z lat0 lon0 h0 (ellND ell) deg).2.2.kind = (ecef2nwu x.kind y.kind z.kind lat0.kind lon0.kind h0.kind (ellKind ell) deg).2.2) := by
  constructor
  · refine ⟨?_, ?_, ?_⟩ <;>
      simp [ecef2nwu, bc_ecef2enu]
  · cases ell <;> cases deg <;> exact ⟨rfl, rfl, rfl⟩

theorem bc_ecef2nwuv (x y z lat0 lon0 : ND F) (deg : Bool) (i : MultiIndex) :
    ((ecef2nwuv x y z lat0 lon0 deg).1.get i = (ecef2nwuv (x.get i) (y.get i) (z.get i) (lat0.get i) (lon0.get i) deg).1 ∧
      (ecef2nwuv x y z lat0 lon0 deg).2.1.get i = (ecef2nwuv (x.get i) (y.get i) (z.get i) (lat0.get i) (lon0.get i) deg).2.1 ∧
      (ecef2nwuv x y z lat0 lon0 deg).2.2.get i = (ecef2nwuv (x.get i) (y.get i) (z.get i) (lat0.get i) (lon0.get i) deg).2.2) ∧
    ((ecef2nwuv x y z lat0 lon0 deg).1.kind = (ecef2nwuv x.kind y.kind z.kind lat0.kind lon0.kind deg).1 ∧
      (ecef2nwuv x y z lat0 lon0 deg).2.1.kind = (ecef2nwuv x.kind y.kind z.kind lat0.kind lon0.kind deg).2.1 ∧
      (ecef2nwuv x y z lat0 lon0 deg).2.2.kind = (ecef2nwuv x.kind y.kind z.kind lat0.kind lon0.kind deg).2.2) := by
  constructor
  · refine ⟨?_, ?_, ?_⟩ <;>
      simp [ecef2nwuv, bc_ecef2enuv]
  · cases deg <;> exact ⟨rfl, rfl, rfl⟩

theorem bc_geodetic2nwu (lat lon h lat0 lon0 h0 : ND F) (ell : Option (Ellipsoid F)) (deg : Bool) (i : MultiIndex) :
    ((geodetic2nwu lat lon h lat0 lon0 h0 (ellND ell) deg).1.get i = (geodetic2nwu (lat.get i) (lon.get i) (h.get i) (lat0.get i) (lon0.get i) (h0.get i) ell deg).1 ∧
      (geodetic2nwu lat lon h lat0 lon0 h0 (ellND ell) deg).2.1.get i = (geodetic2nwu (lat.get i) (lon.get i) (h.get i) (lat0.get i) (lon0.get i) (h0.get i) ell deg).2.1 ∧
      (geodetic2nwu lat lon h lat0 lon0 h0 (ellND ell) deg).2.2.get i = (geodetic2nwu (lat.get i) (lon.get i) (h.get i) (lat0.get i) (lon0.get i) (h0.get i) ell deg).2.2) ∧
    ((geodetic2nwu lat lon h lat0 lon0 h0 (ellND ell) deg).1.kind = (geodetic2nwu lat.kind lon.kind h.kind lat0.kind lon0.kind h0.kind (ellKind ell) deg).1 ∧
      (geodetic2nwu lat lon h lat0 lon0 h0 (ellND ell) deg).2.1.kind = (geodetic2nwu lat.kind lon.kind h.kind lat0.kind lon0.kind h0.kind (ellKind ell) deg).2.1 ∧
      (geodetic2nwu lat lon h lat0 lon0 h0 (ellND ell) deg).2.2.kind = (geodetic2nwu lat.kind lon.kind h.kind lat0.kind lon0.kind h0.kind (ellKind ell) deg).2.2) := by
  constructor
  · refine ⟨?_, ?_, ?_⟩ <;>
      simp [geodetic2nwu, bc_geodetic2enu]
  · cases ell <;> cases deg <;> exact ⟨rfl, rfl, rfl⟩

theorem bc_aer2sez (az el r : ND F) (deg : Bool) (i : MultiIndex) :
    ((aer2sez az el r deg).1.get i = (aer2sez (az.get i) (el.get i) (r.get i) deg).1 ∧
      (aer2sez az el r deg).2.1.get i = (aer2sez (az.get i) (el.get i) (r.get i) deg).2.1 ∧
      (aer2sez az el r deg).2.2.get i = (aer2sez (az.get i) (el.get i) (r.get i) deg).2.2) ∧
    ((aer2sez az el r deg).1.kind = (aer2sez az.kind el.kind r.kind deg).1 ∧
      (aer2sez az el r deg).2.1.kind = (aer2sez az.kind el.kind r.kind deg).2.1 ∧
      (aer2sez az el r deg).2.2.kind = (aer2sez az.kind el.kind r.kind deg).2.2) := by
  constructor
  · refine ⟨?_, ?_, ?_⟩ <;>
      simp [aer2sez, bc_aer2enu]
  · cases deg <;> exact ⟨rfl, rfl, rfl⟩

theorem bc_sez2ecef (s e z lat0 lon0 h0 : ND F) (ell : Option (Ellipsoid F)) (deg : Bool) (i : MultiIndex) :
    ((sez2ecef s e z lat0 lon0 h0 (ellND ell) deg).1.get i = (sez2ecef (s.get i) (e.get i) (z.get i) (lat0.get i) (lon0.get i) (h0.get i) ell deg).1 ∧
      (sez2ecef s e z lat0 lon0 h0 (ellND ell) deg).2.1.get i = (sez2ecef (s.get i) (e.get i) (z.get i) (lat0.get i) (lon0.get i) (h0.get i) ell deg).2.1 ∧
      (sez2ecef s e z lat0 lon0 h0 (ellND ell) deg).2.2.get i = (sez2ecef (s.get i) (e.get i) (z.get i) (lat0.get i) (lon0.get i) (h0.get i) ell deg).2.2) ∧
    ((sez2ecef s e z lat0 lon0 h0 (ellND ell) deg).1.kind = (sez2ecef s.kind e.kind z.kind lat0.kind lon0.kind h0.kind (ellKind ell) deg).1 ∧
      (sez2ecef s e z lat0 lon0 h0 (ellND ell) deg).2.1.kind = (sez2ecef s.kind e.kind z.kind lat0.kind lon0.kind h0.kind (ellKind ell) deg).2.1 ∧
      (sez2ecef s e z lat0 lon0 h0 (ellND ell) deg).2.2.kind = (sez2ecef s.kind e.kind z.kind lat0.kind lon0.kind h0.kind (ellKind ell) deg).2.2) := by
  constructor
  · refine ⟨?_, ?_, ?_⟩ <;>
      simp [sez2ecef, bc_enu2ecef]
  · cases ell <;> cases deg <;> exact ⟨rfl, rfl, rfl⟩

theorem bc_sez2ecefv (s e z lat0 lon0 : ND F) (deg : Bool) (i : MultiIndex) :
    ((sez2ecefv s e z lat0 lon0 deg).1.get i = (sez2ecefv (s.get i) (e.get i) (z.get i) (lat0.get i) (lon0.get i) deg).1 ∧
      (sez2ecefv s e z lat0 lon0 deg).2.1.get i = (sez2ecefv (s.get i) (e.get i) (z.get i) (lat0.get i) (lon0.get i) deg).2.1 ∧
      (sez2ecefv s e z lat0 lon0 deg).2.2.get i = (sez2ecefv (s.get i) (e.get i) (z.get i) (lat0.get i) (lon0.get i) deg).2.2) ∧
    ((sez2ecefv s e z lat0 lon0 deg).1.kind = (sez2ecefv s.kind e.kind z.kind lat0.kind lon0.kind deg).1 ∧
      (sez2ecefv s e z lat0 lon0 deg).2.1.kind = (sez2ecefv s.kind e.kind z.kind lat0.kind lon0.kind deg).2.1 ∧
      (sez2ecefv s e z lat0 lon0 deg).2.2.kind = (sez2ecefv s.kind e.kind z.kind lat0.kind lon0.kind deg).2.2) := by
  constructor
  · refine ⟨?_, ?_, ?_⟩ <;>
      simp [sez2ecefv, bc_enu2ecefv]
  · cases deg <;> exact ⟨rfl, rfl, rfl⟩

theorem bc_ecef2sez (x y z lat0 lon0 h0 : ND F) (ell : Option (Ellipsoid F)) (deg : Bool) (i : MultiIndex) :
    ((ecef2sez x y z lat0 lon0 h0 (ellND ell) deg).1.get i = (ecef2sez (x.get i) (y.get i) (z.get i) (lat0.get i) (lon0.get i) (h0.get i) ell deg).1 ∧
      (ecef2sez x y z lat0 lon0 h0 (ellND ell) deg).2.1.get i = (ecef2sez (x.get i) (y.get i) (z.get i) (lat0.get i) (lon0.get i) (h0.get i) ell deg).2.1 ∧
      (ecef2sez x y z lat0 lon0 h0 (ellND ell) deg).2.2.get i = (ecef2sez (x.get i) (y.get i) (z.get i) (lat0.get i) (lon0.get i) (h0.get i) ell deg).2.2) ∧
    ((ecef2sez x y z lat0 lon0 h0 (ellND ell) deg).1.kind = (ecef2sez x.kind y.kind z.kind lat0.kind lon0.kind h0.kind (ellKind ell) deg).1 ∧
      (ecef2sez x y z lat0 lon0 h0 (ellND ell) deg).2.1.kind = (ecef2sez x.kind y.kind z.kind lat0.kind lon0.kind h0.kind (ellKind ell) deg).2.1 ∧
      (ecef2sez x y z lat0 lon0 h0 (ellND ell) deg).2.2.kind = (ecef2sez x.kind y.kind z.kind lat0.kind lon0.kind h0.kind (ellKind ell) deg).2.2) := by
  constructor
  · refine ⟨?_, ?_, ?_⟩ <;>
      simp [ecef2sez, bc_ecef2enu]
  · cases ell <;> cases deg <;> exact ⟨rfl, rfl, rfl⟩

theorem bc_ecef2sezv (x y z lat0 lon0 : ND F) (deg : Bool) (i : MultiIndex) :
    ((ecef2sezv x y z lat0 lon0 deg).1.get i = (ecef2sezv (x.get i) (y.get i) (z.get i) (lat0.get i) (lon0.get i) deg).1 ∧
      (ecef2sezv x y z lat0 lon0 deg).2.1.get i = (ecef2sezv (x.get i) (y.get i) (z.get i) (lat0.get i) (lon0.get i) deg).2.1 ∧
      (ecef2sezv x y z lat0 lon0 deg).2.2.get i = (ecef2sezv (x.get i) (y.get i) (z.get i) (lat0.get i) (lon0.get i) deg).2.2) ∧
    ((ecef2sezv x y z lat0 lon0 deg).1.kind = (ecef2sezv x.kind y.kind z.kind lat0.kind lon0.kind deg).1 ∧
      (ecef2sezv x y z lat0 lon0 deg).2.1.kind = (ecef2sezv x.kind y.kind z.kind lat0.kind lon0.kind deg).2.1 ∧
      (ecef2sezv x y z lat0 lon0 deg).2.2.kind = (ecef2sezv x.kind y.kind z.kind lat0.kind lon0.kind deg).2.2) := by
  constructor
  · refine ⟨?_, ?_, ?_⟩ <;>
      simp [ecef2sezv, bc_ecef2enuv]
  · cases deg <;> exact ⟨rfl, rfl, rfl⟩

theorem bc_geodetic2sez (lat lon h lat0 lon0 h0 : ND F) (ell : Option (Ellipsoid F)) (deg : Bool) (i : MultiIndex) :
    ((geodetic2sez lat lon h lat0 lon0 h0 (ellND ell) deg).1.get i = (geodetic2sez (lat.get i) (lon.get i) (h.get i) (lat0.get i) (lon0.get i) (h0.get i) ell deg).1 ∧
      (geodetic2sez lat lon h lat0 lon0 h0 (ellND ell) deg).2.1.get i = (geodetic2sez (lat.get i) (lon.get i) (h.get i) (lat0.get i) (lon0.get i) (h0.get i) ell deg).2.1 ∧
      (geodetic2sez lat lon h lat0 lon0 h0 (ellND ell) deg).2.2.get i = (geodetic2sez (lat.get i) (lon.get i) (h.get i) (lat0.get i) (lon0.get i) (h0.get i) ell deg).2.2) ∧
    ((geodetic2sez lat lon h lat0 lon0 h0 (ellND ell) deg).1.kind = (geodetic2sez lat.kind lon.kind h.kind lat0.kind lon0.kind h0.kind (ellKind ell) deg).1 ∧
      (geodetic2sez lat lon h lat0 lon0 h0 (ellND ell) deg).2.1.kind = (geodetic2sez lat.kind lon.kind h.kind lat0.kind lon0.kind h0.kind (ellKind ell) deg).2.1 ∧
      (geodetic2sez lat lon h lat0 lon0 h0 (ellND ell) deg).2.2.kind = (geodetic2sez lat.kind lon.kind h.kind lat0.kind lon0.kind h0.kind (ellKind ell) deg).2.2) := by
  constructor
  · refine ⟨?_, ?_, ?_⟩ <;>
      simp [geodetic2sez, bc_geodetic2enu]
  · cases ell <;> cases deg <;> exact ⟨rfl, rfl, rfl⟩

theorem bc_enu2dca (e n u hdg : ND F) (deg : Bool) (i : MultiIndex) :
    ((enu2dca e n u hdg deg).1.get i = (enu2dca (e.get i) (n.get i) (u.get i) (hdg.get i) deg).1 ∧
      (enu2dca e n u hdg deg).2.1.get i = (enu2dca (e.get i) (n.get i) (u.get i) (hdg.get i) deg).2.1 ∧
      (enu2dca e n u hdg deg).2.2.get i = (enu2dca (e.get i) (n.get i) (u.get i) (hdg.get i) deg).2.2) ∧
    ((enu2dca e n u hdg deg).1.kind = (enu2dca e.kind n.kind u.kind hdg.kind deg).1 ∧
      (enu2dca e n u hdg deg).2.1.kind = (enu2dca e.kind n.kind u.kind hdg.kind deg).2.1 ∧
      (enu2dca e n u hdg deg).2.2.kind = (enu2dca e.kind n.kind u.kind hdg.kind deg).2.2) := by
  constructor
  · refine ⟨?_, ?_, ?_⟩ <;>
      simp [enu2dca]
  · cases deg <;> exact ⟨rfl, rfl, rfl⟩

theorem bc_dca2enu (dr cr ab hdg : ND F) (deg : Bool) (i : MultiIndex) :
    ((dca2enu dr cr ab hdg deg).1.get i = (dca2enu (dr.get i) (cr.get i) (ab.get i) (hdg.get i) deg).1 ∧
      (dca2enu dr cr ab hdg deg).2.1.get i = (dca2enu (dr.get i) (cr.get i) (ab.get i) (hdg.get i) deg).2.1 ∧
      (dca2enu dr cr ab hdg deg).2.2.get i = (dca2enu (dr.get i) (cr.get i) (ab.get i) (hdg.get i) deg).2.2) ∧
    ((dca2enu dr cr ab hdg deg).1.kind = (dca2enu dr.kind cr.kind ab.kind hdg.kind deg).1 ∧
      (dca2enu dr cr ab hdg deg).2.1.kind = (dca2enu dr.kind cr.kind ab.kind hdg.kind deg).2.1 ∧
      (dca2enu dr cr ab hdg deg).2.2.kind = (dca2enu dr.kind cr.kind ab.kind hdg.kind deg).2.2) := by
  constructor
  · refine ⟨?_, ?_, ?_⟩ <;>
      simp [dca2enu]
  · cases deg <;> exact ⟨rfl, rfl, rfl⟩

theorem bc_ned2dca (n e d hdg : ND F) (deg : Bool) (i : MultiIndex) :
    ((ned2dca n e d hdg deg).1.get i = (ned2dca (n.get i) (e.get i) (d.get i) (hdg.get i) deg).1 ∧
      (ned2dca n e d hdg deg).2.1.get i = (ned2dca (n.get i) (e.get i) (d.get i) (hdg.get i) deg).2.1 ∧
      (ned2dca n e d hdg deg).2.2.get i = (ned2dca (n.get i) (e.get i) (d.get i) (hdg.get i) deg).2.2) ∧
    ((ned2dca n e d hdg deg).1.kind = (ned2dca n.kind e.kind d.kind hdg.kind deg).1 ∧
      (ned2dca n e d hdg deg).2.1.kind = (ned2dca n.kind e.kind d.kind hdg.kind deg).2.1 ∧
      (ned2dca n e d hdg deg).2.2.kind = (ned2dca n.kind e.kind d.kind hdg.kind deg).2.2) := by
  constructor
  · refine ⟨?_, ?_, ?_⟩ <;>
      simp [ned2dca, bc_enu2dca]
  · cases deg <;> exact ⟨rfl, rfl, rfl⟩

theorem bc_dca2ned (dr cr ab hdg : ND F) (deg : Bool) (i : MultiIndex) :
    ((dca2ned dr cr ab hdg deg).1.get i = (dca2ned (dr.get i) (cr.get i) (ab.get i) (hdg.get i) deg).1 ∧
      (dca2ned dr cr ab hdg deg).2.1.get i = (dca2ned (dr.get i) (cr.get i) (ab.get i) (hdg.get i) deg).2.1 ∧
      (dca2ned dr cr ab hdg deg).2.2.get i = (dca2ned (dr.get i) (cr.get i) (ab.get i) (hdg.get i) deg).2.2) ∧
    ((dca2ned dr cr ab hdg deg).1.kind = (dca2ned dr.kind cr.kind ab.kind hdg.kind deg).1 ∧
      (dca2ned dr cr ab hdg deg).2.1.kind = (dca2ned dr.kind cr.kind ab.kind hdg.kind deg).2.1 ∧
      (dca2ned dr cr ab hdg deg).2.2.kind = (dca2ned dr.kind cr.kind ab.kind hdg.kind deg).2.2) := by
  constructor
  · refine ⟨?_, ?_, ?_⟩ <;>
      simp [dca2ned, bc_dca2enu]
  · cases deg <;> exact ⟨rfl, rfl, rfl⟩

theorem bc_ecef2dca (x y z lat0 lon0 h0 hdg : ND F) (ell : Option (Ellipsoid F)) (deg : Bool) (i : MultiIndex) :
    ((ecef2dca x y z lat0 lon0 h0 hdg (ellND ell) deg).1.get i = (ecef2dca (x.get i) (y.get i) (z.get i) (lat0.get i) (lon0.get i) (h0.get i) (hdg.get i) ell deg).1 ∧
      (ecef2dca x y z lat0 lon0 h0 hdg (ellND ell) deg).2.1.get i = (ecef2dca (x.get i) (y.get i) (z.get i) (lat0.get i) (lon0.get i) (h0.get i) (hdg.get i) ell deg).2.1 ∧
      (ecef2dca x y z lat0 lon0 h0 hdg (ellND ell) deg).2.2.get i = (ecef2dca (x.get i) (y.get i) (z.get i) (lat0.get i) (lon0.get i) (h0.get i) (hdg.get i) ell deg).2.2) ∧
    ((ecef2dca x y z lat0 lon0 h0 hdg (ellND ell) deg).1.kind = (ecef2dca x.kind y.kind z.kind lat0.kind lon0.kind h0.kind hdg.kind (ellKind ell) deg).1 ∧
      (ecef2dca x y z lat0 lon0 h0 hdg (ellND ell) deg).2.1.kind = (ecef2dca x.kind y.kind z.kind lat0.kind lon0.kind h0.kind hdg.kind (ellKind ell) deg).2.1 ∧
      (ecef2dca x y z lat0 lon0 h0 hdg (ellND ell) deg).2.2.kind = (ecef2dca x.kind y.kind z.kind lat0.kind lon0.kind h0.kind hdg.kind (ellKind ell) deg).2.2) := by
  constructor
  · refine ⟨?_, ?_, ?_⟩ <;>
      simp [ecef2dca, bc_ecef2enu, bc_enu2dca]
  · cases ell <;> cases deg <;> exact ⟨rfl, rfl, rfl⟩

theorem bc_dca2ecef (dr cr ab lat0 lon0 h0 hdg : ND F) (ell : Option (Ellipsoid F)) (deg : Bool) (i : MultiIndex) :
    ((dca2ecef dr cr ab lat0 lon0 h0 hdg (ellND ell) deg).1.get i = (dca2ecef (dr.get i) (cr.get i) (ab.get i) (lat0.get i) (lon0.get i) (h0.get i) (hdg.get i) ell deg).1 ∧
      (dca2ecef dr cr ab lat0 lon0 h0 hdg (ellND ell) deg).2.1.get i = (dca2ecef (dr.get i) (cr.get i) (ab.get i) (lat0.get i) (lon0.get i) (h0.get i) (hdg.get i) ell deg).2.1 ∧
      (dca2ecef dr cr ab lat0 lon0 h0 hdg (ellND ell) deg).2.2.get i = (dca2ecef (dr.get i) (cr.get i) (ab.get i) (lat0.get i) (lon0.get i) (h0.get i) (hdg.get i) ell deg).2.2) ∧
    ((dca2ecef dr cr ab lat0 lon0 h0 hdg (ellND ell) deg).1.kind = (dca2ecef dr.kind cr.kind ab.kind lat0.kind lon0.kind h0.kind hdg.kind (ellKind ell) deg).1 ∧
      (dca2ecef dr cr ab lat0 lon0 h0 hdg (ellND ell) deg).2.1.kind = (dca2ecef dr.kind cr.kind ab.kind lat0.kind lon0.kind h0.kind hdg.kind (ellKind ell) deg).2.1 ∧
      (dca2ecef dr cr ab lat0 lon0 h0 hdg (ellND ell) deg).2.2.kind = (dca2ecef dr.kind cr.kind ab.kind lat0.kind lon0.kind h0.kind hdg.kind (ellKind ell) deg).2.2) := by
  constructor
  · refine ⟨?_, ?_, ?_⟩ <;>
      simp [dca2ecef, bc_dca2enu, bc_enu2ecef]
  · cases ell <;> cases deg <;> exact ⟨rfl, rfl, rfl⟩

theorem bc_geodetic2dca (lat lon h lat0 lon0 h0 hdg : ND F) (ell : Option (Ellipsoid F)) (deg : Bool) (i : MultiIndex) :
    ((geodetic2dca lat lon h lat0 lon0 h0 hdg (ellND ell) deg).1.get i = (geodetic2dca (lat.get i) (lon.get i) (h.get i) (lat0.get i) (lon0.get i) (h0.get i) (hdg.get i) ell deg).1 ∧
      (geodetic2dca lat lon h lat0 lon0 h0 hdg (ellND ell) deg).2.1.get i = (geodetic2dca (lat.get i) (lon.get i) (h.get i) (lat0.get i) (lon0.get i) (h0.get i) (hdg.get i) ell deg).2.1 ∧
      (geodetic2dca lat lon h lat0 lon0 h0 hdg (ellND ell) deg).2.2.get i = (geodetic2dca (lat.get i) (lon.get i) (h.get i) (lat0.get i) (lon0.get i) (h0.get i) (hdg.get i) ell deg).2.2) ∧
    ((geodetic2dca lat lon h lat0 lon0 h0 hdg (ellND ell) deg).1.kind = (geodetic2dca lat.kind lon.kind h.kind lat0.kind lon0.kind h0.kind hdg.kind (ellKind ell) deg).1 ∧
      (geodetic2dca lat lon h lat0 lon0 h0 hdg (ellND ell) deg).2.1.kind = (geodetic2dca lat.kind lon.kind h.kind lat0.kind lon0.kind h0.kind hdg.kind (ellKind ell) deg).2.1 ∧
      (geodetic2dca lat lon h lat0 lon0 h0 hdg (ellND ell) deg).2.2.kind = (geodetic2dca lat.kind lon.kind h.kind lat0.kind lon0.kind h0.kind hdg.kind (ellKind ell) deg).2.2) := by
  constructor
  · refine ⟨?_, ?_, ?_⟩ <;>
      simp [geodetic2dca, bc_geodetic2enu, bc_enu2dca]
  · cases ell <;> cases deg <;> exact ⟨rfl, rfl, rfl⟩

theorem bc_aer2dca (az el r hdg : ND F) (deg : Bool) (i : MultiIndex) :
    ((aer2dca az el r hdg deg).1.get i = (aer2dca (az.get i) (el.get i) (r.get i) (hdg.get i) deg).1 ∧
      (aer2dca az el r hdg deg).2.1.get i = (aer2dca (az.get i) (el.get i) (r.get i) (hdg.get i) deg).2.1 ∧
      (aer2dca az el r hdg deg).2.2.get i = (aer2dca (az.get i) (el.get i) (r.get i) (hdg.get i) deg).2.2) ∧
    ((aer2dca az el r hdg deg).1.kind = (aer2dca az.kind el.kind r.kind hdg.kind deg).1 ∧
      (aer2dca az el r hdg deg).2.1.kind = (aer2dca az.kind el.kind r.kind hdg.kind deg).2.1 ∧
      (aer2dca az el r hdg deg).2.2.kind = (aer2dca az.kind el.kind r.kind hdg.kind deg).2.2) := by
  constructor
  · refine ⟨?_, ?_, ?_⟩ <;>
      simp [aer2dca, bc_aer2enu, bc_enu2dca]
  · cases deg <;> exact ⟨rfl, rfl, rfl⟩

theorem bc_geocentric_radius (lat : ND F) (ell : Option (Ellipsoid F)) (deg : Bool) (i : MultiIndex) :
    ((geocentric_radius lat (ellND ell) deg).get i = (geocentric_radius (lat.get i) ell deg)) ∧
    ((geocentric_radius lat (ellND ell) deg).kind = (geocentric_radius lat.kind (ellKind ell) deg)) := by
  constructor
  ·
      simp [geocentric_radius]
  · cases ell <;> cases deg <;> rfl

theorem bc_transverse (lat : ND F) (ell : Option (Ellipsoid F)) (deg : Bool) (i : MultiIndex) :
    ((transverse lat (ellND ell) deg).get i = (transverse (lat.get i) ell deg)) ∧
    ((transverse lat (ellND ell) deg).kind = (transverse lat.kind (ellKind ell) deg)) := by
  constructor
  ·
      simp [transverse]
  · cases ell <;> cases deg <;> rfl

theorem bc_parallel (lat : ND F) (ell : Option (Ellipsoid F)) (deg : Bool) (i : MultiIndex) :
    ((parallel lat (ellND ell) deg).get i = (parallel (lat.get i) ell deg)) ∧
    ((parallel lat (ellND ell) deg).kind = (parallel lat.kind (ellKind ell) deg)) := by
  constructor
  ·
      simp [parallel, bc_transverse]
  · cases ell <;> cases deg <;> rfl

theorem bc_meridian (lat : ND F) (ell : Option (Ellipsoid F)) (deg : Bool) (i : MultiIndex) :
    ((meridian lat (ellND ell) deg).get i = (meridian (lat.get i) ell deg)) ∧
    ((meridian lat (ellND ell) deg).kind = (meridian lat.kind (ellKind ell) deg)) := by
  constructor
  ·
      simp [meridian]
  · cases ell <;> cases deg <;> rfl

theorem bc_geoc2geod (lat r : ND F) (ell : Option (Ellipsoid F)) (deg : Bool) (i : MultiIndex) :
    ((geoc2geod lat r (ellND ell) deg).get i = (geoc2geod (lat.get i) (r.get i) ell deg)) ∧
    ((geoc2geod lat r (ellND ell) deg).kind = (geoc2geod lat.kind r.kind (ellKind ell) deg)) := by
  constructor
  ·
      simp [geoc2geod]
  · cases ell <;> cases deg <;> rfl

theorem bc_geodetic2geocentric (lat h : ND F) (ell : Option (Ellipsoid F)) (deg : Bool) (i : MultiIndex) :
    ((geodetic2geocentric lat h (ellND ell) deg).get i = (geodetic2geocentric (lat.get i) (h.get i) ell deg)) ∧
    ((geodetic2geocentric lat h (ellND ell) deg).kind = (geodetic2geocentric lat.kind h.kind (ellKind ell) deg)) := by
  constructor
  ·
      simp [geodetic2geocentric, transverse]
  · cases ell <;> cases deg <;> rfl

theorem bc_geocentric2geodetic (lat h : ND F) (ell : Option (Ellipsoid F)) (deg : Bool) (i : MultiIndex) :
    ((geocentric2geodetic lat h (ellND ell) deg).get i = (geocentric2geodetic (lat.get i) (h.get i) ell deg)) ∧
    ((geocentric2geodetic lat h (ellND ell) deg).kind = (geocentric2geodetic lat.kind h.kind (ellKind ell) deg)) := by
  constructor
  ·
      simp [geocentric2geodetic, transverse]
  · cases ell <;> cases deg <;> rfl

theorem bc_conformal2geodetic (lat : ND F) (ell : Option (Ellipsoid F)) (deg : Bool) (i : MultiIndex) :
    ((conformal2geodetic lat (ellND ell) deg).get i = (conformal2geodetic (lat.get i) ell deg)) ∧
    ((conformal2geodetic lat (ellND ell) deg).kind = (conformal2geodetic lat.kind (ellKind ell) deg)) := by
  constructor
  ·
      simp [conformal2geodetic]
  · cases ell <;> cases deg <;> rfl

theorem bc_isometric2geodetic (lat : ND F) (ell : Option (Ellipsoid F)) (deg : Bool) (i : MultiIndex) :
    ((isometric2geodetic lat (ellND ell) deg).get i = (isometric2geodetic (lat.get i) ell deg)) ∧
    ((isometric2geodetic lat (ellND ell) deg).kind = (isometric2geodetic lat.kind (ellKind ell) deg)) := by
  constructor
  ·
      simp [isometric2geodetic, bc_conformal2geodetic]
  · cases ell <;> cases deg <;> rfl

theorem bc_geodetic2rectifying (lat : ND F) (ell : Option (Ellipsoid F)) (deg : Bool) (i : MultiIndex) :
    ((geodetic2rectifying lat (ellND ell) deg).get i = (geodetic2rectifying (lat.get i) ell deg)) ∧
    ((geodetic2rectifying lat (ellND ell) deg).kind = (geodetic2rectifying lat.kind (ellKind ell) deg)) := by
  constructor
  ·
      simp [geodetic2rectifying]
  · cases ell <;> cases deg <;> rfl

theorem bc_rectifying2geodetic (lat : ND F) (ell : Option (Ellipsoid F)) (deg : Bool) (i : MultiIndex) :
    ((rectifying2geodetic lat (ellND ell) deg).get i = (rectifying2geodetic (lat.get i) ell deg)) ∧
    ((rectifying2geodetic lat (ellND ell) deg).kind = (rectifying2geodetic lat.kind (ellKind ell) deg)) := by
  constructor
  ·
      simp [rectifying2geodetic]
  · cases ell <;> cases deg <;> rfl

theorem bc_geodetic2authalic (lat : ND F) (ell : Option (Ellipsoid F)) (deg : Bool) (i : MultiIndex) :
    ((geodetic2authalic lat (ellND ell) deg).get i = (geodetic2authalic (lat.get i) ell deg)) ∧
    ((geodetic2authalic lat (ellND ell) deg).kind = (geodetic2authalic lat.kind (ellKind ell) deg)) := by
  constructor
  ·
      simp [geodetic2authalic]
  · cases ell <;> cases deg <;> rfl

theorem bc_authalic2geodetic (lat : ND F) (ell : Option (Ellipsoid F)) (deg : Bool) (i : MultiIndex) :
    ((authalic2geodetic lat (ellND ell) deg).get i = (authalic2geodetic (lat.get i) ell deg)) ∧
    ((authalic2geodetic lat (ellND ell) deg).kind = (authalic2geodetic lat.kind (ellKind ell) deg)) := by
  constructor
  ·
      simp [authalic2geodetic]
  · cases ell <;> cases deg <;> rfl

theorem bc_geodetic2parametric (lat : ND F) (ell : Option (Ellipsoid F)) (deg : Bool) (i : MultiIndex) :
    ((geodetic2parametric lat (ellND ell) deg).get i = (geodetic2parametric (lat.get i) ell deg)) ∧
    ((geodetic2parametric lat (ellND ell) deg).kind = (geodetic2parametric lat.kind (ellKind ell) deg)) := by
  constructor
  ·
      simp [geodetic2parametric]
  · cases ell <;> cases deg <;> rfl

theorem bc_parametric2geodetic (lat : ND F) (ell : Option (Ellipsoid F)) (deg : Bool) (i : MultiIndex) :
    ((parametric2geodetic lat (ellND ell) deg).get i = (parametric2geodetic (lat.get i) ell deg)) ∧
    ((parametric2geodetic lat (ellND ell) deg).kind = (parametric2geodetic lat.kind (ellKind ell) deg)) := by
  constructor
  ·
      simp [parametric2geodetic]
  · cases ell <;> cases deg <;> rfl

theorem bc_geodetic2spherical (lat lon h : ND F) (ell : Option (Ellipsoid F)) (deg : Bool) (i : MultiIndex) :
    ((geodetic2spherical lat lon h (ellND ell) deg).1.get i = (geodetic2spherical (lat.get i) (lon.get i) (h.get i) ell deg).1 ∧
      (geodetic2spherical lat lon h (ellND ell) deg).2.1.get i = (geodetic2spherical (lat.get i) (lon.get i) (h.get i) ell deg).2.1 ∧
      (geodetic2spherical lat lon h (ellND ell) deg).2.2.get i = (geodetic2spherical (lat.get i) (lon.get i) (h.get i) ell deg).2.2) ∧
    ((geodetic2spherical lat lon h (ellND ell) deg).1.kind = (geodetic2spherical lat.kind lon.kind h.kind (ellKind ell) deg).1 ∧
      (geodetic2spherical lat lon h (ellND ell) deg).2.1.kind = (geodetic2spherical lat.kind lon.kind h.kind (ellKind ell) deg).2.1 ∧
      (geodetic2spherical lat lon h (ellND ell) deg).2.2.kind = (geodetic2spherical lat.kind lon.kind h.kind (ellKind ell) deg).2.2) := by
  constructor
  · refine ⟨?_, ?_, ?_⟩ <;>
      simp [geodetic2spherical]
  · cases ell <;> cases deg <;> exact ⟨rfl, rfl, rfl⟩

theorem bc_spherical2geodetic (lat lon r : ND F) (ell : Option (Ellipsoid F)) (deg : Bool) (i : MultiIndex) :
    ((spherical2geodetic lat lon r (ellND ell) deg).1.get i = (spherical2geodetic (lat.get i) (lon.get i) (r.get i) ell deg).1 ∧
      (spherical2geodetic lat lon r (ellND ell) deg).2.1.get i = (spherical2geodetic (lat.get i) (lon.get i) (r.get i) ell deg).2.1 ∧
      (spherical2geodetic lat lon r (ellND ell) deg).2.2.get i = (spherical2geodetic (lat.get i) (lon.get i) (r.get i) ell deg).2.2) ∧
    ((spherical2geodetic lat lon r (ellND ell) deg).1.kind = (spherical2geodetic lat.kind lon.kind r.kind (ellKind ell) deg).1 ∧
      (spherical2geodetic lat lon r (ellND ell) deg).2.1.kind = (spherical2geodetic lat.kind lon.kind r.kind (ellKind ell) deg).2.1 ∧
      (spherical2geodetic lat lon r (ellND ell) deg).2.2.kind = (spherical2geodetic lat.kind lon.kind r.kind (ellKind ell) deg).2.2) := by
  constructor
  · refine ⟨?_, ?_, ?_⟩ <;>
      simp [spherical2geodetic]
  · cases ell <;> cases deg <;> exact ⟨rfl, rfl, rfl⟩

theorem bc_haversine (theta : ND F) (i : MultiIndex) :
    ((haversine theta).get i = (haversine (theta.get i))) ∧
    ((haversine theta).kind = (haversine theta.kind)) := by
  constructor
  ·
      simp [haversine]
  · rfl

theorem bc_anglesep_meeus (lon0 lat0 lon1 lat1 : ND F) (deg : Bool) (i : MultiIndex) :
    ((anglesep_meeus lon0 lat0 lon1 lat1 deg).get i = (anglesep_meeus (lon0.get i) (lat0.get i) (lon1.get i) (lat1.get i) deg)) ∧
    ((anglesep_meeus lon0 lat0 lon1 lat1 deg).kind = (anglesep_meeus lon0.kind lat0.kind lon1.kind lat1.kind deg)) := by
  constructor
  ·
      simp [anglesep_meeus, haversine]
  · cases deg <;> rfl

theorem bc_anglesep (lon0 lat0 lon1 lat1 : ND F) (deg : Bool) (i : MultiIndex) :
    ((anglesep lon0 lat0 lon1 lat1 deg).get i = (anglesep (lon0.get i) (lat0.get i) (lon1.get i) (lat1.get i) deg)) ∧
    ((anglesep lon0 lat0 lon1 lat1 deg).kind = (anglesep lon0.kind lat0.kind lon1.kind lat1.kind deg)) := by
  constructor
  ·
      simp [anglesep, bc_anglesep_meeus]
  · cases deg <;> rfl

theorem bc_geodetic2nvector (lat lon : ND F) (deg : Bool) (i : MultiIndex) :
    ((geodetic2nvector lat lon deg).1.get i = (geodetic2nvector (lat.get i) (lon.get i) deg).1 ∧
      (geodetic2nvector lat lon deg).2.1.get i = (geodetic2nvector (lat.get i) (lon.get i) deg).2.1 ∧
      (geodetic2nvector lat lon deg).2.2.get i = (geodetic2nvector (lat.get i) (lon.get i) deg).2.2) ∧
    ((geodetic2nvector lat lon deg).1.kind = (geodetic2nvector lat.kind lon.kind deg).1 ∧
      (geodetic2nvector lat lon deg).2.1.kind = (geodetic2nvector lat.kind lon.kind deg).2.1 ∧
      (geodetic2nvector lat lon deg).2.2.kind = (geodetic2nvector lat.kind lon.kind deg).2.2) := by
  constructor
  · refine ⟨?_, ?_, ?_⟩ <;>
      simp [geodetic2nvector]
  · cases deg <;> exact ⟨rfl, rfl, rfl⟩

theorem bc_nvector2geodetic (n1 n2 n3 : ND F) (deg : Bool) (i : MultiIndex) :
    ((nvector2geodetic n1 n2 n3 deg).1.get i = (nvector2geodetic (n1.get i) (n2.get i) (n3.get i) deg).1 ∧
      (nvector2geodetic n1 n2 n3 deg).2.get i = (nvector2geodetic (n1.get i) (n2.get i) (n3.get i) deg).2) ∧
    ((nvector2geodetic n1 n2 n3 deg).1.kind = (nvector2geodetic n1.kind n2.kind n3.kind deg).1 ∧
      (nvector2geodetic n1 n2 n3 deg).2.kind = (nvector2geodetic n1.kind n2.kind n3.kind deg).2) := by
  constructor
  · refine ⟨?_, ?_⟩ <;>
      simp [nvector2geodetic]
  · cases deg <;> exact ⟨rfl, rfl⟩

theorem bc_nvector2ecef (n1 n2 n3 alt : ND F) (ell : Option (Ellipsoid F)) (deg : Bool) (i : MultiIndex) :
    ((nvector2ecef n1 n2 n3 alt (ellND ell) deg).1.get i = (nvector2ecef (n1.get i) (n2.get i) (n3.get i) (alt.get i) ell deg).1 ∧
      (nvector2ecef n1 n2 n3 alt (ellND ell) deg).2.1.get i = (nvector2ecef (n1.get i) (n2.get i) (n3.get i) (alt.get i) ell deg).2.1 ∧
      (nvector2ecef n1 n2 n3 alt (ellND ell) deg).2.2.get i = (nvector2ecef (n1.get i) (n2.get i) (n3.get i) (alt.get i) ell deg).2.2) ∧
    ((nvector2ecef n1 n2 n3 alt (ellND ell) deg).1.kind = (nvector2ecef n1.kind n2.kind n3.kind alt.kind (ellKind ell) deg).1 ∧
      (nvector2ecef n1 n2 n3 alt (ellND ell) deg).2.1.kind = (nvector2ecef n1.kind n2.kind n3.kind alt.kind (ellKind ell) deg).2.1 ∧
      (nvector2ecef n1 n2 n3 alt (ellND ell) deg).2.2.kind = (nvector2ecef n1.kind n2.kind n3.kind alt.kind (ellKind ell) deg).2.2) := by
  constructor
  · refine ⟨?_, ?_, ?_⟩ <;>
      simp [nvector2ecef, bc_nvector2geodetic, bc_geodetic2ecef]
  · cases ell <;> cases deg <;> exact ⟨rfl, rfl, rfl⟩

theorem bc_meridian_arc (lat0 lat1 : ND F) (ell : Option (Ellipsoid F)) (deg : Bool) (i : MultiIndex) :
    ((meridian_arc lat0 lat1 (ellND ell) deg).get i = (meridian_arc (lat0.get i) (lat1.get i) ell deg)) ∧
    ((meridian_arc lat0 lat1 (ellND ell) deg).kind = (meridian_arc lat0.kind lat1.kind (ellKind ell) deg)) := by
  constructor
  ·
      simp [meridian_arc, bc_geodetic2rectifying, rectifying]
  · cases ell <;> cases deg <;> rfl

theorem bc_meridian_dist (lat : ND F) (ell : Option (Ellipsoid F)) (deg : Bool) (i : MultiIndex) :
    ((meridian_dist lat (ellND ell) deg).get i = (meridian_dist (lat.get i) ell deg)) ∧
    ((meridian_dist lat (ellND ell) deg).kind = (meridian_dist lat.kind (ellKind ell) deg)) := by
  constructor
  ·
      simp [meridian_dist, bc_meridian_arc]
  · cases ell <;> cases deg <;> rfl

theorem bc_cart2pol (x y : ND F) (i : MultiIndex) :
    ((cart2pol x y).1.get i = (cart2pol (x.get i) (y.get i)).1 ∧
      (cart2pol x y).2.get i = (cart2pol (x.get i) (y.get i)).2) ∧
    ((cart2pol x y).1.kind = (cart2pol x.kind y.kind).1 ∧
      (cart2pol x y).2.kind = (cart2pol x.kind y.kind).2) := by
  constructor
  · refine ⟨?_, ?_⟩ <;>
      simp [cart2pol]
  · exact ⟨rfl, rfl⟩

theorem bc_pol2cart (theta rho : ND F) (i : MultiIndex) :
    ((pol2cart theta rho).1.get i = (pol2cart (theta.get i) (rho.get i)).1 ∧
      (pol2cart theta rho).2.get i = (pol2cart (theta.get i) (rho.get i)).2) ∧
    ((pol2cart theta rho).1.kind = (pol2cart theta.kind rho.kind).1 ∧
      (pol2cart theta rho).2.kind = (pol2cart theta.kind rho.kind).2) := by
  constructor
  · refine ⟨?_, ?_⟩ <;>
      simp [pol2cart]
  · exact ⟨rfl, rfl⟩

theorem bc_cart2sph (x y z : ND F) (i : MultiIndex) :
    ((cart2sph x y z).1.get i = (cart2sph (x.get i) (y.get i) (z.get i)).1 ∧
      (cart2sph x y z).2.1.get i = (cart2sph (x.get i) (y.get i) (z.get i)).2.1 ∧
      (cart2sph x y z).2.2.get i = (cart2sph (x.get i) (y.get i) (z.get i)).2.2) ∧
    ((cart2sph x y z).1.kind = (cart2sph x.kind y.kind z.kind).1 ∧
      (cart2sph x y z).2.1.kind = (cart2sph x.kind y.kind z.kind).2.1 ∧
      (cart2sph x y z).2.2.kind = (cart2sph x.kind y.kind z.kind).2.2) := by
  constructor
  · refine ⟨?_, ?_, ?_⟩ <;>
      simp [cart2sph]
  · exact ⟨rfl, rfl, rfl⟩

theorem bc_sph2cart (az el r : ND F) (i : MultiIndex) :
    ((sph2cart az el r).1.get i = (sph2cart (az.get i) (el.get i) (r.get i)).1 ∧
      (sph2cart az el r).2.1.get i = (sph2cart (az.get i) (el.get i) (r.get i)).2.1 ∧
      (sph2cart az el r).2.2.get i = (sph2cart (az.get i) (el.get i) (r.get i)).2.2) ∧
    ((sph2cart az el r).1.kind = (sph2cart az.kind el.kind r.kind).1 ∧
      (sph2cart az el r).2.1.kind = (sph2cart az.kind el.kind r.kind).2.1 ∧
      (sph2cart az el r).2.2.kind = (sph2cart az.kind el.kind r.kind).2.2) := by
  constructor
  · refine ⟨?_, ?_, ?_⟩ <;>
      simp [sph2cart]
  · exact ⟨rfl, rfl, rfl⟩

end Pymap3d
