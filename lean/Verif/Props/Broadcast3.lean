import Verif.Props.Broadcast2
import Verif.Py.Real
/-!
**C85**, concluded: composed functions and examples.
-/
set_option linter.unusedSectionVars false
set_option linter.unusedSimpArgs false
namespace Pymap3d
open Py Kind

variable {F : Type} [Add F] [Sub F] [Mul F] [Div F] [Neg F] [Pow F Nat] [OfScientific F] [LT F] [LE F]
  [DecidableLT F] [DecidableLE F] [PyMath F]

/-- **C85.** `enu2geodetic` -/
theorem bc_enu2geodetic (mem : MultiIndex → F) (e n u lat0 lon0 h0 : ND F) (ell : Option (Ellipsoid F)) (deg : Bool) (r : ND F × ND F × ND F)
    (h : enu2geodeticND mem e n u lat0 lon0 h0 (ellND ell) deg = .ok r) (i : MultiIndex) :
    let j := squeezedIndex (together [e.kind, n.kind, u.kind, lat0.kind, lon0.kind, h0.kind]) i
    let s := enu2geodetic .npArray (e.get i) (n.get i) (u.get i) (lat0.get i) (lon0.get i) (h0.get i) ell deg
    r.1.get j = s.1 ∧ r.2.1.get i = s.2.1 ∧ r.2.2.get i = s.2.2 := by
  obtain ⟨⟨g1, g2, g3⟩, k1, k2, k3⟩ := bc_enu2ecef e n u lat0 lon0 h0 ell deg i
  rw [enu2ecef_kinds _ _ _ _ _ _ _ (ellKind_py ell)] at k1 k2 k3
  have hb := bc_ecef2geodetic mem _ _ _ ell deg r h i
  rw [k1, k2, k3, g1, g2, g3] at hb
  simp only [together_ne_py, if_false] at hb
  have ht : ∀ e n u a o h : Kind, together [together [e, n, u, a, o, h], together [e, n, u, a, o, h], together [n, u, a, h]] = together [e, n, u, a, o, h] := by
    intro e n u a o h
    show join (join e (join n (join u (join a (join o (join h .np)))))) (join (join e (join n (join u (join a (join o (join h .np)))))) (join (join n (join u (join a (join h .np)))) .np)) =
      join e (join n (join u (join a (join o (join h .np)))))
    ac_rfl
  rw [ht] at hb
  exact hb

theorem aer2ecef_kinds (az el r lat0 lon0 h0 : Kind) (ell : Option (Ellipsoid Kind)) (h : pyEll ell) (deg : Bool) :
    aer2ecef az el r lat0 lon0 h0 ell deg =
      (together [az, el, r, lat0, lon0, h0], together [az, el, r, lat0, lon0, h0], together [az, el, r, lat0, h0]) := by
  unfold aer2ecef
  simp only [geodetic2ecef_kinds lat0 lon0 h0 ell h deg, aer2enu_kinds, enu2uvw_kinds]
  refine Prod.ext ?_ (Prod.ext ?_ ?_)
  · show join (join lat0 (join lon0 (join h0 .np))) (join (join az (join el (join r .np))) (join (join az (join el (join r .np))) (join (join el (join r .np)) (join lat0 (join lon0 .np))))) =
      join az (join el (join r (join lat0 (join lon0 (join h0 .np))))); ac_rfl
  · show join (join lat0 (join lon0 (join h0 .np))) (join (join az (join el (join r .np))) (join (join az (join el (join r .np))) (join (join el (join r .np)) (join lat0 (join lon0 .np))))) =
      join az (join el (join r (join lat0 (join lon0 (join h0 .np))))); ac_rfl
  · show join (join lat0 (join h0 .np)) (join (join az (join el (join r .np))) (join (join el (join r .np)) (join lat0 .np))) =
      join az (join el (join r (join lat0 (join h0 .np)))); ac_rfl

/-- **C85.** `aer2geodetic` -/
theorem bc_aer2geodetic (mem : MultiIndex → F) (az el rg lat0 lon0 h0 : ND F) (ell : Option (Ellipsoid F)) (deg : Bool) (r : ND F × ND F × ND F)
    (h : aer2geodeticND mem az el rg lat0 lon0 h0 (ellND ell) deg = .ok r) (i : MultiIndex) :
    let j := squeezedIndex (together [az.kind, el.kind, rg.kind, lat0.kind, lon0.kind, h0.kind]) i
    let s := aer2geodetic .npArray (az.get i) (el.get i) (rg.get i) (lat0.get i) (lon0.get i) (h0.get i) ell deg
    r.1.get j = s.1 ∧ r.2.1.get i = s.2.1 ∧ r.2.2.get i = s.2.2 := by
  obtain ⟨⟨g1, g2, g3⟩, k1, k2, k3⟩ := bc_aer2ecef az el rg lat0 lon0 h0 ell deg i
  rw [aer2ecef_kinds _ _ _ _ _ _ _ (ellKind_py ell)] at k1 k2 k3
  have hb := bc_ecef2geodetic mem _ _ _ ell deg r h i
  rw [k1, k2, k3, g1, g2, g3] at hb
  simp only [together_ne_py, if_false] at hb
  have ht : ∀ e n u a o h : Kind, together [together [e, n, u, a, o, h], together [e, n, u, a, o, h], together [e, n, u, a, h]] = together [e, n, u, a, o, h] := by
    intro e n u a o h
    show join (join e (join n (join u (join a (join o (join h .np)))))) (join (join e (join n (join u (join a (join o (join h .np)))))) (join (join e (join n (join u (join a (join h .np))))) .np)) =
      join e (join n (join u (join a (join o (join h .np)))))
    ac_rfl
  rw [ht] at hb
  exact hb

/-- **C85.** `ecef2aer` -/
theorem bc_ecef2aer (x y z lat0 lon0 h0 : ND F) (ell : Option (Ellipsoid F)) (deg : Bool) (r : ND F × ND F × ND F)
    (h : ecef2aerND x y z lat0 lon0 h0 (ellND ell) deg = .ok r) (i : MultiIndex) :
    let s := ecef2aer (x.get i) (y.get i) (z.get i) (lat0.get i) (lon0.get i) (h0.get i) ell deg
    r.1.get i = s.1 ∧ r.2.1.get i = s.2.1 ∧ r.2.2.get i = s.2.2 := by
  obtain ⟨⟨g1, g2, g3⟩, -⟩ := bc_ecef2enu x y z lat0 lon0 h0 ell deg i
  have hb := bc_enu2aer _ _ _ deg r h i
  rw [g1, g2, g3] at hb
  exact hb

/-- **C85.** `geodetic2aer` -/
theorem bc_geodetic2aer (lat lon a lat0 lon0 h0 : ND F) (ell : Option (Ellipsoid F)) (deg : Bool) (r : ND F × ND F × ND F)
    (h : geodetic2aerND lat lon a lat0 lon0 h0 (ellND ell) deg = .ok r) (i : MultiIndex) :
    let s := geodetic2aer (lat.get i) (lon.get i) (a.get i) (lat0.get i) (lon0.get i) (h0.get i) ell deg
    r.1.get i = s.1 ∧ r.2.1.get i = s.2.1 ∧ r.2.2.get i = s.2.2 := by
  obtain ⟨⟨g1, g2, g3⟩, -⟩ := bc_geodetic2enu lat lon a lat0 lon0 h0 ell deg i
  have hb := bc_enu2aer _ _ _ deg r h i
  rw [g1, g2, g3] at hb
  exact hb

/-- **C85.** acceptance of the composed calls, as C81 says -/
theorem bc_composed_accept (mem : MultiIndex → F) (p q s lat0 lon0 h0 : ND F) (ell : Option (Ellipsoid F)) (deg : Bool) :
    ((∃ r, enu2geodeticND mem p q s lat0 lon0 h0 (ellND ell) deg = .ok r) ↔
      ∃ r, enu2geodeticKind p.kind q.kind s.kind lat0.kind lon0.kind h0.kind (ellKind ell) deg = .ok r) ∧
    ((∃ r, aer2geodeticND mem p q s lat0 lon0 h0 (ellND ell) deg = .ok r) ↔
      ∃ r, aer2geodeticKind p.kind q.kind s.kind lat0.kind lon0.kind h0.kind (ellKind ell) deg = .ok r) ∧
    ((∃ r, ecef2aerND p q s lat0 lon0 h0 (ellND ell) deg = .ok r) ↔
      ∃ r, ecef2aerKind p.kind q.kind s.kind lat0.kind lon0.kind h0.kind (ellKind ell) deg = .ok r) ∧
    ((∃ r, geodetic2aerND p q s lat0 lon0 h0 (ellND ell) deg = .ok r) ↔
      ∃ r, geodetic2aerKind p.kind q.kind s.kind lat0.kind lon0.kind h0.kind (ellKind ell) deg = .ok r) := by
  refine ⟨?_, ?_, ?_, ?_⟩
  · obtain ⟨-, k1, k2, k3⟩ := bc_enu2ecef p q s lat0 lon0 h0 ell deg (fun _ => 0)
    unfold enu2geodeticND enu2geodeticKind
    dsimp only
    rw [ecef2geodeticND_accepts, k1, k2, k3]
  · obtain ⟨-, k1, k2, k3⟩ := bc_aer2ecef p q s lat0 lon0 h0 ell deg (fun _ => 0)
    unfold aer2geodeticND aer2geodeticKind
    dsimp only
    rw [ecef2geodeticND_accepts, k1, k2, k3]
  · obtain ⟨-, k1, k2, k3⟩ := bc_ecef2enu p q s lat0 lon0 h0 ell deg (fun _ => 0)
    unfold ecef2aerND ecef2aerKind
    dsimp only
    rw [bc_enu2aer_accepts, k1, k2, k3]
  · obtain ⟨-, k1, k2, k3⟩ := bc_geodetic2enu p q s lat0 lon0 h0 ell deg (fun _ => 0)
    unfold geodetic2aerND geodetic2aerKind
    dsimp only
    rw [bc_enu2aer_accepts, k1, k2, k3]

/-! ### Examples -/

noncomputable section

/-- three latitudes (a row) and two longitudes (a column): the results have two rows and three columns; the element in row 1, column 2 is the scalar
call on longitude 1 and latitude 2 -/
example (lat lon : Nat → ℝ) (alt : ℝ) :
    let L : ND ℝ := ⟨.arr [3], fun i => lat (i 0)⟩
    let O : ND ℝ := ⟨.arr [1, 2], fun i => lon (i 1)⟩
    let r := geodetic2ecef L O (ND.num alt) none true
    let i : MultiIndex := fun k => if k = 0 then 2 else if k = 1 then 1 else 0
    r.1.kind = .arr [3, 2] ∧ r.1.elem i = (geodetic2ecef (lat 2) (lon 1) alt none true).1 := by
  intro L O r i
  have hk : r.1.kind = .arr [3, 2] := by rfl
  refine ⟨hk, ?_⟩
  have hb := (bc_geodetic2ecef L O (ND.num alt) none true i).1.1
  have hg : r.1.get i = r.1.elem i := by
    have : restrict (.arr [3, 2]) i = i := by
      funext k
      match k with
      | 0 => rfl
      | 1 => rfl
      | k + 2 => simp [restrict, restrictShape, i]
    simp only [ND.get]
    rw [hk, this]
  rw [← hg]
  exact hb

/-- an array with one row of three points: accepted, and the latitudes come back without the row -/
example (mem x y z : Nat → ℝ) :
    let A : (Nat → ℝ) → ND ℝ := fun v => ⟨.arr [3, 1], fun i => v (i 0)⟩
    ∃ r, ecef2geodeticND (fun i => mem (i 0)) (A x) (A y) (A z) (ellND none) true = .ok r ∧
      r.1.get (fun k => if k = 0 then 2 else 0) = (ecef2geodetic .npArray (x 2) (y 2) (z 2) none true).1 := by
  intro A
  obtain ⟨r, hr⟩ := (bc_ecef2geodetic_accepts (fun i => mem (i 0)) (A x) (A y) (A z) none true).mpr (by
    exact ⟨by show together [.arr [3, 1], .arr [3, 1], .arr [3, 1]] ≠ .bad; decide, rfl, rfl⟩)
  refine ⟨r, hr, ?_⟩
  have hb := (bc_ecef2geodetic _ _ _ _ none true r hr (fun k => if k = 0 then 2 else 0)).1
  have hj : (if (A z).kind = .py then (fun k => if k = 0 then 2 else 0 : MultiIndex) else
      squeezedIndex (together [(A x).kind, (A y).kind, (A z).kind]) (fun k => if k = 0 then 2 else 0)) = (fun k => if k = 0 then 2 else 0) := by
    show squeezedIndex (.arr [3, 1]) _ = _
    funext k
    match k with
    | 0 => rfl
    | k + 1 => simp [squeezedIndex, dropUnit, consIdx]
  rw [hj] at hb
  exact hb

/-- numbers: accepted, computed with the code for numbers -/
example (x y z : ℝ) : ∃ r, ecef2geodeticND (fun _ => 7) (ND.num x) (ND.num y) (ND.num z) (ellND none) true = .ok r ∧
    r.1.get (fun _ => 0) = (ecef2geodetic .npScalar x y z none true).1 := by
  obtain ⟨r, hr⟩ := (bc_ecef2geodetic_accepts (fun _ => (7 : ℝ)) (ND.num x) (ND.num y) (ND.num z) none true).mpr (by
    show together [.py, .py, .py] ≠ .bad ∧ _
    exact ⟨by decide, trivial, trivial⟩)
  exact ⟨r, hr, (bc_ecef2geodetic _ _ _ _ none true r hr (fun _ => 0)).1⟩

/-- east and north a row, up a column of two: `enu2aer` accepts and broadcasts -/
example (e n u : Nat → ℝ) : ∃ r, enu2aerND (⟨.arr [3], fun i => e (i 0)⟩ : ND ℝ) ⟨.arr [3], fun i => n (i 0)⟩ ⟨.arr [1, 2], fun i => u (i 1)⟩ true = .ok r ∧
    r.1.get (fun k => if k = 0 then 2 else 1) = (enu2aer (e 2) (n 2) (u 1) true).1 := by
  obtain ⟨r, hr⟩ := (bc_enu2aer_accepts (⟨.arr [3], fun i => e (i 0)⟩ : ND ℝ) ⟨.arr [3], fun i => n (i 0)⟩ ⟨.arr [1, 2], fun i => u (i 1)⟩ true).mpr
    ⟨_, rfl⟩
  exact ⟨r, hr, (bc_enu2aer _ _ _ true r hr _).1⟩

/-- an observer (numbers) and a row of targets given by azimuth, elevation and range: `aer2geodetic` accepts -/
example (mem : MultiIndex → ℝ) (az el rg : Nat → ℝ) (lat0 lon0 h0 : ℝ) : ∃ r, aer2geodeticND mem (⟨.arr [3], fun i => az (i 0)⟩ : ND ℝ) ⟨.arr [3], fun i => el (i 0)⟩
    ⟨.arr [3], fun i => rg (i 0)⟩ (ND.num lat0) (ND.num lon0) (ND.num h0) (ellND none) true = .ok r := by
  rw [(bc_composed_accept mem _ _ _ _ _ _ none true).2.1, aer2geodetic_mixed _ _ _ _ _ _ _ (ellKind_py none)]
  exact ⟨by show together [.arr [3], .arr [3], .arr [3], .py, .py, .py] ≠ .bad; decide, rfl⟩

end
end Pymap3d
