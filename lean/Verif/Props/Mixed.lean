import Verif.Model.Mixed
import Verif.Lemmas.KindLemmas
/-!
**C81** Calls that mix numbers and arrays.
-/
set_option linter.unusedSectionVars false
set_option linter.unusedVariables false
namespace Pymap3d
open Py Kind

/-- an object with one element: a number, or an array of size one -/
def Single : Kind → Prop
  | .py => True
  | .np => True
  | .arr s => s.prod = 1
  | .bad => False

/-- an array -/
def IsArr (k : Kind) : Prop := ∃ s, k = .arr s

/-- the kind of the result of an expression in which all of `ks` occur, inside numpy functions -/
def together (ks : List Kind) : Kind := ks.foldr join .np

theorem axes_py {ell : Option (Ellipsoid Kind)} (h : pyEll ell) :
    (resolveEllipsoid ell).semimajor_axis = .py ∧ (resolveEllipsoid ell).semiminor_axis = .py := by
  cases ell with
  | none => exact ⟨rfl, rfl⟩
  | some e => exact h e rfl

theorem lit_py (m : Nat) (s : Bool) (e : Nat) : (OfScientific.ofScientific m s e : Kind) = .py := rfl

theorem floatOf_ok (k : Kind) : (∃ r, floatOf k = .ok r) ↔ Single k := by
  cases k with
  | py => simp [floatOf, Single]
  | np => simp [floatOf, Single]
  | bad => simp [floatOf, Single]
  | arr s => by_cases h : s.prod = 1 <;> simp [floatOf, Single, h]

theorem join_np_of (a b : Kind) (h : join a b = .np) : b = .py ∨ b = .np := by
  cases b with
  | py => exact .inl rfl
  | np => exact .inr rfl
  | bad => rw [join_bad] at h; cases h
  | arr s =>
    exfalso
    cases a with
    | py => cases h
    | np => cases h
    | bad => cases h
    | arr t => rw [join_arr] at h; cases hb : bcShape t s <;> rw [hb] at h <;> cases h

/-- indexing with the mask of the whole expression -/
theorem maskGet_full (v F : Kind) (hF : F ≠ .bad) (hF' : F ≠ .py) (hv : join F v = F) :
    (v = .py ∧ ∃ m, maskGet v F = .error (.typeError m)) ∨
    (v ≠ .py ∧ join v .np = F ∧ maskGet v F = .ok ()) ∨ (v ≠ .py ∧ join v .np ≠ F ∧ maskGet v F = .error .indexError) := by
  cases v with
  | py => exact .inl ⟨rfl, _, rfl⟩
  | bad => rw [join_bad] at hv; exact absurd hv.symm hF
  | np =>
    right
    cases F with
    | py => exact absurd rfl hF'
    | bad => exact absurd rfl hF
    | np => left; exact ⟨by simp, rfl, rfl⟩
    | arr s => right; exact ⟨by simp, by simp [join], rfl⟩
  | arr s =>
    right
    cases F with
    | py => exact absurd rfl hF'
    | bad => exact absurd rfl hF
    | np => exact absurd hv (by simp [join])
    | arr t =>
      by_cases h : s = t
      · subst h; left; exact ⟨by simp, rfl, by simp [maskGet]⟩
      · right; exact ⟨by simp, by simpa [join] using h, by simp [maskGet, h]⟩

theorem mathfun_kind (a b : Kind) : (sqrt a = ufunc a ∧ sin a = ufunc a ∧ cos a = ufunc a ∧ tan a = ufunc a ∧ atan a = ufunc a ∧
    Py.degrees a = ufunc a ∧ radians a = ufunc a) ∧ hypot a b = ufunc (join a b) ∧ atan2 a b = ufunc (join a b) ∧ pymod a b = join a b ∧
    (pi : Kind) = .py ∧ (tau : Kind) = .py := ⟨⟨rfl, rfl, rfl, rfl, rfl, rfl, rfl⟩, rfl, rfl, rfl, rfl, rfl⟩

/-- **C81.** which mixtures of numbers and arrays `ecef2geodetic` accepts: if `z` is a Python number, only single values; otherwise `z`, and `x` and
`y` together, must each have the full shape -/
theorem ecef2geodetic_mixed (x y z : Kind) (ell : Option (Ellipsoid Kind)) (h : pyEll ell) (deg : Bool) :
    (∃ r, ecef2geodeticKind x y z ell deg = .ok r) ↔
      together [x, y, z] ≠ .bad ∧ (if z = .py then Single x ∧ Single y else together [z] = together [x, y, z] ∧ together [x, y] = together [x, y, z]) := by
  obtain ⟨ha, hb⟩ := axes_py h
  have hr : sqrt (x ^ 2 + y ^ 2 + z ^ 2) = together [x, y, z] := by
    show join (join (join x y) z) .np = join x (join y (join z .np))
    ac_rfl
  unfold ecef2geodeticKind
  simp only [hr, ha, hb]
  generalize hF : together [x, y, z] = F
  have hFpy : F ≠ .py := by
    rw [← hF]
    intro e
    have : join (together [x, y, z]) .np = together [x, y, z] := by
      show join (join x (join y (join z .np))) .np = join x (join y (join z .np))
      ac_rfl
    rw [e] at this
    cases this
  by_cases hbad : F = .bad
  · rw [hbad]
    simp [checkKind, bind, Except.bind]
  · have hck : checkKind F = .ok F := by cases F <;> first | rfl | exact absurd rfl hbad
    rw [hck]
    have hFx : join F x = F := by
      rw [← hF]; show join (join x (join y (join z .np))) x = join x (join y (join z .np)); ac_rfl
    have hFy : join F y = F := by
      rw [← hF]; show join (join x (join y (join z .np))) y = join x (join y (join z .np)); ac_rfl
    have hFz : join F z = F := by
      rw [← hF]; show join (join x (join y (join z .np))) z = join x (join y (join z .np)); ac_rfl
    have hFn : join F .np = F := by
      rw [← hF]; show join (join x (join y (join z .np))) .np = join x (join y (join z .np)); ac_rfl
    have hu : sqrt (0.5 * (F ^ 2 - (sqrt ((Kind.py : Kind) ^ 2 - (Kind.py : Kind) ^ 2)) ^ 2) +
        0.5 * hypot (F ^ 2 - (sqrt ((Kind.py : Kind) ^ 2 - (Kind.py : Kind) ^ 2)) ^ 2) (2.0 * sqrt ((Kind.py : Kind) ^ 2 - (Kind.py : Kind) ^ 2) * z)) = F := by
      show join (join (join F .np) (join (join (join F .np) (join .np z)) .np)) .np = F
      rw [hFn, join_comm .np z, ← join_assoc F z, hFz, hFn, hFn, join_idem, hFn]
    have hE : hypot F (sqrt ((Kind.py : Kind) ^ 2 - (Kind.py : Kind) ^ 2)) = F := by
      show join (join F .np) .np = F
      rw [hFn, hFn]
    have hxy : hypot x y = join (join x y) .np := rfl
    have hFxy : join F (hypot x y) = F := by
      rw [hxy, ← join_assoc, ← join_assoc, hFx, hFy, hFn]
    simp only [bind, Except.bind]
    rw [hu, hE]
    unfold betaNumpyKind
    have hib : F + hypot x y = F := hFxy
    simp only [bind, Except.bind, hib]
    have hself : maskGet F F = .ok () := by
      cases F with
      | py => exact absurd rfl hFpy
      | np => rfl
      | arr s => simp [maskGet]
      | bad => exact absurd rfl hbad
    simp only [hself]
    have hT1 : together [z] = join z .np := rfl
    have hT2 : together [x, y] = join (hypot x y) .np := by
      rw [hxy]; show join x (join y .np) = join (join (join x y) .np) .np; ac_rfl
    have hne : hypot x y ≠ .py := by
      rw [hxy]; generalize join x y = k; cases k <;> simp [join]
    rw [hT1, hT2]
    rcases maskGet_full z F hbad hFpy hFz with ⟨hz, m, hm⟩ | ⟨hz, hj, hm⟩ | ⟨hz, hj, hm⟩
    · rw [hm]
      subst hz
      simp only [if_true]
      constructor
      · rintro ⟨r, hr⟩
        refine ⟨hbad, ?_, ?_⟩
        · rw [← floatOf_ok]
          cases hx : floatOf x with
          | ok v => exact ⟨v, rfl⟩
          | error e => simp [hx] at hr
        · rw [← floatOf_ok]
          cases hx : floatOf x with
          | error e => simp [hx] at hr
          | ok v =>
            cases hy : floatOf y with
            | ok v => exact ⟨v, rfl⟩
            | error e => simp [hx, hy] at hr
      · rintro ⟨-, hx, hy⟩
        obtain ⟨vx, hx⟩ := (floatOf_ok x).mpr hx
        obtain ⟨vy, hy⟩ := (floatOf_ok y).mpr hy
        have hp : floatOf .py = .ok .py := rfl
        simp [hx, hy, hp, pure, Except.pure]
    · rw [hm]
      rcases maskGet_full (hypot x y) F hbad hFpy hFxy with ⟨hz', m, hm'⟩ | ⟨hz', hj', hm'⟩ | ⟨hz', hj', hm'⟩
      · exact absurd hz' hne
      · simp [hm', hz, hj, hj', hbad, pure, Except.pure]
      · simp [hm', hz, hj, hj', hbad]
    · rw [hm]
      simp [hz, hj, hbad]

/-- what `geodetic2ecef` returns: `z` does not have the shape of the longitude -/
theorem geodetic2ecef_kinds (lat lon alt : Kind) (ell : Option (Ellipsoid Kind)) (h : pyEll ell) (deg : Bool) :
    geodetic2ecef lat lon alt ell deg = (together [lat, lon, alt], together [lat, lon, alt], together [lat, alt]) := by
  obtain ⟨ha, hb⟩ := axes_py h
  have hl : ∀ k, join (inAngle deg k) .np = join k .np := by
    intro k; cases deg
    · rfl
    · show join (join k .np) .np = _; rw [join_assoc, join_idem]
  have e1 : geodetic2ecef lat lon alt ell deg =
      (together [inAngle deg lat, inAngle deg lon, alt], together [inAngle deg lat, inAngle deg lon, alt], together [inAngle deg lat, alt]) := by
    unfold geodetic2ecef
    simp only [ha, hb]
    generalize inAngle deg lat = a
    generalize inAngle deg lon = o
    have e1 : (Kind.py : Kind) ^ 2 / hypot (Kind.py * cos a) (Kind.py * sin a) = join (join (join a .np) (join a .np)) .np := rfl
    rw [e1]
    refine Prod.ext ?_ (Prod.ext ?_ ?_)
    · show join (join (join (join (join (join a .np) (join a .np)) .np) alt) (join a .np)) (join o .np) = join a (join o (join alt .np)); ac_rfl
    · show join (join (join (join (join (join a .np) (join a .np)) .np) alt) (join a .np)) (join o .np) = join a (join o (join alt .np)); ac_rfl
    · show join (join (join (join (join (join a .np) (join a .np)) .np) .py) alt) (join a .np) = join a (join alt .np)
      rw [join_py]; ac_rfl
  rw [e1]
  have t3 : together [inAngle deg lat, inAngle deg lon, alt] = join (join (inAngle deg lat) .np) (join (join (inAngle deg lon) .np) alt) := by
    show join _ (join _ (join alt .np)) = _; ac_rfl
  have t2 : together [inAngle deg lat, alt] = join (join (inAngle deg lat) .np) alt := by
    show join _ (join alt .np) = _; ac_rfl
  rw [t3, t2, hl, hl]
  refine Prod.ext ?_ (Prod.ext ?_ ?_)
  · show join (join lat .np) (join (join lon .np) alt) = join lat (join lon (join alt .np)); ac_rfl
  · show join (join lat .np) (join (join lon .np) alt) = join lat (join lon (join alt .np)); ac_rfl
  · show join (join lat .np) alt = join lat (join alt .np); ac_rfl

theorem together_np (ks : List Kind) : join (together ks) .np = together ks := by
  induction ks with
  | nil => rfl
  | cons k ks ih => show join (join k (together ks)) .np = join k (together ks); rw [join_assoc, ih]

theorem together_ne_py (ks : List Kind) : together ks ≠ .py := by
  intro h
  have := together_np ks
  rw [h] at this
  cases this

theorem inAngle_np (deg : Bool) (k : Kind) : join (inAngle deg k) .np = join k .np := by
  cases deg
  · rfl
  · show join (join k .np) .np = _; rw [join_assoc, join_idem]

/-- **C81.** going back from `geodetic2ecef` with `ecef2geodetic` works iff the latitude and altitude already have the shape of everything: a scalar
latitude and altitude with an array of longitudes raise -/
theorem geodetic_round_trip_mixed (lat lon alt : Kind) (ell : Option (Ellipsoid Kind)) (h : pyEll ell) (deg : Bool) :
    let p := geodetic2ecef lat lon alt ell deg
    (∃ r, ecef2geodeticKind p.1 p.2.1 p.2.2 ell deg = .ok r) ↔
      together [lat, lon, alt] ≠ .bad ∧ together [lat, alt] = together [lat, lon, alt] := by
  intro p
  rw [ecef2geodetic_mixed _ _ _ ell h deg]
  simp only [p, geodetic2ecef_kinds lat lon alt ell h deg]
  rw [if_neg (together_ne_py _)]
  have e1 : together [together [lat, lon, alt], together [lat, lon, alt], together [lat, alt]] = together [lat, lon, alt] := by
    show join (join lat (join lon (join alt .np))) (join (join lat (join lon (join alt .np))) (join (join lat (join alt .np)) .np)) =
      join lat (join lon (join alt .np)); ac_rfl
  have e2 : together [together [lat, alt]] = together [lat, alt] := together_np _
  have e3 : together [together [lat, lon, alt], together [lat, lon, alt]] = together [lat, lon, alt] := by
    show join (join lat (join lon (join alt .np))) (join (join lat (join lon (join alt .np))) .np) = join lat (join lon (join alt .np)); ac_rfl
  rw [e1, e2, e3]
  simp

theorem enu2uvw_kinds (e n u lat0 lon0 : Kind) (deg : Bool) :
    enu2uvw e n u lat0 lon0 deg = (together [e, n, u, lat0, lon0], together [e, n, u, lat0, lon0], together [n, u, lat0]) := by
  have hp := inAngle_np deg lat0
  have hq := inAngle_np deg lon0
  unfold enu2uvw
  generalize inAngle deg lat0 = a at hp ⊢
  generalize inAngle deg lon0 = o at hq ⊢
  refine Prod.ext ?_ (Prod.ext ?_ ?_)
  · show join (join (join o .np) (join (join (join a .np) u) (join (join a .np) n))) (join (join o .np) e) = join e (join n (join u (join lat0 (join lon0 .np))))
    rw [hp, hq]; ac_rfl
  · show join (join (join o .np) (join (join (join a .np) u) (join (join a .np) n))) (join (join o .np) e) = join e (join n (join u (join lat0 (join lon0 .np))))
    rw [hp, hq]; ac_rfl
  · show join (join (join a .np) u) (join (join a .np) n) = join n (join u (join lat0 .np))
    rw [hp]; ac_rfl

theorem enu2ecef_kinds (e n u lat0 lon0 h0 : Kind) (ell : Option (Ellipsoid Kind)) (h : pyEll ell) (deg : Bool) :
    enu2ecef e n u lat0 lon0 h0 ell deg =
      (together [e, n, u, lat0, lon0, h0], together [e, n, u, lat0, lon0, h0], together [n, u, lat0, h0]) := by
  unfold enu2ecef
  simp only [geodetic2ecef_kinds lat0 lon0 h0 ell h deg, enu2uvw_kinds]
  refine Prod.ext ?_ (Prod.ext ?_ ?_)
  · show join (join lat0 (join lon0 (join h0 .np))) (join e (join n (join u (join lat0 (join lon0 .np))))) = join e (join n (join u (join lat0 (join lon0 (join h0 .np))))); ac_rfl
  · show join (join lat0 (join lon0 (join h0 .np))) (join e (join n (join u (join lat0 (join lon0 .np))))) = join e (join n (join u (join lat0 (join lon0 (join h0 .np))))); ac_rfl
  · show join (join lat0 (join h0 .np)) (join n (join u (join lat0 .np))) = join n (join u (join lat0 (join h0 .np))); ac_rfl

/-- `ecef2geodetic` of coordinates of which `z` may have a smaller shape -/
theorem ecef2geodetic_of_kinds (F z : Kind) (hF : join F .np = F) (hz : join z .np = z) (hz' : z ≠ .py) (hFz : join F z = F) (ell : Option (Ellipsoid Kind))
    (h : pyEll ell) (deg : Bool) : (∃ r, ecef2geodeticKind F F z ell deg = .ok r) ↔ F ≠ .bad ∧ z = F := by
  rw [ecef2geodetic_mixed _ _ _ ell h deg, if_neg hz']
  have e1 : together [F, F, z] = F := by
    show join F (join F (join z .np)) = F
    rw [hz, hFz, join_idem]
  have e2 : together [z] = z := hz
  have e3 : together [F, F] = F := by
    show join F (join F .np) = F
    rw [hF, join_idem]
  rw [e1, e2, e3]
  simp

/-- **C81.** `enu2geodetic` (and `ned2geodetic`, the same call with renamed arguments) accepts a mixture of numbers and arrays iff north, up, the observer's
latitude and altitude together have the full shape: an array of eastings with scalar northings and heights raises -/
theorem enu2geodetic_mixed (e n u lat0 lon0 h0 : Kind) (ell : Option (Ellipsoid Kind)) (h : pyEll ell) (deg : Bool) :
    (∃ r, enu2geodeticKind e n u lat0 lon0 h0 ell deg = .ok r) ↔
      together [e, n, u, lat0, lon0, h0] ≠ .bad ∧ together [n, u, lat0, h0] = together [e, n, u, lat0, lon0, h0] := by
  unfold enu2geodeticKind
  simp only [enu2ecef_kinds e n u lat0 lon0 h0 ell h deg]
  refine ecef2geodetic_of_kinds _ _ (together_np _) (together_np _) (together_ne_py _) ?_ ell h deg
  show join (join e (join n (join u (join lat0 (join lon0 (join h0 .np)))))) (join n (join u (join lat0 (join h0 .np)))) =
    join e (join n (join u (join lat0 (join lon0 (join h0 .np))))); ac_rfl

theorem aer2enu_kinds (az el r : Kind) (deg : Bool) :
    aer2enu az el r deg = (together [az, el, r], together [az, el, r], together [el, r]) := by
  have hp := inAngle_np deg az
  have hq := inAngle_np deg el
  unfold aer2enu
  generalize inAngle deg az = a at hp ⊢
  generalize inAngle deg el = o at hq ⊢
  refine Prod.ext ?_ (Prod.ext ?_ ?_)
  · show join (join r (join o .np)) (join a .np) = join az (join el (join r .np)); rw [hp, hq]; ac_rfl
  · show join (join r (join o .np)) (join a .np) = join az (join el (join r .np)); rw [hp, hq]; ac_rfl
  · show join r (join o .np) = join el (join r .np); rw [hq]; ac_rfl

/-- **C81.** `aer2geodetic` accepts a mixture iff everything but the observer's longitude already has the full shape -/
theorem aer2geodetic_mixed (az el r lat0 lon0 h0 : Kind) (ell : Option (Ellipsoid Kind)) (h : pyEll ell) (deg : Bool) :
    (∃ q, aer2geodeticKind az el r lat0 lon0 h0 ell deg = .ok q) ↔
      together [az, el, r, lat0, lon0, h0] ≠ .bad ∧ together [az, el, r, lat0, h0] = together [az, el, r, lat0, lon0, h0] := by
  have hk : aer2ecef az el r lat0 lon0 h0 ell deg =
      (together [az, el, r, lat0, lon0, h0], together [az, el, r, lat0, lon0, h0], together [az, el, r, lat0, h0]) := by
    unfold aer2ecef
    simp only [geodetic2ecef_kinds lat0 lon0 h0 ell h deg, aer2enu_kinds, enu2uvw_kinds]
    refine Prod.ext ?_ (Prod.ext ?_ ?_)
    · show join (join lat0 (join lon0 (join h0 .np))) (join (join az (join el (join r .np))) (join (join az (join el (join r .np))) (join (join el (join r .np)) (join lat0 (join lon0 .np))))) =
        join az (join el (join r (join lat0 (join lon0 (join h0 .np))))); ac_rfl
    · show join (join lat0 (join lon0 (join h0 .np))) (join (join az (join el (join r .np))) (join (join az (join el (join r .np))) (join (join el (join r .np)) (join lat0 (join lon0 .np))))) =
        join az (join el (join r (join lat0 (join lon0 (join h0 .np))))); ac_rfl
    · show join (join lat0 (join h0 .np)) (join (join az (join el (join r .np))) (join (join el (join r .np)) (join lat0 .np))) =
        join az (join el (join r (join lat0 (join h0 .np)))); ac_rfl
  unfold aer2geodeticKind
  simp only [hk]
  refine ecef2geodetic_of_kinds _ _ (together_np _) (together_np _) (together_ne_py _) ?_ ell h deg
  show join (join az (join el (join r (join lat0 (join lon0 (join h0 .np)))))) (join az (join el (join r (join lat0 (join h0 .np))))) =
    join az (join el (join r (join lat0 (join lon0 (join h0 .np))))); ac_rfl

/-- **C81.** which mixtures `enu2aer` accepts: three arrays that can be broadcast together, or three single values -/
theorem enu2aer_mixed (e n u : Kind) (deg : Bool) (he : e ≠ .bad) (hn : n ≠ .bad) (hu : u ≠ .bad) :
    (∃ r, enu2aerKind e n u deg = .ok r) ↔
      (IsArr e ∧ IsArr n ∧ IsArr u ∧ together [e, n, u] ≠ .bad) ∨ (¬ (IsArr e ∧ IsArr n ∧ IsArr u) ∧ Single e ∧ Single n ∧ Single u) := by
  have hT : hypot (hypot e n) u = together [e, n, u] := by
    show join (join (join (join e n) .np) u) .np = join e (join n (join u .np)); ac_rfl
  by_cases hall : IsArr e ∧ IsArr n ∧ IsArr u
  · obtain ⟨⟨s, rfl⟩, ⟨t, rfl⟩, ⟨r, rfl⟩⟩ := hall
    have h3 : IsArr (.arr s) ∧ IsArr (.arr t) ∧ IsArr (.arr r) := ⟨⟨_, rfl⟩, ⟨_, rfl⟩, ⟨_, rfl⟩⟩
    simp only [h3, not_true_eq_false, false_and, or_false, true_and, and_self]
    unfold enu2aerKind
    simp only [maskSetSelf, bind, Except.bind, pure, Except.pure, hT]
    generalize together [.arr s, .arr t, .arr r] = T
    cases T <;> simp [checkKind]
  · have hor : ∀ P : Prop, ((IsArr e ∧ IsArr n ∧ IsArr u ∧ P) ∨ (¬ (IsArr e ∧ IsArr n ∧ IsArr u) ∧ Single e ∧ Single n ∧ Single u)) ↔
        (Single e ∧ Single n ∧ Single u) := by
      intro P
      constructor
      · rintro (⟨a, b, c, -⟩ | ⟨-, h⟩)
        · exact absurd ⟨a, b, c⟩ hall
        · exact h
      · exact fun h => .inr ⟨hall, h⟩
    rw [hor]
    have htrim : ∃ m, (do maskSetSelf e; maskSetSelf n; maskSetSelf u : Except PyErr Unit) = .error (.typeError m) := by
      cases e with
      | bad => exact absurd rfl he
      | py => exact ⟨_, rfl⟩
      | np => exact ⟨_, rfl⟩
      | arr s =>
        cases n with
        | bad => exact absurd rfl hn
        | py => exact ⟨_, rfl⟩
        | np => exact ⟨_, rfl⟩
        | arr t =>
          cases u with
          | bad => exact absurd rfl hu
          | py => exact ⟨_, rfl⟩
          | np => exact ⟨_, rfl⟩
          | arr r => exact absurd ⟨⟨_, rfl⟩, ⟨_, rfl⟩, ⟨_, rfl⟩⟩ hall
    obtain ⟨m, hm⟩ := htrim
    unfold enu2aerKind
    simp only [hm]
    rw [← floatOf_ok, ← floatOf_ok, ← floatOf_ok]
    have hf : ∀ k v, floatOf k = .ok v → v = .py := by
      intro k v hk
      cases k with
      | py => exact (Except.ok.inj hk).symm
      | np => exact (Except.ok.inj hk).symm
      | bad => cases hk
      | arr s => by_cases hs : s.prod = 1 <;> simp [floatOf, hs] at hk; exact hk.symm
    cases h1 : floatOf e with
    | error x => simp [bind, Except.bind]
    | ok v1 =>
      cases h2 : floatOf n with
      | error x => simp [bind, Except.bind]
      | ok v2 =>
        cases h3 : floatOf u with
        | error x => simp [bind, Except.bind]
        | ok v3 =>
          rw [hf _ _ h1, hf _ _ h2, hf _ _ h3]
          constructor
          · intro _; exact ⟨⟨_, rfl⟩, ⟨_, rfl⟩, ⟨_, rfl⟩⟩
          · intro _; exact ⟨_, rfl⟩

theorem uvw2enu_kinds (u v w lat0 lon0 : Kind) (deg : Bool) :
    uvw2enu u v w lat0 lon0 deg = (together [u, v, lon0], together [u, v, w, lat0, lon0], together [u, v, w, lat0, lon0]) := by
  have hp := inAngle_np deg lat0
  have hq := inAngle_np deg lon0
  unfold uvw2enu
  generalize inAngle deg lat0 = a at hp ⊢
  generalize inAngle deg lon0 = o at hq ⊢
  refine Prod.ext ?_ (Prod.ext ?_ ?_)
  · show join (join (join o .np) u) (join (join o .np) v) = join u (join v (join lon0 .np)); rw [hq]; ac_rfl
  · show join (join (join a .np) (join (join (join o .np) u) (join (join o .np) v))) (join (join a .np) w) = join u (join v (join w (join lat0 (join lon0 .np))))
    rw [hp, hq]; ac_rfl
  · show join (join (join a .np) (join (join (join o .np) u) (join (join o .np) v))) (join (join a .np) w) = join u (join v (join w (join lat0 (join lon0 .np))))
    rw [hp, hq]; ac_rfl

theorem ecef2enu_kinds (x y z lat0 lon0 h0 : Kind) (ell : Option (Ellipsoid Kind)) (h : pyEll ell) (deg : Bool) :
    ecef2enu x y z lat0 lon0 h0 ell deg =
      (together [x, y, lat0, lon0, h0], together [x, y, z, lat0, lon0, h0], together [x, y, z, lat0, lon0, h0]) := by
  unfold ecef2enu
  simp only [geodetic2ecef_kinds lat0 lon0 h0 ell h deg, uvw2enu_kinds]
  refine Prod.ext ?_ (Prod.ext ?_ ?_)
  · show join (join x (join lat0 (join lon0 (join h0 .np)))) (join (join y (join lat0 (join lon0 (join h0 .np)))) (join lon0 .np)) =
      join x (join y (join lat0 (join lon0 (join h0 .np)))); ac_rfl
  · show join (join x (join lat0 (join lon0 (join h0 .np)))) (join (join y (join lat0 (join lon0 (join h0 .np)))) (join (join z (join lat0 (join h0 .np))) (join lat0 (join lon0 .np)))) =
      join x (join y (join z (join lat0 (join lon0 (join h0 .np))))); ac_rfl
  · show join (join x (join lat0 (join lon0 (join h0 .np)))) (join (join y (join lat0 (join lon0 (join h0 .np)))) (join (join z (join lat0 (join h0 .np))) (join lat0 (join lon0 .np)))) =
      join x (join y (join z (join lat0 (join lon0 (join h0 .np))))); ac_rfl

theorem bad_of_join_right {a b : Kind} (h : b = .bad) : join a b = .bad := by rw [h, join_bad]

theorem enu2aer_bad (e n u : Kind) (deg : Bool) (h : n = .bad ∨ u = .bad) : ¬ ∃ r, enu2aerKind e n u deg = .ok r := by
  rintro ⟨r, hr⟩
  unfold enu2aerKind at hr
  rcases h with rfl | rfl
  · cases e with
    | bad => simp [maskSetSelf, bind, Except.bind] at hr
    | py => simp [maskSetSelf, bind, Except.bind, floatOf] at hr
    | np => simp [maskSetSelf, bind, Except.bind, floatOf] at hr
    | arr s => simp [maskSetSelf, bind, Except.bind] at hr
  · have hb : floatOf .bad = .error (.valueError "operands could not be broadcast together") := rfl
    cases e with
    | bad => simp [maskSetSelf, bind, Except.bind] at hr
    | py =>
      simp only [maskSetSelf, bind, Except.bind, hb] at hr
      cases h1 : floatOf .py <;> cases h2 : floatOf n <;> simp [h1, h2] at hr
    | np =>
      simp only [maskSetSelf, bind, Except.bind, hb] at hr
      cases h1 : floatOf .np <;> cases h2 : floatOf n <;> simp [h1, h2] at hr
    | arr s =>
      cases n with
      | bad => simp [maskSetSelf, bind, Except.bind] at hr
      | py =>
        simp only [maskSetSelf, bind, Except.bind, hb] at hr
        cases h1 : floatOf (.arr s) <;> cases h2 : floatOf .py <;> simp [h1, h2] at hr
      | np =>
        simp only [maskSetSelf, bind, Except.bind, hb] at hr
        cases h1 : floatOf (.arr s) <;> cases h2 : floatOf .np <;> simp [h1, h2] at hr
      | arr t => simp [maskSetSelf, bind, Except.bind] at hr

/-- **C81.** `geodetic2aer` accepts every mixture of numbers and arrays that can be broadcast together -/
theorem geodetic2aer_mixed (lat lon alt lat0 lon0 h0 : Kind) (ell : Option (Ellipsoid Kind)) (h : pyEll ell) (deg : Bool) :
    (∃ r, geodetic2aerKind lat lon alt lat0 lon0 h0 ell deg = .ok r) ↔ together [lat, lon, alt, lat0, lon0, h0] ≠ .bad := by
  have hk : geodetic2enu lat lon alt lat0 lon0 h0 ell deg =
      (together [lat, lon, alt, lat0, lon0, h0], together [lat, lon, alt, lat0, lon0, h0], together [lat, lon, alt, lat0, lon0, h0]) := by
    unfold geodetic2enu
    simp only [geodetic2ecef_kinds _ _ _ ell h deg, uvw2enu_kinds]
    refine Prod.ext ?_ (Prod.ext ?_ ?_)
    · show join (join (join lat (join lon (join alt .np))) (join lat0 (join lon0 (join h0 .np)))) (join (join (join lat (join lon (join alt .np))) (join lat0 (join lon0 (join h0 .np)))) (join lon0 .np)) =
        join lat (join lon (join alt (join lat0 (join lon0 (join h0 .np))))); ac_rfl
    · show join (join (join lat (join lon (join alt .np))) (join lat0 (join lon0 (join h0 .np)))) (join (join (join lat (join lon (join alt .np))) (join lat0 (join lon0 (join h0 .np))))
          (join (join (join lat (join alt .np)) (join lat0 (join h0 .np))) (join lat0 (join lon0 .np)))) =
        join lat (join lon (join alt (join lat0 (join lon0 (join h0 .np))))); ac_rfl
    · show join (join (join lat (join lon (join alt .np))) (join lat0 (join lon0 (join h0 .np)))) (join (join (join lat (join lon (join alt .np))) (join lat0 (join lon0 (join h0 .np))))
          (join (join (join lat (join alt .np)) (join lat0 (join h0 .np))) (join lat0 (join lon0 .np)))) =
        join lat (join lon (join alt (join lat0 (join lon0 (join h0 .np))))); ac_rfl
  unfold geodetic2aerKind
  simp only [hk]
  have hnp := together_np [lat, lon, alt, lat0, lon0, h0]
  have hpy := together_ne_py [lat, lon, alt, lat0, lon0, h0]
  generalize together [lat, lon, alt, lat0, lon0, h0] = F at hnp hpy ⊢
  by_cases hb : F = .bad
  · exact ⟨fun hr => absurd hr (enu2aer_bad _ _ _ _ (.inl hb)), fun hn => absurd hb hn⟩
  · rw [enu2aer_mixed _ _ _ _ hb hb hb]
    have hT : together [F, F, F] = F := by
      show join F (join F (join F .np)) = F
      rw [hnp, join_idem, join_idem]
    rw [hT]
    cases F with
    | py => exact absurd rfl hpy
    | bad => exact absurd rfl hb
    | np => simp [IsArr, Single]
    | arr s => simp [IsArr, Single]

/-- **C81.** `ecef2aer` accepts a mixture iff `x`, `y` and the observer together are an array, or everything is a single value: an array of `z` with
numbers for `x` and `y` and one observer raises -/
theorem ecef2aer_mixed (x y z lat0 lon0 h0 : Kind) (ell : Option (Ellipsoid Kind)) (h : pyEll ell) (deg : Bool) :
    (∃ r, ecef2aerKind x y z lat0 lon0 h0 ell deg = .ok r) ↔ together [x, y, z, lat0, lon0, h0] ≠ .bad ∧
      (IsArr (together [x, y, lat0, lon0, h0]) ∨ Single (together [x, y, z, lat0, lon0, h0])) := by
  unfold ecef2aerKind
  simp only [ecef2enu_kinds x y z lat0 lon0 h0 ell h deg]
  have hle : join (together [x, y, z, lat0, lon0, h0]) (together [x, y, lat0, lon0, h0]) = together [x, y, z, lat0, lon0, h0] := by
    show join (join x (join y (join z (join lat0 (join lon0 (join h0 .np)))))) (join x (join y (join lat0 (join lon0 (join h0 .np))))) =
      join x (join y (join z (join lat0 (join lon0 (join h0 .np))))); ac_rfl
  have hnp := together_np [x, y, z, lat0, lon0, h0]
  have hpy := together_ne_py [x, y, z, lat0, lon0, h0]
  have hpy' := together_ne_py [x, y, lat0, lon0, h0]
  generalize together [x, y, z, lat0, lon0, h0] = F at hnp hpy hle ⊢
  generalize together [x, y, lat0, lon0, h0] = E at hpy' hle ⊢
  by_cases hb : F = .bad
  · exact ⟨fun hr => absurd hr (enu2aer_bad _ _ _ _ (.inl hb)), fun hn => absurd hb hn.1⟩
  · have hEb : E ≠ .bad := by
      intro e; rw [e, join_bad] at hle; exact hb hle.symm
    rw [enu2aer_mixed _ _ _ _ hEb hb hb]
    have hT : together [E, F, F] = F := by
      show join E (join F (join F .np)) = F
      rw [hnp, join_idem, join_comm, hle]
    rw [hT]
    cases E with
    | py => exact absurd rfl hpy'
    | bad => exact absurd rfl hEb
    | np =>
      cases F with
      | py => exact absurd rfl hpy
      | bad => exact absurd rfl hb
      | np => simp [IsArr, Single]
      | arr s => simp [IsArr, Single]
    | arr t =>
      cases F with
      | py => exact absurd rfl hpy
      | bad => exact absurd rfl hb
      | np => exact absurd hle (by simp [join])
      | arr s => simp [IsArr, Single]

/-- **C81.** shapes of the results of `ecef2geodetic` for three arrays of one shape: the latitude loses its axes of length one, longitude and altitude keep them -/
theorem ecef2geodetic_shapes (s : List Nat) (ell : Option (Ellipsoid Kind)) (h : pyEll ell) (deg : Bool) :
    ecef2geodeticKind (.arr s) (.arr s) (.arr s) ell deg = .ok (squeezeKind (.arr s), .arr s, .arr s) := by
  obtain ⟨ha, hb⟩ := axes_py h
  have hj : join (.arr s) (.arr s) = .arr s := join_idem _
  have hr : sqrt ((Kind.arr s) ^ 2 + (Kind.arr s) ^ 2 + (Kind.arr s) ^ 2) = .arr s := by
    show join (join (join (.arr s) (.arr s)) (.arr s)) .np = .arr s
    rw [hj, hj]; rfl
  have hu : sqrt (0.5 * ((Kind.arr s) ^ 2 - (sqrt ((Kind.py : Kind) ^ 2 - (Kind.py : Kind) ^ 2)) ^ 2) +
      0.5 * hypot ((Kind.arr s) ^ 2 - (sqrt ((Kind.py : Kind) ^ 2 - (Kind.py : Kind) ^ 2)) ^ 2) (2.0 * sqrt ((Kind.py : Kind) ^ 2 - (Kind.py : Kind) ^ 2) * .arr s)) = .arr s := by
    show join (join (.arr s) (join (join (.arr s) (.arr s)) .np)) .np = .arr s
    rw [hj]; show join (join (.arr s) (.arr s)) .np = .arr s; rw [hj]; rfl
  have hh : hypot (Kind.arr s) (.arr s) = .arr s := by
    show join (join (.arr s) (.arr s)) .np = .arr s
    rw [hj]; rfl
  have hE : hypot (Kind.arr s) (sqrt ((Kind.py : Kind) ^ 2 - (Kind.py : Kind) ^ 2)) = .arr s := rfl
  have hadd : Kind.arr s + Kind.arr s = .arr s := hj
  have hsub : Kind.arr s - Kind.arr s = .arr s := hj
  have hat : atan2 (Kind.arr s) (.arr s) = .arr s := hh
  have hd : ∀ k, k ≠ Kind.py → outAngle deg k = k := by
    intro k hk
    cases deg
    · rfl
    · show join k .np = k
      cases k <;> first | rfl | exact absurd rfl hk
  unfold ecef2geodeticKind betaNumpyKind
  simp only [ha, hb, hr, checkKind, bind, Except.bind, pure, Except.pure]
  rw [hu, hE, hh, hadd, hsub, hat]
  have hm : maskGet (.arr s) (.arr s) = .ok () := by simp [maskGet]
  simp only [hm, hh]
  rw [hd _ (by unfold squeezeKind; split <;> first | (split <;> simp) | simp_all), hd _ (by simp)]

theorem losMagnitude_kinds (u v w : Kind) : losMagnitude .py .py .py u v w = join (join w v) u := rfl
theorem losValue_kinds (u v w x y z : Kind) : losValue .py .py .py u v w x y z = join (join (join w z) (join v y)) (join u x) := rfl

/-- **C81.** `lookAtSpheroid` accepts every mixture of numbers and arrays that can be broadcast together -/
theorem lookAtSpheroid_mixed (lat0 lon0 h0 az tilt : Kind) (ell : Option (Ellipsoid Kind)) (h : pyEll ell) (deg : Bool) :
    (∃ r, lookAtSpheroidKind lat0 lon0 h0 az tilt ell deg = .ok r) ↔ together [lat0, lon0, h0, az, tilt] ≠ .bad := by
  obtain ⟨ha, hb⟩ := axes_py h
  have hel : (if deg = true then tilt - 90.0 else tilt - pi / 2.0) = tilt := by
    cases deg
    · show join tilt .py = tilt; exact join_py _
    · show join tilt .py = tilt; exact join_py _
  unfold lookAtSpheroidKind
  simp only [ha, hb, hel, aer2enu_kinds, enu2uvw_kinds, geodetic2ecef_kinds lat0 lon0 h0 none (by intro e he; cases he) deg]
  have hone : (1.0 : Kind) = .py := rfl
  rw [hone]
  have hU : together [together [az, tilt, .py], together [az, tilt, .py], together [tilt, .py], lat0, lon0] = together [lat0, lon0, az, tilt] := by
    show join (join az (join tilt (join .py .np))) (join (join az (join tilt (join .py .np))) (join (join tilt (join .py .np)) (join lat0 (join lon0 .np)))) =
      join lat0 (join lon0 (join az (join tilt .np)))
    rw [py_join]; ac_rfl
  have hW : together [together [az, tilt, .py], together [tilt, .py], lat0] = together [lat0, az, tilt] := by
    show join (join az (join tilt (join .py .np))) (join (join tilt (join .py .np)) (join lat0 .np)) = join lat0 (join az (join tilt .np))
    rw [py_join]; ac_rfl
  rw [hU, hW]
  have hF : ∀ k, k = join (together [lat0, lon0, az, tilt]) (together [lat0, lon0, h0]) → k = together [lat0, lon0, h0, az, tilt] := by
    intro k hk
    rw [hk]
    show join (join lat0 (join lon0 (join az (join tilt .np)))) (join lat0 (join lon0 (join h0 .np))) = join lat0 (join lon0 (join h0 (join az (join tilt .np))))
    ac_rfl
  have hrad : losRadical .py .py .py (together [lat0, lon0, az, tilt]) (together [lat0, lon0, az, tilt]) (together [lat0, az, tilt])
      (together [lat0, lon0, h0]) (together [lat0, lon0, h0]) (together [lat0, h0]) = together [lat0, lon0, h0, az, tilt] := by
    have hw : join (together [lat0, lon0, az, tilt]) (together [lat0, az, tilt]) = together [lat0, lon0, az, tilt] := by
      show join (join lat0 (join lon0 (join az (join tilt .np)))) (join lat0 (join az (join tilt .np))) = join lat0 (join lon0 (join az (join tilt .np))); ac_rfl
    have hz : join (together [lat0, lon0, h0]) (together [lat0, h0]) = together [lat0, lon0, h0] := by
      show join (join lat0 (join lon0 (join h0 .np))) (join lat0 (join h0 .np)) = join lat0 (join lon0 (join h0 .np)); ac_rfl
    apply hF
    generalize together [lat0, lon0, az, tilt] = U at hw ⊢
    generalize together [lat0, lon0, h0] = X at hz ⊢
    generalize together [lat0, az, tilt] = W at hw ⊢
    generalize together [lat0, h0] = Z at hz ⊢
    have e : losRadical .py .py .py U U W X X Z = join (join U W) (join X Z) := by
      show join (join (join (join (join (join (join (join (join (join (join W U) (join U Z)) (join (join (join U W) X) Z)) (join W X)) U) (join U Z)) (join (join (join U W) X) Z)) (join W X)) (join U X)) (join (join (join U U) X) X)) (join U X) = join (join U W) (join X Z)
      ac_rfl
    rw [e, hw, hz]
  rw [hrad]
  by_cases hbad : together [lat0, lon0, h0, az, tilt] = .bad
  · rw [hbad]; simp [checkKind, bind, Except.bind]
  · have hck : checkKind (together [lat0, lon0, h0, az, tilt]) = .ok (together [lat0, lon0, h0, az, tilt]) := by
      generalize together [lat0, lon0, h0, az, tilt] = F at hbad
      cases F <;> first | rfl | exact absurd rfl hbad
    simp only [hck, bind, Except.bind]
    have hd : (losValue .py .py .py (together [lat0, lon0, az, tilt]) (together [lat0, lon0, az, tilt]) (together [lat0, az, tilt])
        (together [lat0, lon0, h0]) (together [lat0, lon0, h0]) (together [lat0, h0]) - Kind.py * Kind.py * Kind.py * sqrt (together [lat0, lon0, h0, az, tilt])) /
        losMagnitude .py .py .py (together [lat0, lon0, az, tilt]) (together [lat0, lon0, az, tilt]) (together [lat0, az, tilt]) = together [lat0, lon0, h0, az, tilt] := by
      rw [losValue_kinds, losMagnitude_kinds]
      show join (join (join (join (join (join lat0 (join az (join tilt .np))) (join lat0 (join h0 .np))) (join (join lat0 (join lon0 (join az (join tilt .np)))) (join lat0 (join lon0 (join h0 .np)))))
        (join (join lat0 (join lon0 (join az (join tilt .np)))) (join lat0 (join lon0 (join h0 .np))))) (join (join lat0 (join lon0 (join h0 (join az (join tilt .np))))) .np))
        (join (join (join lat0 (join az (join tilt .np))) (join lat0 (join lon0 (join az (join tilt .np))))) (join lat0 (join lon0 (join az (join tilt .np))))) =
        join lat0 (join lon0 (join h0 (join az (join tilt .np))))
      ac_rfl
    rw [hd]
    simp only [hck]
    have hx : together [lat0, lon0, h0] + together [lat0, lon0, h0, az, tilt] * together [lat0, lon0, az, tilt] = together [lat0, lon0, h0, az, tilt] := by
      show join (join lat0 (join lon0 (join h0 .np))) (join (join lat0 (join lon0 (join h0 (join az (join tilt .np))))) (join lat0 (join lon0 (join az (join tilt .np))))) =
        join lat0 (join lon0 (join h0 (join az (join tilt .np)))); ac_rfl
    have hz : together [lat0, h0] + together [lat0, lon0, h0, az, tilt] * together [lat0, az, tilt] = together [lat0, lon0, h0, az, tilt] := by
      show join (join lat0 (join h0 .np)) (join (join lat0 (join lon0 (join h0 (join az (join tilt .np))))) (join lat0 (join az (join tilt .np)))) =
        join lat0 (join lon0 (join h0 (join az (join tilt .np)))); ac_rfl
    rw [hx, hz]
    obtain ⟨r, hr⟩ := (ecef2geodetic_of_kinds _ _ (together_np [lat0, lon0, h0, az, tilt]) (together_np [lat0, lon0, h0, az, tilt]) (together_ne_py _) (join_idem _) none
      (by intro e he; cases he) deg).mpr ⟨hbad, rfl⟩
    rw [hr]
    simp [hbad, pure, Except.pure]

/-! Concrete cases: five longitudes with one latitude; five eastings; a column of five points. -/

/-- round trip of five points of one parallel: raises -/
example : ¬ ∃ r, ecef2geodeticKind (geodetic2ecef .py (.arr [5]) .py none true).1 (geodetic2ecef .py (.arr [5]) .py none true).2.1
    (geodetic2ecef .py (.arr [5]) .py none true).2.2 none true = .ok r := by
  have h := geodetic_round_trip_mixed .py (.arr [5]) .py none (by intro e he; cases he) true
  simp only at h
  rw [h]
  decide
/-- five eastings: raises; five northings: returns -/
example : (¬ ∃ r, enu2geodeticKind (.arr [5]) .py .py .py .py .py none true = .ok r) ∧ (∃ r, enu2geodeticKind .py (.arr [5]) .py .py .py .py none true = .ok r) := by
  rw [enu2geodetic_mixed _ _ _ _ _ _ none (by intro e he; cases he), enu2geodetic_mixed _ _ _ _ _ _ none (by intro e he; cases he)]
  decide
/-- a column of five points (shape (5, 1)): the latitudes come back with shape (5,), longitudes and altitudes with shape (5, 1) -/
example : ecef2geodeticKind (.arr [1, 5]) (.arr [1, 5]) (.arr [1, 5]) none true = .ok (.arr [5], .arr [1, 5], .arr [1, 5]) := by
  rw [ecef2geodetic_shapes [1, 5] none (by intro e he; cases he)]
  rfl
/-- one azimuth, five tilts: `lookAtSpheroid` returns -/
example : ∃ r, lookAtSpheroidKind .py .py .py .py (.arr [5]) none true = .ok r :=
  (lookAtSpheroid_mixed _ _ _ _ _ none (by intro e he; cases he) true).mpr (by decide)

end Pymap3d
